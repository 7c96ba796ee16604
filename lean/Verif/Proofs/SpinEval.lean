/-
Exchanging the spins: the energy of an object and its derivatives.
-/
import Verif.Proofs.SpinFun
import Verif.Proofs.EvalReal
import Verif.Props.Modes
import Verif.Props.Accepted

namespace XCFun

namespace CT

/-- Change the sign of some perturbations. -/
def Hom.neg (n : ℕ) : Hom (n + 1) (n + 1) where
  toRingHom :=
    { toFun := fun t => node t.lo (-t.hi)
      map_one' := by
        show node (1 : CT ℝ n) (-0) = node 1 0
        rw [neg_zero]
      map_zero' := by
        show node (0 : CT ℝ n) (-0) = node 0 0
        rw [neg_zero]
      map_add' := by
        intro x y
        obtain ⟨a, b, rfl⟩ := exists_node x
        obtain ⟨c, d, rfl⟩ := exists_node y
        show node (a + c) (-(b + d)) = node (a + c) (-b + -d)
        rw [neg_add]
      map_mul' := by
        intro x y
        obtain ⟨a, b, rfl⟩ := exists_node x
        obtain ⟨c, d, rfl⟩ := exists_node y
        show node (a * c) (-(b * c + a * d)) = node (a * c) (-b * c + a * -d)
        congr 1
        ring }
  const c := by
    show node (CT.const n c) (-0) = node (CT.const n c) 0
    rw [neg_zero]
  c0 := by
    intro x
    obtain ⟨a, b, rfl⟩ := exists_node x
    rfl

/-- Nothing changed. -/
def Hom.id (n : ℕ) : Hom n n where
  toRingHom := RingHom.id _
  const _ := rfl
  c0 _ := rfl

/-- One map after the other. -/
def Hom.comp {n m k : ℕ} (η : Hom m k) (θ : Hom n m) : Hom n k where
  toRingHom := η.toRingHom.comp θ.toRingHom
  const c := by
    show η.toRingHom (θ.toRingHom _) = _
    rw [θ.const, η.const]
  c0 x := by
    show (η.toRingHom (θ.toRingHom x)).c0 = _
    rw [η.c0, θ.c0]

/-- The sign `+` or `-`. -/
def Hom.sg (n : ℕ) (b : Bool) : Hom (n + 1) (n + 1) := if b then Hom.neg n else Hom.id (n + 1)

end CT

open Spec

/-- The functionals do not change when the spins are exchanged. -/
theorem Fun.energy_flip {id : ℕ} {e : Expr Field} (h : Fun.energy id = some e) {N : ℕ} (ρ : Field → CT ℝ N) :
    e.evalCT (flipField ρ) = e.evalCT ρ := by
  have := (Fun.sym_all e (List.mem_of_getElem? h)).eq ρ
  rw [Expr.evalCT_subst] at this
  rw [← this]
  congr 1
  funext f
  cases f <;> rfl

theorem energyOn_flip (s : State ℝ) {v : Vars} (hv : ¬ Unsupported v) (hA : v ≠ .A ∧ v ≠ .A_GAA) {N : ℕ}
    (ρ : ℕ → CT ℝ N) : energyOn s v (flipInputs v ρ) = energyOn s v ρ := by
  unfold energyOn
  refine congrArg List.sum (List.map_congr_left fun id hid => ?_)
  unfold fullExpr
  obtain ⟨f, hf⟩ := densvars_some (par := s.settings) hv
  rw [hf]
  cases he : Fun.energy id with
  | none => rfl
  | some e =>
    dsimp only
    congr 1
    rw [Expr.evalCT_subst, Expr.evalCT_subst]
    have h1 : ∀ ρ' : ℕ → CT ℝ N, (fun i => (f i).evalCT ρ') = member s.settings v ρ' := by
      intro ρ'; funext i; simp [member, hf]
    rw [h1, h1, ← Fun.energy_flip he (member s.settings v ρ)]
    congr 1
    funext fld
    exact member_flip s.settings hv hA ρ fld

theorem spinPairs_lt (v : Vars) : ∀ p ∈ spinPairs v, p.1 < 20 ∧ p.2 < 20 := by
  cases v <;> decide

theorem flipIndex_ge (v : Vars) {i : ℕ} (h : 20 ≤ i) : flipIndex v i = i := by
  have : (spinPairs v).find? (fun p => p.1 == i || p.2 == i) = none := by
    rw [List.find?_eq_none]
    intro p hp
    have := spinPairs_lt v p hp
    simp; omega
  rw [flipIndex, this]

theorem flipIndex_invol (v : Vars) (i : ℕ) : flipIndex v (flipIndex v i) = i := by
  by_cases h : i < 20
  · revert h i
    cases v <;> decide
  · rw [flipIndex_ge v (i := i) (by omega), flipIndex_ge v (by omega)]

theorem flipIndex_lt {v : Vars} {i : ℕ} (h : i < v.len) : flipIndex v i < v.len := by
  revert h i
  cases v <;> decide

theorem flipIndex_inj (v : Vars) {i j : ℕ} : flipIndex v i = flipIndex v j ↔ i = j :=
  ⟨fun h => by rw [← flipIndex_invol v i, h, flipIndex_invol], fun h => by rw [h]⟩

/-- The sign a derivative with respect to input `i` takes up. -/
def flipSign (v : Vars) (i : ℕ) : ℝ := if flipsSign v i then -1 else 1

section
variable (s : State ℝ) {v : Vars} (hv : ¬ Unsupported v) (hA : v ≠ .A ∧ v ≠ .A_GAA) (x : ℕ → ℝ)
include hv hA

theorem energyR_flip : energyR s v (flipInputs v x) = energyR s v x := by
  have h := energyOn_flip s hv hA (fun i => CT.const 0 (x i))
  rw [← sumExpr_evalCT, ← sumExpr_evalCT, run0] at h
  have e : flipInputs v (fun i => CT.const 0 (x i)) = fun i => CT.const 0 (flipInputs v x i) := by
    funext i
    simp only [flipInputs]
    split <;> rfl
  rw [e, run0] at h
  exact CT.leaf.inj h

theorem flip_all (i j k : ℕ) :
    D1 s v (flipInputs v x) i = flipSign v i * D1 s v x (flipIndex v i) ∧
    D2 s v (flipInputs v x) i j = flipSign v i * flipSign v j * D2 s v x (flipIndex v i) (flipIndex v j) ∧
    D3 s v (flipInputs v x) i j k = flipSign v i * flipSign v j * flipSign v k *
      D3 s v x (flipIndex v i) (flipIndex v j) (flipIndex v k) := by
  have h := energyOn_flip s hv hA (seed3 x (some (flipIndex v i)) (some (flipIndex v j)) (some (flipIndex v k)))
  rw [← sumExpr_evalCT, ← sumExpr_evalCT] at h
  set η : CT.Hom 3 3 := (CT.Hom.sg 2 (flipsSign v k)).comp
    ((CT.Hom.sg 1 (flipsSign v j)).lift.comp (CT.Hom.sg 0 (flipsSign v i)).lift.lift) with hη
  have hη' : ∀ a b c d a' b' c' d' : ℝ, η.toRingHom (.node (.node (.node (.leaf a) (.leaf b)) (.node (.leaf c) (.leaf d)))
      (.node (.node (.leaf a') (.leaf b')) (.node (.leaf c') (.leaf d')))) =
      .node (.node (.node (.leaf a) (.leaf (flipSign v i * b)))
        (.node (.leaf (flipSign v j * c)) (.leaf (flipSign v i * flipSign v j * d))))
      (.node (.node (.leaf (flipSign v k * a')) (.leaf (flipSign v i * flipSign v k * b')))
        (.node (.leaf (flipSign v j * flipSign v k * c')) (.leaf (flipSign v i * flipSign v j * flipSign v k * d')))) := by
    intro a b c d a' b' c' d'
    simp only [hη, flipSign]
    cases flipsSign v i <;> cases flipsSign v j <;> cases flipsSign v k <;>
      simp only [one_mul, mul_one, neg_mul, Bool.false_eq_true, if_false, if_true] <;> rfl
  have e : flipInputs v (seed3 x (some (flipIndex v i)) (some (flipIndex v j)) (some (flipIndex v k))) =
      fun l => η.toRingHom (seed3 (flipInputs v x) (some i) (some j) (some k) l) := by
    funext l
    simp only [seed3, seed2, hη', flipInputs, unit, Option.some.injEq, flipIndex_inj, mul_zero]
    by_cases hl : flipsSign v l = true
    · rw [if_pos hl]
      show CT.node (.node (.node (.leaf _) (.leaf _)) (.node (.leaf _) (.leaf _)))
        (.node (.node (.leaf _) (.leaf _)) (.node (.leaf _) (.leaf _))) = _
      simp only [CT.node.injEq, CT.leaf.injEq, neg_zero, true_and, and_true, if_pos hl]
      refine ⟨⟨?_, ?_⟩, ?_⟩ <;> split <;> simp_all [flipSign]
    · rw [if_neg hl]
      simp only [CT.node.injEq, CT.leaf.injEq, true_and, and_true, if_neg hl]
      refine ⟨⟨?_, ?_⟩, ?_⟩ <;> split <;> simp_all [flipSign]
  rw [e, ← Expr.evalCT_hom (by omega) (by omega) η, run3_all, run3_all, hη'] at h
  simp only [CT.node.injEq, CT.leaf.injEq] at h
  have sq : ∀ m, flipSign v m * flipSign v m = 1 := by
    intro m; unfold flipSign; split <;> norm_num
  obtain ⟨⟨⟨-, h1⟩, -, h2⟩, -, -, h3⟩ := h
  refine ⟨?_, ?_, ?_⟩
  · rw [← h1, ← mul_assoc, sq, one_mul]
  · rw [← h2, show ∀ a b c : ℝ, a * b * (a * b * c) = (a * a) * (b * b) * c by intros; ring, sq, sq, one_mul, one_mul]
  · rw [← h3, show ∀ a b d c : ℝ, a * b * d * (a * b * d * c) = (a * a) * (b * b) * (d * d) * c by intros; ring, sq, sq,
      sq, one_mul, one_mul, one_mul]

end

/-! ### Reading the layout for indices in any order -/

open Props in
theorem layout_sym {n order : ℕ} {e : ℝ} {d1 : ℕ → ℝ} {d2 : ℕ → ℕ → ℝ} {d3 : ℕ → ℕ → ℕ → ℝ}
    (s2 : ∀ i j, d2 i j = d2 j i) (s12 : ∀ i j k, d3 i j k = d3 j i k) (s23 : ∀ i j k, d3 i j k = d3 i k j) :
    (2 ≤ order → ∀ i < n, ∀ j < n, (layout n order e d1 d2 d3)[pos2s n i j]? = some (d2 i j)) ∧
    (3 ≤ order → ∀ i < n, ∀ j < n, ∀ k < n, (layout n order e d1 d2 d3)[pos3s n i j k]? = some (d3 i j k)) := by
  obtain ⟨-, -, p2, p3⟩ := C15_positions n order e d1 d2 d3
  constructor
  · intro ho a ha b hb
    unfold pos2s
    rcases le_total a b with h | h
    · rw [min_eq_left h, max_eq_right h, p2 ho a b h hb]
    · rw [min_eq_right h, max_eq_left h, p2 ho b a h ha, s2]
  · intro ho i hi j hj k hk
    unfold pos3s
    dsimp only
    rcases le_total i j with h1 | h1 <;> rcases le_total j k with h2 | h2 <;>
      rcases le_total i k with h3 | h3
    · rw [show min i (min j k) = i by omega, show max i (max j k) = k by omega,
        show i + j + k - i - k = j by omega, p3 ho i j k h1 h2 hk]
    · rw [show min i (min j k) = i by omega, show max i (max j k) = k by omega,
        show i + j + k - i - k = j by omega, p3 ho i j k h1 h2 hk]
    · rw [show min i (min j k) = i by omega, show max i (max j k) = j by omega,
        show i + j + k - i - j = k by omega, p3 ho i k j h3 h2 hj, s23]
    · rw [show min i (min j k) = k by omega, show max i (max j k) = j by omega,
        show i + j + k - k - j = i by omega, p3 ho k i j h3 h1 hj, s12, s23]
    · rw [show min i (min j k) = j by omega, show max i (max j k) = k by omega,
        show i + j + k - j - k = i by omega, p3 ho j i k h1 h3 hk, s12]
    · rw [show min i (min j k) = j by omega, show max i (max j k) = i by omega,
        show i + j + k - j - i = k by omega, p3 ho j k i h2 h3 hi, s23, s12]
    · rw [show min i (min j k) = k by omega, show max i (max j k) = i by omega,
        show i + j + k - k - i = j by omega, p3 ho k j i h2 h1 hi, s12, s23, s12]
    · rw [show min i (min j k) = k by omega, show max i (max j k) = i by omega,
        show i + j + k - k - i = j by omega, p3 ho k j i h2 h1 hi, s12, s23, s12]

/-! ### Potentials -/

theorem flipIndex_2nd {l : ℕ} (h : l < 20) : flipIndex .A_B_2ND_TAYLOR l = if l < 10 then l + 10 else l - 10 := by
  revert l; decide

theorem seed1_flip (v : Vars) (hs : ∀ i, flipsSign v i = false) (x : ℕ → ℝ) (i : ℕ) :
    flipInputs v (seed1 x (some i)) = seed1 (flipInputs v x) (some (flipIndex v i)) := by
  funext l
  simp only [flipInputs, hs, Bool.false_eq_true, if_false, seed1, unit, Option.some.injEq]
  have : i = flipIndex v l ↔ flipIndex v i = l := by rw [← flipIndex_inj v, flipIndex_invol]
  simp only [this]

theorem seedAB_flip (x : ℕ → ℝ) {d : ℕ × ℕ × ℕ × ℕ} (hd : ∀ l, dpos d l < 10) {g g' : ℕ}
    (hg : 1 ≤ g ∧ g < 4 ∧ g' = g + 10 ∨ 1 ≤ g' ∧ g' < 4 ∧ g = g' + 10) {l : ℕ} (hl : l < 20) :
    flipInputs .A_B_2ND_TAYLOR (seedAB x (fun _ => CT.const 2 0) d g) l =
      seedAB (flipInputs .A_B_2ND_TAYLOR x) (fun _ => CT.const 2 0) d g' l := by
  have f : ∀ {R : Type} [Neg R] (ρ : ℕ → R) {l : ℕ}, l < 20 → flipInputs .A_B_2ND_TAYLOR ρ l =
      ρ (if l < 10 then l + 10 else l - 10) := by
    intro R _ ρ l hl
    rw [flipInputs, flipIndex_2nd hl]; rfl
  rw [f _ hl]
  by_cases h : l < 10
  · rw [if_pos h]
    by_cases h4 : l < 4
    · rw [seedAB, seedAB, if_neg (by omega), if_neg (by omega), if_pos (by omega), if_pos h4, seedG, seedG, f _ hl,
        f _ (by have := hd l; omega), if_pos h, if_pos (hd l), Nat.add_sub_cancel]
      congr 3
      simp only [unit, Option.some.injEq]
      congr 1
      simp only [eq_iff_iff]; omega
    · rw [seedAB, seedAB, if_neg (by omega), if_neg (by omega), if_neg (by omega), if_neg h4, if_pos h]
  · rw [if_neg h]
    by_cases h4 : l < 14
    · have := hd (l - 10)
      rw [seedAB, seedAB, if_pos (by omega), if_neg (by omega), if_neg h, if_pos h4, seedG, seedG, f _ hl,
        f _ (by omega), if_neg h, if_neg (by omega), Nat.add_sub_cancel]
      congr 3
      simp only [unit, Option.some.injEq]
      congr 1
      simp only [eq_iff_iff]; omega
    · rw [seedAB, seedAB, if_neg (by omega), if_pos (by omega), if_neg (by omega), if_neg (by omega), if_neg (by omega)]

theorem formal_congr20 (s : State ℝ) {v : Vars} (hv : ¬ Unsupported v) {N : ℕ} {ρ ρ' : ℕ → CT ℝ N}
    (h : ∀ l < v.len, ρ l = ρ' l) : formal s v N ρ = formal s v N ρ' := by
  obtain ⟨sl, hsl⟩ : ∃ sl, codeKernel.reads v = some sl := by
    cases h : codeKernel.reads v with
    | none => exact absurd ((Props.unsupported_iff v).2 h) hv
    | some sl => exact ⟨sl, rfl⟩
  rw [← total_formal, ← total_formal]
  exact total_congr codeKernel_local s hsl 0 fun i hi => h i (codeKernel_local.lt v sl hsl i hi)

theorem readouts_potential_flip (s : State ℝ) {v : Vars} (hv : v = .A_B ∨ v = .A_B_2ND_TAYLOR) (k : ℕ)
    (hg : v = .A_B → s.depends &&& GRADIENT = 0) (x x' : ℕ → ℝ) (hx : ∀ l < v.len, x' l = flipInputs v x l) :
    ∃ e va vb : ℝ, (readouts v POTENTIAL k s.depends (fun _ => CT.const 2 0) x).map (· (formal s v)) = [e, va, vb] ∧
      (readouts v POTENTIAL k s.depends (fun _ => CT.const 2 0) x').map (· (formal s v)) = [e, vb, va] := by
  have hu : ¬ Unsupported v := by rcases hv with rfl | rfl <;> decide
  have hA : v ≠ .A ∧ v ≠ .A_GAA := by rcases hv with rfl | rfl <;> decide
  have hs : ∀ i, flipsSign v i = false := by rcases hv with rfl | rfl <;> intro i <;> rfl
  have e1 : ∀ i c, readCoef 1 (seed1 x' (some i)) c (formal s v) =
      readCoef 1 (seed1 x (some (flipIndex v i))) c (formal s v) := by
    intro i c
    have a : formal s v 1 (seed1 x' (some i)) = formal s v 1 (seed1 (flipInputs v x) (some i)) :=
      formal_congr20 s hu fun l hl => by simp only [seed1, hx l hl]
    have := energyOn_flip s hu hA (seed1 x (some (flipIndex v i)))
    rw [seed1_flip v hs, flipIndex_invol] at this
    unfold readCoef
    rw [a]
    exact congrArg (CT.get · c) this
  have ev : ∀ i, readCoef 1 (seed1 x (some i)) 0 (formal s v) = energyR s v x := by
    intro i
    show (energyOn s v (seed1 x (some i))).get 0 = _
    rw [← sumExpr_evalCT, run1_all]; rfl
  have m1 : ¬ POTENTIAL = PARTIAL_DERIVATIVES := by decide
  have m2 : ¬ POTENTIAL = CONTRACTED := by decide
  unfold readouts
  rw [if_neg m1, if_neg m2, if_neg m1, if_neg m2]
  rcases hv with rfl | rfl
  · have hd : ¬ (s.depends &&& GRADIENT ≠ 0) := by simp [hg rfl]
    simp only [hd, if_false]
    have hsh : potentialShape (Vars.len .A_B) = (2, 1) := by decide
    rw [hsh]
    refine ⟨_, _, _, rfl, ?_⟩
    simp only [List.map_cons, List.range_succ, List.range_zero, List.nil_append, List.cons_append, List.map_nil, e1, ev]
    rfl
  · have hsh : potentialShape (Vars.len .A_B_2ND_TAYLOR) = (2, 10) := by decide
    by_cases hd : s.depends &&& GRADIENT ≠ 0
    · simp only [hd, if_true, ne_eq, not_false_eq_true]
      refine ⟨_, _, _, rfl, ?_⟩
      have d : ∀ d, d = dirX ∨ d = dirY ∨ d = dirZ → ∀ l, dpos d l < 10 := by
        intro d hd l
        rcases hd with rfl | rfl | rfl <;> simp only [dpos, dirX, dirY, dirZ] <;> split_ifs <;> simp
      have e2 : ∀ d, d = dirX ∨ d = dirY ∨ d = dirZ → ∀ g g', (1 ≤ g ∧ g < 4 ∧ g' = g + 10 ∨ 1 ≤ g' ∧ g' < 4 ∧ g = g' + 10) →
          readCoef 2 (seedAB x' (fun _ => CT.const 2 0) d g') 3 (formal s .A_B_2ND_TAYLOR) =
            readCoef 2 (seedAB x (fun _ => CT.const 2 0) d g) 3 (formal s .A_B_2ND_TAYLOR) := by
        intro dd hd g g' hg
        have hdd := d dd hd
        have a : formal s .A_B_2ND_TAYLOR 2 (seedAB x' (fun _ => CT.const 2 0) dd g') =
            formal s .A_B_2ND_TAYLOR 2 (flipInputs .A_B_2ND_TAYLOR (seedAB x (fun _ => CT.const 2 0) dd g)) :=
          formal_congr20 s hu fun l hl => by
            rw [seedAB_flip x hdd hg hl]
            have hl : l < 20 := hl
            have n1 := hdd l
            have n2 := hdd (l - 10)
            have k0 := hx l hl
            have k1 := hx (dpos dd l) (show _ < 20 by omega)
            have k2 := hx (dpos dd (l - 10) + 10) (show _ < 20 by omega)
            simp only [seedAB, seedG, k0, k1, k2]
        unfold readCoef
        rw [a]
        exact congrArg (CT.get · 3) (energyOn_flip s hu hA _)
      simp only [List.map_cons, List.map_nil, Nat.mul_zero, Nat.mul_one, Nat.add_zero, e1, ev]
      rw [e2 dirX (by simp) 11 1 (by simp), e2 dirY (by simp) 12 2 (by simp), e2 dirZ (by simp) 13 3 (by simp),
        e2 dirX (by simp) 1 11 (by simp), e2 dirY (by simp) 2 12 (by simp), e2 dirZ (by simp) 3 13 (by simp)]
      rfl
    · simp only [hd, if_false]
      rw [hsh]
      refine ⟨_, _, _, rfl, ?_⟩
      simp only [List.map_cons, List.range_succ, List.range_zero, List.nil_append, List.cons_append, List.map_nil, e1, ev]
      rfl

end XCFun
