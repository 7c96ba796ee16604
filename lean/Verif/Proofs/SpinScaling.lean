/-
Spin scaling: the functionals that are sums of contributions of the two spins.
-/
import Verif.Spec.SpinScaling
import Verif.Proofs.SpinEval

namespace XCFun
open Spec

namespace Fun

/-- Replace every quantity of one spin by that of alpha; others (not allowed) by 0. -/
def alphaVar : Field → Expr Field
  | .a | .b => d.a
  | .gaa | .gbb => d.gaa
  | .taua | .taub => d.taua
  | .lapa | .lapb => .var .lapa
  | .a_43 | .b_43 => d.a_43
  | .jpaa | .jpbb => .var .jpaa
  | .param i => .var (.param i)
  | _ => .lit 0

/-- The same with beta. -/
def betaVar : Field → Expr Field
  | .a | .b => d.b
  | .gaa | .gbb => d.gbb
  | .taua | .taub => d.taub
  | .lapa | .lapb => .var .lapb
  | .a_43 | .b_43 => d.b_43
  | .jpaa | .jpbb => .var .jpbb
  | .param i => .var (.param i)
  | _ => .lit 0

/-- The density variables of the three systems in the relation. -/
structure Triple {N : ℕ} (g ga gb : Field → CT ℝ N) : Prop where
  pair : ∀ p ∈ spinFieldPairs, ga p.1 = g p.1 ∧ ga p.2 = g p.1 ∧ gb p.1 = g p.2 ∧ gb p.2 = g p.2
  par : ∀ i, ga (.param i) = g (.param i) ∧ gb (.param i) = g (.param i)

namespace Triple
variable {N : ℕ} {g ga gb : Field → CT ℝ N} (h : Triple g ga gb)
include h

theorem simps : (ga .a = g .a ∧ ga .b = g .a ∧ gb .a = g .b ∧ gb .b = g .b) ∧
    (ga .gaa = g .gaa ∧ ga .gbb = g .gaa ∧ gb .gaa = g .gbb ∧ gb .gbb = g .gbb) ∧
    (ga .taua = g .taua ∧ ga .taub = g .taua ∧ gb .taua = g .taub ∧ gb .taub = g .taub) ∧
    (ga .lapa = g .lapa ∧ ga .lapb = g .lapa ∧ gb .lapa = g .lapb ∧ gb .lapb = g .lapb) ∧
    (ga .a_43 = g .a_43 ∧ ga .b_43 = g .a_43 ∧ gb .a_43 = g .b_43 ∧ gb .b_43 = g .b_43) ∧
    (ga .jpaa = g .jpaa ∧ ga .jpbb = g .jpaa ∧ gb .jpaa = g .jpbb ∧ gb .jpbb = g .jpbb) := by
  have := h.pair
  simp only [spinFieldPairs, List.forall_mem_cons, List.not_mem_nil, false_implies, implies_true, and_true] at this
  exact this

theorem aa (f : Field) : (alphaVar f).evalCT ga = (alphaVar f).evalCT g := by
  obtain ⟨h1, h2, h3, h4, h5, h6⟩ := h.simps
  cases f with
  | param i => exact (h.par i).1
  | _ => first | rfl | exact h1.1 | exact h2.1 | exact h3.1 | exact h4.1 | exact h5.1 | exact h6.1

theorem ab (f : Field) : (betaVar f).evalCT ga = (alphaVar f).evalCT g := by
  obtain ⟨h1, h2, h3, h4, h5, h6⟩ := h.simps
  cases f with
  | param i => exact (h.par i).1
  | _ => first | rfl | exact h1.2.1 | exact h2.2.1 | exact h3.2.1 | exact h4.2.1 | exact h5.2.1 | exact h6.2.1

theorem ba (f : Field) : (alphaVar f).evalCT gb = (betaVar f).evalCT g := by
  obtain ⟨h1, h2, h3, h4, h5, h6⟩ := h.simps
  cases f with
  | param i => exact (h.par i).2
  | _ => first | rfl | exact h1.2.2.1 | exact h2.2.2.1 | exact h3.2.2.1 | exact h4.2.2.1 | exact h5.2.2.1 | exact h6.2.2.1

theorem bb (f : Field) : (betaVar f).evalCT gb = (betaVar f).evalCT g := by
  obtain ⟨h1, h2, h3, h4, h5, h6⟩ := h.simps
  cases f with
  | param i => exact (h.par i).2
  | _ => first | rfl | exact h1.2.2.2 | exact h2.2.2.2 | exact h3.2.2.2 | exact h4.2.2.2 | exact h5.2.2.2 | exact h6.2.2.2

end Triple

/-- `e` obeys the relation. -/
structure Sep (e : Expr Field) : Prop where
  eq : ∀ {N : ℕ} {g ga gb : Field → CT ℝ N}, Triple g ga gb → e.evalCT g + e.evalCT g = e.evalCT ga + e.evalCT gb

namespace Sep
variable {x y e : Expr Field}

theorem values (hx : x.subst alphaVar = x) (hy : x.subst betaVar = y) {N : ℕ} {g ga gb : Field → CT ℝ N}
    (t : Triple g ga gb) : x.evalCT ga = x.evalCT g ∧ y.evalCT ga = x.evalCT g ∧ x.evalCT gb = y.evalCT g ∧
      y.evalCT gb = y.evalCT g := by
  have ex : ∀ q : Field → CT ℝ N, x.evalCT q = x.evalCT fun f => (alphaVar f).evalCT q := fun q => by
    conv_lhs => rw [← hx, Expr.evalCT_subst]
  have ey : ∀ q : Field → CT ℝ N, y.evalCT q = x.evalCT fun f => (betaVar f).evalCT q := fun q => by
    rw [← hy, Expr.evalCT_subst]
  refine ⟨?_, ?_, ?_, ?_⟩
  · rw [ex ga, ex g]; simp only [t.aa]
  · rw [ey ga, ex g]; simp only [t.ab]
  · rw [ex gb, ey g]; simp only [t.ba]
  · rw [ey gb, ey g]; simp only [t.bb]

/-- Sum of the same expression of the two spins. -/
theorem pair (hx : x.subst alphaVar = x) (hy : x.subst betaVar = y) : Sep (x + y) := ⟨fun {_ g _ _} t => by
  obtain ⟨h1, h2, h3, h4⟩ := values hx hy t
  rw [Expr.evalCT_add, Expr.evalCT_add, Expr.evalCT_add, h1, h2, h3, h4]
  ring⟩

/-- `-x - y` -/
theorem negPair (hx : x.subst alphaVar = x) (hy : x.subst betaVar = y) : Sep (-x - y) := ⟨fun {_ g ga gb} t => by
  obtain ⟨h1, h2, h3, h4⟩ := values hx hy t
  show (-x.evalCT g - y.evalCT g) + (-x.evalCT g - y.evalCT g) =
    (-x.evalCT ga - y.evalCT ga) + (-x.evalCT gb - y.evalCT gb)
  rw [h1, h2, h3, h4]
  ring⟩

theorem litMul (c : ℝ) (h : Sep e) : Sep (.lit c * e) := ⟨fun {N g ga gb} t => by
  have := h.eq t
  show CT.const N c * e.evalCT g + CT.const N c * e.evalCT g = CT.const N c * e.evalCT ga + CT.const N c * e.evalCT gb
  rw [← mul_add, this, mul_add]⟩

theorem divLit (c : ℝ) (h : Sep e) : Sep (e / .lit c) := ⟨fun {N g ga gb} t => by
  have := h.eq t
  show (CT.const N c).prim .inv * e.evalCT g + (CT.const N c).prim .inv * e.evalCT g =
    (CT.const N c).prim .inv * e.evalCT ga + (CT.const N c).prim .inv * e.evalCT gb
  rw [← mul_add, this, mul_add]⟩

end Sep

theorem sep_all : ∀ id ∈ spinScaled, ∀ e, energy id = some e → Sep e := by
  have key : ∀ {e e' : Expr Field}, Sep e' → some e' = some e → Sep e := fun h he => Option.some.inj he ▸ h
  simp only [spinScaled, List.forall_mem_cons, List.not_mem_nil, false_implies, implies_true, and_true]
  refine ⟨?_, ?_, ?_, ?_, ?_, ?_, ?_, ?_, ?_, ?_, ?_, ?_, ?_, ?_, ?_, ?_, ?_, ?_, ?_, ?_, ?_, ?_, ?_, ?_, ?_, ?_, ?_, ?_, ?_,
    ?_, ?_, ?_, ?_, ?_, ?_, ?_, ?_, ?_⟩ <;> intro e he
  case refine_10 => exact key (e' := optx) (.negPair rfl rfl) he
  case refine_36 => exact key (e' := blocx) (.divLit _ (.pair rfl rfl)) he
  all_goals first
    | exact key (.pair rfl rfl) he
    | exact key (.litMul _ (.pair rfl rfl)) he

end Fun

/-- The density variables of the unpolarised systems. -/
theorem member_both (par : ℕ → ℝ) {v : Vars} (hv : ¬ Unsupported v) (hr : SpinResolved v) {N : ℕ} (ρ : ℕ → CT ℝ N) :
    Fun.Triple (member par v ρ) (member par v (bothSpins true v ρ)) (member par v (bothSpins false v ρ)) := by
  obtain ⟨-, -, -, a1, a2, a3⟩ := member_derived par v hv ρ
  obtain ⟨-, -, -, b1, b2, b3⟩ := member_derived par v hv (bothSpins true v ρ)
  obtain ⟨-, -, -, c1, c2, c3⟩ := member_derived par v hv (bothSpins false v ρ)
  have core : ∀ p ∈ [(Field.a, Field.b), (.gaa, .gbb), (.taua, .taub), (.lapa, .lapb), (.jpaa, .jpbb)],
      member par v (bothSpins true v ρ) p.1 = member par v ρ p.1 ∧ member par v (bothSpins true v ρ) p.2 = member par v ρ p.1 ∧
      member par v (bothSpins false v ρ) p.1 = member par v ρ p.2 ∧
      member par v (bothSpins false v ρ) p.2 = member par v ρ p.2 := by
    simp only [List.forall_mem_cons, List.not_mem_nil, false_implies, implies_true, and_true]
    clear a1 a2 a3 b1 b2 b3 c1 c2 c3
    cases v <;> first
      | exact absurd rfl hr
      | exact absurd (by decide) hv
      | (refine ⟨?_, ?_, ?_, ?_, ?_⟩ <;> unfold_members <;>
          (try simp only [Nat.reduceAdd, bothSpins, spinPairs, List.find?, Nat.reduceBEq, Bool.or_false,
            Bool.or_true, if_true, if_false, Bool.false_eq_true]) <;> trivial)
  simp only [List.forall_mem_cons, List.not_mem_nil, false_implies, implies_true, and_true] at core
  obtain ⟨h1, h2, h3, h4, h5⟩ := core
  refine ⟨?_, fun i => ⟨by rw [b3, a3], by rw [c3, a3]⟩⟩
  simp only [spinFieldPairs, List.forall_mem_cons, List.not_mem_nil, false_implies, implies_true, and_true]
  refine ⟨h1, h2, h3, h4, ⟨?_, ?_, ?_, ?_⟩, h5⟩
  · rw [b1, a1, h1.1]
  · rw [b2, a1, h1.2.1]
  · rw [c1, a2, h1.2.2.1]
  · rw [c2, a2, h1.2.2.2]

theorem energyOn_both (s : State ℝ) {v : Vars} (hv : ¬ Unsupported v) (hr : SpinResolved v) (hs : ∀ id ∈ s.active, id ∈ spinScaled) {N : ℕ}
    (ρ : ℕ → CT ℝ N) :
    energyOn s v ρ + energyOn s v ρ = energyOn s v (bothSpins true v ρ) + energyOn s v (bothSpins false v ρ) := by
  unfold energyOn
  rw [← List.sum_map_add, ← List.sum_map_add]
  refine congrArg List.sum (List.map_congr_left fun id hid => ?_)
  unfold fullExpr
  obtain ⟨f, hf⟩ := densvars_some (par := s.settings) hv
  rw [hf]
  cases he : Fun.energy id with
  | none => rfl
  | some e =>
    dsimp only
    rw [← mul_add, ← mul_add]
    congr 1
    rw [Expr.evalCT_subst, Expr.evalCT_subst, Expr.evalCT_subst]
    have h1 : ∀ ρ' : ℕ → CT ℝ N, (fun i => (f i).evalCT ρ') = member s.settings v ρ' := by
      intro ρ'; funext i; simp [member, hf]
    rw [h1, h1, h1]
    exact (Fun.sep_all id (hs id hid) e he).eq (member_both s.settings hv hr ρ)


/-! ### Mixed derivatives -/

/-- Set the last perturbation to zero, keeping its place. -/
def CT.Hom.kill (n : ℕ) : CT.Hom (n + 1) (n + 1) where
  toRingHom :=
    { toFun := fun t => .node t.lo 0
      map_one' := rfl
      map_zero' := rfl
      map_add' := by
        intro x y
        obtain ⟨a, b, rfl⟩ := CT.exists_node x
        obtain ⟨c, d, rfl⟩ := CT.exists_node y
        show CT.node (a + c) 0 = CT.node (a + c) (0 + 0)
        rw [add_zero]
      map_mul' := by
        intro x y
        obtain ⟨a, b, rfl⟩ := CT.exists_node x
        obtain ⟨c, d, rfl⟩ := CT.exists_node y
        show CT.node (a * c) 0 = CT.node (a * c) (0 * c + a * 0)
        rw [zero_mul, mul_zero, add_zero] }
  const _ := rfl
  c0 x := by
    obtain ⟨a, b, rfl⟩ := CT.exists_node x
    rfl

theorem bothSpins_index {v : Vars} (hr : SpinResolved v) (up : Bool) (l : ℕ) :
    ∃ m, (∀ {R : Type} (ρ : ℕ → R), bothSpins up v ρ l = ρ m) ∧
      (up = true → ¬ IsBeta v m) ∧ (up = false → ¬ IsAlpha v m) := by
  cases h : (spinPairs v).find? fun p => p.1 == l || p.2 == l with
  | none =>
    by_cases h3 : l = 3
    · subst h3
      refine ⟨if up then 2 else 4, fun ρ => by rw [bothSpins, h, if_pos rfl], ?_⟩
      revert hr h
      cases up <;> cases v <;> decide
    · refine ⟨l, fun ρ => by rw [bothSpins, h, if_neg h3], ?_⟩
      rw [List.find?_eq_none] at h
      constructor <;> rintro - ⟨p, hp, hl⟩ <;> exact h p hp (by simp [hl])
  | some p =>
    refine ⟨if up then p.1 else p.2, fun ρ => by rw [bothSpins, h], ?_⟩
    have hp := List.mem_of_find?_eq_some h
    clear h
    revert p
    cases up <;> cases v <;> decide

theorem bothSpins_ne3 {v : Vars} (h3 : ¬ IsAlpha v 3 ∧ ¬ IsBeta v 3) (up : Bool) (l : ℕ) :
    ∃ m ≠ 3, ∀ {R : Type} (ρ : ℕ → R), bothSpins up v ρ l = ρ m := by
  cases h : (spinPairs v).find? fun p => p.1 == l || p.2 == l with
  | none =>
    by_cases hl : l = 3
    · subst hl
      exact ⟨if up then 2 else 4, by split <;> decide, fun ρ => by rw [bothSpins, h, if_pos rfl]⟩
    · exact ⟨l, hl, fun ρ => by rw [bothSpins, h, if_neg hl]⟩
  | some p =>
    have hp := List.mem_of_find?_eq_some h
    refine ⟨if up then p.1 else p.2, ?_, fun ρ => by rw [bothSpins, h]⟩
    cases up
    · exact fun e => h3.2 ⟨p, hp, e⟩
    · exact fun e => h3.1 ⟨p, hp, e⟩

section
variable (s : State ℝ) {v : Vars} (hv : ¬ Unsupported v) (hr : SpinResolved v) (hs : ∀ id ∈ s.active, id ∈ spinScaled)
  (x : ℕ → ℝ)
include hv hr hs

theorem coeff_zero {N : ℕ} (hN : N ≤ 6) (ρ : ℕ → CT ℝ N) (c : ℕ) (η θ : CT.Hom N N)
    (hη : ∀ t, (η.toRingHom t).get c = 0) (hθ : ∀ t, (θ.toRingHom t).get c = 0)
    (ha : ∀ l, η.toRingHom (bothSpins true v ρ l) = bothSpins true v ρ l)
    (hb : ∀ l, θ.toRingHom (bothSpins false v ρ l) = bothSpins false v ρ l) :
    ((sumExpr s v).evalCT ρ).get c = 0 := by
  have h := energyOn_both s hv hr hs ρ
  simp only [← sumExpr_evalCT] at h
  have e1 := Expr.evalCT_hom hN hN η (bothSpins true v ρ) (sumExpr s v)
  have e2 := Expr.evalCT_hom hN hN θ (bothSpins false v ρ) (sumExpr s v)
  simp only [ha] at e1
  simp only [hb] at e2
  have h' := congrArg (fun t => t.get c) h
  simp only [CT.get_add] at h'
  rw [← e1, ← e2, hη, hθ] at h'
  linarith

theorem mixed2 {i j : ℕ} (hi : IsAlpha v i) (hj : IsBeta v j) : D2 s v x i j = 0 := by
  refine coeff_zero s hv hr hs (by omega) _ 3 (CT.Hom.kill 1) (CT.Hom.kill 0).lift ?_ ?_ ?_ ?_
  · intro t
    obtain ⟨a, b, c, d, rfl⟩ := t.exists2_leaf
    rfl
  · intro t
    obtain ⟨a, b, c, d, rfl⟩ := t.exists2_leaf
    rfl
  · intro l
    obtain ⟨m, hm, hm', -⟩ := bothSpins_index hr true l
    have : j ≠ m := fun e => hm' rfl (e ▸ hj)
    rw [hm, seed2, unit, unit, if_neg (c := some j = _) (by simpa using this)]
    rfl
  · intro l
    obtain ⟨m, hm, -, hm'⟩ := bothSpins_index hr false l
    have : i ≠ m := fun e => hm' rfl (e ▸ hi)
    rw [hm, seed2, unit, unit, if_neg (by simpa using this)]
    rfl

theorem mixed3 {i j : ℕ} (k : ℕ) (hi : IsAlpha v i) (hj : IsBeta v j) : D3 s v x i j k = 0 := by
  refine coeff_zero s hv hr hs (by omega) _ 7 (CT.Hom.kill 1).lift (CT.Hom.kill 0).lift.lift ?_ ?_ ?_ ?_
  · intro t
    obtain ⟨a, b, c, d, a', b', c', d', rfl⟩ := t.exists3_leaf
    rfl
  · intro t
    obtain ⟨a, b, c, d, a', b', c', d', rfl⟩ := t.exists3_leaf
    rfl
  · intro l
    obtain ⟨m, hm, hm', -⟩ := bothSpins_index hr true l
    have : j ≠ m := fun e => hm' rfl (e ▸ hj)
    rw [hm, seed3, seed2, unit, unit, unit, if_neg (c := some j = _) (by simpa using this)]
    rfl
  · intro l
    obtain ⟨m, hm, -, hm'⟩ := bothSpins_index hr false l
    have : i ≠ m := fun e => hm' rfl (e ▸ hi)
    rw [hm, seed3, seed2, unit, unit, unit, if_neg (c := some i = _) (by simpa using this)]
    rfl

/-- Derivatives with respect to `gab`. -/
theorem cross3 (h3 : ¬ IsAlpha v 3 ∧ ¬ IsBeta v 3) (j k : ℕ) :
    D1 s v x 3 = 0 ∧ D2 s v x 3 j = 0 ∧ D3 s v x 3 j k = 0 := by
  have key : ∀ c : ℕ, c % 2 = 1 → c < 8 →
      ((sumExpr s v).evalCT (seed3 x (some 3) (some j) (some k))).get c = 0 := by
    intro c hc h8
    have hz : ∀ t : CT ℝ 3, ((CT.Hom.kill 0).lift.lift.toRingHom t).get c = 0 := by
      intro t
      obtain ⟨p, q, r, t, p', q', r', t', rfl⟩ := t.exists3_leaf
      interval_cases c <;> first | rfl | omega
    have hf : ∀ up l, (CT.Hom.kill 0).lift.lift.toRingHom (bothSpins up v (seed3 x (some 3) (some j) (some k)) l) =
        bothSpins up v (seed3 x (some 3) (some j) (some k)) l := by
      intro up l
      obtain ⟨m, hm, hm'⟩ := bothSpins_ne3 h3 up l
      rw [hm', seed3, seed2, unit, unit, unit, if_neg (c := some 3 = _) (by simpa using hm.symm)]
      rfl
    exact coeff_zero s hv hr hs (by omega) _ c _ _ hz hz (hf true) (hf false)
  have h1 := key 1 (by norm_num) (by norm_num)
  have h2 := key 3 (by norm_num) (by norm_num)
  have h3 := key 7 (by norm_num) (by norm_num)
  rw [run3_all] at h1 h2
  exact ⟨h1, h2, h3⟩

end

end XCFun
