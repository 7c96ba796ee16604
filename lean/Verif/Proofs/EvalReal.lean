/-
Exact arithmetic: one evaluation is the evaluation of one expression, and the coefficients
computed by different runs are the same numbers.
-/
import Verif.Spec.Energy
import Verif.Proofs.Uses
import Verif.Proofs.Layout
import Verif.Proofs.EvalModes

namespace XCFun
open Spec

namespace CT

/-- Maps on expansions given by cases on the last variable. -/
def lo {V : Type*} {n : ℕ} : CT V (n + 1) → CT V n
  | node l _ => l

/-- The terms with the last variable. -/
def hi {V : Type*} {n : ℕ} : CT V (n + 1) → CT V n
  | node _ h => h

theorem exists_node {V : Type*} {n : ℕ} (t : CT V (n + 1)) : ∃ a b, t = node a b := by
  cases t with
  | node a b => exact ⟨a, b, rfl⟩

theorem exists_leaf {V : Type*} (t : CT V 0) : ∃ a, t = leaf a := by
  cases t with
  | leaf a => exact ⟨a, rfl⟩

theorem exists2 {V : Type*} {n : ℕ} (t : CT V (n + 2)) :
    ∃ a b c d, t = node (node a b) (node c d) := by
  obtain ⟨x, y, rfl⟩ := exists_node t
  obtain ⟨a, b, rfl⟩ := exists_node x
  obtain ⟨c, d, rfl⟩ := exists_node y
  exact ⟨a, b, c, d, rfl⟩

theorem exists2_leaf {V : Type*} (t : CT V 2) :
    ∃ a b c d, t = node (node (leaf a) (leaf b)) (node (leaf c) (leaf d)) := by
  obtain ⟨x, y, z, w, rfl⟩ := exists2 t
  obtain ⟨a, rfl⟩ := exists_leaf x
  obtain ⟨b, rfl⟩ := exists_leaf y
  obtain ⟨c, rfl⟩ := exists_leaf z
  obtain ⟨d, rfl⟩ := exists_leaf w
  exact ⟨a, b, c, d, rfl⟩

theorem exists3_leaf {V : Type*} (t : CT V 3) :
    ∃ a b c d a' b' c' d', t = node (node (node (leaf a) (leaf b)) (node (leaf c) (leaf d)))
      (node (node (leaf a') (leaf b')) (node (leaf c') (leaf d'))) := by
  obtain ⟨x, y, rfl⟩ := exists_node t
  obtain ⟨a, b, c, d, rfl⟩ := exists2_leaf x
  obtain ⟨a', b', c', d', rfl⟩ := exists2_leaf y
  exact ⟨a, b, c, d, a', b', c', d', rfl⟩

/-- Set the last perturbation to zero. -/
def Hom.dropLast (n : ℕ) : Hom (n + 1) n where
  toRingHom :=
    { toFun := lo
      map_one' := rfl
      map_zero' := rfl
      map_add' := by
        intro x y
        obtain ⟨a, b, rfl⟩ := exists_node x
        obtain ⟨c, d, rfl⟩ := exists_node y
        rfl
      map_mul' := by
        intro x y
        obtain ⟨a, b, rfl⟩ := exists_node x
        obtain ⟨c, d, rfl⟩ := exists_node y
        rfl }
  const c := rfl
  c0 := by
    intro x
    obtain ⟨a, b, rfl⟩ := exists_node x
    rfl

/-- Apply a map to the other variables. -/
def Hom.lift {n m : ℕ} (η : Hom n m) : Hom (n + 1) (m + 1) where
  toRingHom :=
    { toFun := fun t => node (η.toRingHom t.lo) (η.toRingHom t.hi)
      map_one' := by
        show node (η.toRingHom 1) (η.toRingHom 0) = node 1 0
        rw [map_one, map_zero]
      map_zero' := by
        show node (η.toRingHom 0) (η.toRingHom 0) = node 0 0
        rw [map_zero]
      map_add' := by
        intro x y
        obtain ⟨a, b, rfl⟩ := exists_node x
        obtain ⟨c, d, rfl⟩ := exists_node y
        show node (η.toRingHom (a + c)) (η.toRingHom (b + d)) = node _ _ + node _ _
        rw [map_add, map_add]; rfl
      map_mul' := by
        intro x y
        obtain ⟨a, b, rfl⟩ := exists_node x
        obtain ⟨c, d, rfl⟩ := exists_node y
        show node (η.toRingHom (a * c)) (η.toRingHom (b * c + a * d)) = node _ _ * node _ _
        rw [map_add, map_mul, map_mul, map_mul]; rfl }
  const c := by
    show node (η.toRingHom (CT.const n c)) (η.toRingHom (CT.const n 0)) = _
    rw [η.const, η.const]; rfl
  c0 := by
    intro x
    obtain ⟨a, b, rfl⟩ := exists_node x
    exact η.c0 a

/-- Exchange the last two perturbations. -/
def Hom.swap (n : ℕ) : Hom (n + 2) (n + 2) where
  toRingHom :=
    { toFun := fun t => node (node t.lo.lo t.hi.lo) (node t.lo.hi t.hi.hi)
      map_one' := rfl
      map_zero' := rfl
      map_add' := by
        intro x y
        obtain ⟨a, b, c, d, rfl⟩ := exists2 x
        obtain ⟨a', b', c', d', rfl⟩ := exists2 y
        rfl
      map_mul' := by
        intro x y
        obtain ⟨a, b, c, d, rfl⟩ := exists2 x
        obtain ⟨a', b', c', d', rfl⟩ := exists2 y
        show node (node (a * a') (c * a' + a * c')) (node (b * a' + a * b')
          (d * a' + c * b' + (b * c' + a * d'))) = node (node (a * a') (c * a' + a * c'))
            (node (b * a' + a * b') (d * a' + b * c' + (c * b' + a * d')))
        congr 2
        ring }
  const c := rfl
  c0 := by
    intro x
    obtain ⟨a, b, c, d, rfl⟩ := exists2 x
    rfl

end CT

/-! ### The evaluated function -/

theorem codeFp_eq (v : Vars) (par : ℕ → ℝ) (id N : ℕ) (ρ : ℕ → CT ℝ N) :
    codeFp v par id N ρ = (fullExpr par v id).evalCT ρ := by
  unfold codeFp fullExpr
  cases densvars par v with
  | none => rfl
  | some f =>
    cases Fun.energy id with
    | none => rfl
    | some e => exact (Expr.evalCT_subst f ρ e).symm

/-- The weighted sum of the active functionals as an expression in the input slots. -/
noncomputable def sumExpr (s : State ℝ) (v : Vars) : Expr ℕ :=
  s.active.foldl (fun out id => out.add (.mul (.lit (s.settings id)) (fullExpr s.settings v id)))
    (.lit 0)

theorem total_eq (s : State ℝ) (v : Vars) {N : ℕ} (ρ : ℕ → CT ℝ N) :
    total codeKernel s v 0 ρ = (sumExpr s v).evalCT ρ := by
  unfold total sumExpr
  have : ∀ (l : List ℕ) (t : CT ℝ N) (e : Expr ℕ), t = e.evalCT ρ →
      l.foldl (fun out id => out + CT.smul (s.settings id) (codeKernel.fp v s.settings id N ρ)) t =
        (l.foldl (fun out id => out.add (.mul (.lit (s.settings id)) (fullExpr s.settings v id)))
          e).evalCT ρ := by
    intro l
    induction l with
    | nil => intro t e h; exact h
    | cons id l ih =>
      intro t e h
      refine ih _ _ ?_
      show t + CT.smul (s.settings id) (codeFp v s.settings id N ρ) = _
      rw [h, CT.smul_eq, codeFp_eq]; rfl
  exact this _ _ _ rfl

theorem total_add (s : State ℝ) (v : Vars) {N : ℕ} (out : CT ℝ N) (ρ : ℕ → CT ℝ N) :
    total codeKernel s v out ρ = out + total codeKernel s v 0 ρ := by
  unfold total
  have : ∀ (l : List ℕ) (a b : CT ℝ N),
      l.foldl (fun out id => out + CT.smul (s.settings id) (codeKernel.fp v s.settings id N ρ)) (a + b) =
      a + l.foldl (fun out id => out + CT.smul (s.settings id) (codeKernel.fp v s.settings id N ρ)) b := by
    intro l
    induction l with
    | nil => intro a b; rfl
    | cons id l ih =>
      intro a b
      simp only [List.foldl_cons]
      rw [add_assoc, ih]
  have := this s.active out 0
  rwa [add_zero] at this

/-- The energy. -/
noncomputable def energyR (s : State ℝ) (v : Vars) (x : ℕ → ℝ) : ℝ := (sumExpr s v).evalR x

theorem total_c0 (s : State ℝ) (v : Vars) {N : ℕ} (hN : N ≤ 6) (ρ : ℕ → CT ℝ N) :
    (total codeKernel s v 0 ρ).get 0 = energyR s v (fun i => (ρ i).c0) := by
  rw [total_eq, ← CT.c0_eq_get, Expr.evalCT_c0 hN]; rfl

section
variable (s : State ℝ) (v : Vars) (x : ℕ → ℝ)

/-- Canonical first, second and third derivatives: one run with the needed perturbations only. -/
noncomputable def D1 (i : ℕ) : ℝ := ((sumExpr s v).evalCT (seed1 x (some i))).get 1
@[inherit_doc D1] noncomputable def D2 (i j : ℕ) : ℝ :=
  ((sumExpr s v).evalCT (seed2 x (some i) (some j))).get 3
@[inherit_doc D1] noncomputable def D3 (i j k : ℕ) : ℝ :=
  ((sumExpr s v).evalCT (seed3 x (some i) (some j) (some k))).get 7

theorem lo_get {n : ℕ} (t : CT ℝ (n + 1)) {c : ℕ} (h : c < 2 ^ n) : t.lo.get c = t.get c := by
  cases t with
  | node l r => simp [CT.lo, CT.get, h]

theorem run2 (i j : Option ℕ) :
    (sumExpr s v).evalCT (seed1 x i) = ((sumExpr s v).evalCT (seed2 x i j)).lo := by
  have := Expr.evalCT_hom (by omega) (by omega) (CT.Hom.dropLast 1) (seed2 x i j) (sumExpr s v)
  exact this.symm

theorem run2' (i j : Option ℕ) :
    (sumExpr s v).evalCT (seed1 x j) = (CT.Hom.dropLast 0).lift.toRingHom
      ((sumExpr s v).evalCT (seed2 x i j)) := by
  have := Expr.evalCT_hom (by omega) (by omega) (CT.Hom.dropLast 0).lift (seed2 x i j) (sumExpr s v)
  exact this.symm

theorem run2_1 (i : ℕ) (j : Option ℕ) :
    ((sumExpr s v).evalCT (seed2 x (some i) j)).get 1 = D1 s v x i := by
  rw [D1, run2 s v x (some i) j, lo_get _ (by norm_num)]

theorem run2_2 (i : Option ℕ) (j : ℕ) :
    ((sumExpr s v).evalCT (seed2 x i (some j))).get 2 = D1 s v x j := by
  rw [D1, run2' s v x i (some j)]
  generalize (sumExpr s v).evalCT (seed2 x i (some j)) = t
  obtain ⟨a, b, c, d, rfl⟩ := t.exists2_leaf
  rfl

theorem D2_symm (i j : ℕ) : D2 s v x i j = D2 s v x j i := by
  have := Expr.evalCT_hom (by omega) (by omega) (CT.Hom.swap 0) (seed2 x (some i) (some j))
    (sumExpr s v)
  have e : (fun l => (CT.Hom.swap 0).toRingHom (seed2 x (some i) (some j) l)) =
      seed2 x (some j) (some i) := rfl
  rw [e] at this
  rw [D2, D2, ← this]
  generalize (sumExpr s v).evalCT (seed2 x (some i) (some j)) = t
  obtain ⟨a, b, c, d, rfl⟩ := t.exists2_leaf
  rfl

theorem run3 (i j k : Option ℕ) :
    (sumExpr s v).evalCT (seed2 x i j) = ((sumExpr s v).evalCT (seed3 x i j k)).lo := by
  have := Expr.evalCT_hom (by omega) (by omega) (CT.Hom.dropLast 2) (seed3 x i j k) (sumExpr s v)
  exact this.symm

/-- Swapping the first two perturbations. -/
theorem D3_swap12 (i j k : ℕ) : D3 s v x i j k = D3 s v x j i k := by
  have := Expr.evalCT_hom (by omega) (by omega) (CT.Hom.swap 0).lift
    (seed3 x (some i) (some j) (some k)) (sumExpr s v)
  have e : (fun l => (CT.Hom.swap 0).lift.toRingHom (seed3 x (some i) (some j) (some k) l)) =
      seed3 x (some j) (some i) (some k) := rfl
  rw [e] at this
  rw [D3, D3, ← this]
  generalize (sumExpr s v).evalCT (seed3 x (some i) (some j) (some k)) = t
  obtain ⟨a, b, c, d, a', b', c', d', rfl⟩ := t.exists3_leaf
  rfl

/-- Swapping the last two perturbations. -/
theorem D3_swap23 (i j k : ℕ) : D3 s v x i j k = D3 s v x i k j := by
  have := Expr.evalCT_hom (by omega) (by omega) (CT.Hom.swap 1)
    (seed3 x (some i) (some j) (some k)) (sumExpr s v)
  have e : (fun l => (CT.Hom.swap 1).toRingHom (seed3 x (some i) (some j) (some k) l)) =
      seed3 x (some i) (some k) (some j) := rfl
  rw [e] at this
  rw [D3, D3, ← this]
  generalize (sumExpr s v).evalCT (seed3 x (some i) (some j) (some k)) = t
  obtain ⟨a, b, c, d, a', b', c', d', rfl⟩ := t.exists3_leaf
  rfl

/-- All coefficients of a run with three perturbations. -/
theorem run3_all (i j k : ℕ) :
    (sumExpr s v).evalCT (seed3 x (some i) (some j) (some k)) =
      .node (.node (.node (.leaf (energyR s v x)) (.leaf (D1 s v x i)))
          (.node (.leaf (D1 s v x j)) (.leaf (D2 s v x i j))))
        (.node (.node (.leaf (D1 s v x k)) (.leaf (D2 s v x i k)))
          (.node (.leaf (D2 s v x j k)) (.leaf (D3 s v x i j k)))) := by
  have hlo := run3 s v x (some i) (some j) (some k)
  have h12 := Expr.evalCT_hom (by omega) (by omega) ((CT.Hom.dropLast 1).lift)
    (seed3 x (some i) (some j) (some k)) (sumExpr s v)
  have h12 : _ = (sumExpr s v).evalCT (seed2 x (some i) (some k)) := h12
  have h02 := Expr.evalCT_hom (by omega) (by omega) ((CT.Hom.dropLast 0).lift.lift)
    (seed3 x (some i) (some j) (some k)) (sumExpr s v)
  have h02 : _ = (sumExpr s v).evalCT (seed2 x (some j) (some k)) := h02
  have c0 := Expr.evalCT_c0 (N := 3) (by omega) (seed3 x (some i) (some j) (some k)) (sumExpr s v)
  have c0 : _ = energyR s v x := c0
  have a1 := run2_1 s v x i (some j)
  have a2 := run2_2 s v x (some i) j
  have a3 : D2 s v x i j = ((sumExpr s v).evalCT (seed2 x (some i) (some j))).get 3 := rfl
  have b2 := run2_2 s v x (some i) k
  have b3 : D2 s v x i k = ((sumExpr s v).evalCT (seed2 x (some i) (some k))).get 3 := rfl
  have e3 : D2 s v x j k = ((sumExpr s v).evalCT (seed2 x (some j) (some k))).get 3 := rfl
  have f : D3 s v x i j k =
    ((sumExpr s v).evalCT (seed3 x (some i) (some j) (some k))).get 7 := rfl
  rw [hlo] at a1 a2 a3
  rw [← h12] at b2 b3
  rw [← h02] at e3
  revert c0 a1 a2 a3 b2 b3 e3 f
  generalize (sumExpr s v).evalCT (seed3 x (some i) (some j) (some k)) = t
  obtain ⟨a, b, c, d, a', b', c', d', rfl⟩ := t.exists3_leaf
  intro c0 a1 a2 a3 b2 b3 e3 f
  have c0 : a = energyR s v x := c0
  have a1 : b = _ := a1
  have a2 : c = _ := a2
  replace a3 : _ = d := a3
  have b2 : a' = _ := b2
  replace b3 : _ = b' := b3
  replace e3 : _ = c' := e3
  replace f : _ = d' := f
  subst c0 a1 a2 b2
  subst a3 b3 e3 f
  rfl

theorem run2_all (i j : ℕ) :
    (sumExpr s v).evalCT (seed2 x (some i) (some j)) =
      .node (.node (.leaf (energyR s v x)) (.leaf (D1 s v x i)))
          (.node (.leaf (D1 s v x j)) (.leaf (D2 s v x i j))) := by
  rw [run3 s v x (some i) (some j) (some 0), run3_all]; rfl

theorem run1_all (i : ℕ) :
    (sumExpr s v).evalCT (seed1 x (some i)) =
      .node (.leaf (energyR s v x)) (.leaf (D1 s v x i)) := by
  rw [run2 s v x (some i) (some i), run2_all]; rfl

theorem run0 : (sumExpr s v).evalCT (fun i => CT.const 0 (x i)) = .leaf (energyR s v x) := by
  have c0 := Expr.evalCT_c0 (N := 0) (by omega) (fun i => CT.const 0 (x i)) (sumExpr s v)
  have c0 : _ = energyR s v x := c0
  revert c0
  generalize (sumExpr s v).evalCT (fun i => CT.const 0 (x i)) = t
  obtain ⟨a, rfl⟩ := t.exists_leaf
  intro h; exact congrArg _ h

/-! The outputs in terms of the canonical derivatives -/

theorem res1_layout : res1 codeKernel s v x =
    layout v.len 1 (energyR s v x) (D1 s v x) (D2 s v x) (D3 s v x) := by
  have hn := len_pos v
  simp only [res1, total_eq, layout, le_refl, if_true, Nat.not_ofNat_le_one, if_false,
    List.append_nil]
  congr 1
  · congr 1
    split
    · rw [run1_all]; rfl
    · rw [run2_all]; rfl
  · refine List.map_congr_left fun i hi => ?_
    split
    · rw [run1_all]; rfl
    · rw [run2_all]
      split
      · have : 2 * (i / 2) = i := by omega
        rw [this]; rfl
      · have : 2 * (i / 2) + 1 = i := by omega
        rw [this]; rfl

theorem res2_layout : res2 codeKernel s v x =
    layout v.len 2 (energyR s v x) (D1 s v x) (D2 s v x) (D3 s v x) := by
  simp only [res2, total_eq, layout, Nat.one_le_ofNat, le_refl, if_true,
    Nat.reduceLeDiff, if_false, List.append_nil, run2_all]
  rfl

theorem res3_layout : res2 codeKernel s v x ++ res3 codeKernel s v x =
    layout v.len 3 (energyR s v x) (D1 s v x) (D2 s v x) (D3 s v x) := by
  rw [res2_layout]
  simp only [res3, d3, total_eq, layout, Nat.one_le_ofNat, le_refl, if_true, Nat.reduceLeDiff,
    if_false, List.append_nil, run3_all]
  rfl

end

/-- Partial-derivative mode, all orders, in terms of the canonical derivatives. -/
theorem evalPartial_layout {s : State ℝ} {v : Vars} {x : ℕ → ℝ} {input output : List ℝ} (junk : Junk ℝ)
    (hsup : DV.reads v ≠ none) (hx : ∀ i < v.len, input[i]? = some (x i))
    {k : ℕ} (hk : s.order = k) (hk3 : k ≤ 3)
    (ho : (layout v.len k (energyR s v x) (D1 s v x) (D2 s v x) (D3 s v x)).length ≤ output.length) :
    evalPartial codeKernel junk s v input output = .ok (splice output 0
      (layout v.len k (energyR s v x) (D1 s v x) (D2 s v x) (D3 s v x))) := by
  have hR : Ready codeKernel v input x := ⟨codeKernel_local, by
    cases h : DV.reads v with
    | none => exact absurd h hsup
    | some sl => exact ⟨sl, h⟩, len_le v, hx⟩
  have hn := len_pos v
  have hl2 := length_res2 codeKernel s v x
  have hlp := length_pairs v.len
  rw [evalPartial, hk]
  interval_cases k
  · rw [if_pos (by norm_num), evalOrder0_ok hR junk s (by simpa [layout] using ho), total_eq, run0]
    rfl
  · rw [if_neg (by norm_num), if_pos (by norm_num), evalOrder1_ok hR hn junk s, res1_layout]
    simpa [layout, Nat.add_comm] using ho
  · rw [if_neg (by norm_num), if_neg (by norm_num), if_neg (by norm_num), if_pos (by norm_num),
      evalOrder2_ok hR hn junk s, res2_layout]
    rw [← res2_layout, hl2] at ho
    omega
  · rw [← res3_layout, List.length_append, hl2, res3, List.length_map] at ho
    rw [if_neg (by norm_num), if_neg (by norm_num), if_pos (by norm_num),
      evalOrder3_ok hR junk s ho, Outcome.ok_bind, evalOrder2_ok hR hn junk s, ← res3_layout]
    · have := splice_append (o := output) (k := 0) (xs := res2 codeKernel s v x)
        (ys := res3 codeKernel s v x) (by rw [hl2, res3, List.length_map]; omega)
      rw [hl2, Nat.zero_add] at this
      rw [this]
    · rw [length_splice (by rw [res3, List.length_map]; omega)]; omega

end XCFun

namespace XCFun
open Spec

theorem energyR_eq (s : State ℝ) (v : Vars) (x : ℕ → ℝ) : energyR s v x = energyAt s v x := by
  unfold energyR sumExpr energyAt
  have : ∀ (l : List ℕ) (e : Expr ℕ),
      (l.foldl (fun out id => out.add (.mul (.lit (s.settings id)) (fullExpr s.settings v id))) e).evalR x =
        e.evalR x + (l.map fun id => s.settings id * (fullExpr s.settings v id).evalR x).sum := by
    intro l
    induction l with
    | nil => intro e; simp
    | cons id l ih =>
      intro e
      rw [List.foldl_cons, ih, List.map_cons, List.sum_cons, ← add_assoc]
      rfl
  rw [this]
  simp [Expr.evalR]

theorem sumExpr_evalCT (s : State ℝ) (v : Vars) {N : ℕ} (ρ : ℕ → CT ℝ N) :
    (sumExpr s v).evalCT ρ = energyOn s v ρ := by
  unfold sumExpr energyOn
  have : ∀ (l : List ℕ) (e : Expr ℕ),
      (l.foldl (fun out id => out.add (.mul (.lit (s.settings id)) (fullExpr s.settings v id))) e).evalCT ρ =
        e.evalCT ρ + (l.map fun id => CT.const N (s.settings id) *
          (fullExpr s.settings v id).evalCT ρ).sum := by
    intro l
    induction l with
    | nil => intro e; simp
    | cons id l ih =>
      intro e
      rw [List.foldl_cons, ih, List.map_cons, List.sum_cons, ← add_assoc]
      rfl
  rw [this]
  show (0 : CT ℝ N) + _ = _
  rw [zero_add]

theorem sumExpr_reg {s : State ℝ} {v : Vars} {x : ℕ → ℝ} (h : RegularAt s v x) :
    (sumExpr s v).Reg x := by
  unfold sumExpr
  have : ∀ (l : List ℕ) (e : Expr ℕ), e.Reg x → (∀ id ∈ l, (fullExpr s.settings v id).Reg x) →
      (l.foldl (fun out id => out.add (.mul (.lit (s.settings id)) (fullExpr s.settings v id))) e).Reg x := by
    intro l
    induction l with
    | nil => intro e he _; exact he
    | cons id l ih =>
      intro e he hl
      exact ih _ ⟨he, trivial, hl id (by simp)⟩ fun j hj => hl j (by simp [hj])
  exact this _ _ trivial h

end XCFun
