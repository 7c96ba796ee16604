/-
Uniform scaling: from the inputs to the density variables and the energy.
-/
import Verif.Proofs.ScalingFun
import Verif.Proofs.Spin

namespace XCFun
open Spec

/-- The density variables at the inputs `x`. -/
noncomputable def memberR (par : ℕ → ℝ) (v : Vars) (x : ℕ → ℝ) (f : Field) : ℝ :=
  (member par v (fun i => CT.const 0 (x i)) f).c0

theorem memberR_evalR {par : ℕ → ℝ} {v : Vars} {g : Field → Expr ℕ} (h : densvars par v = some g) (x : ℕ → ℝ) (f : Field) :
    memberR par v x f = (g f).evalR x := by
  rw [memberR, member, h]
  exact Expr.evalCT_c0 (by omega) _ _

/-- The energy in terms of the density variables. -/
theorem energyAt_members (s : State ℝ) {v : Vars} (hv : ¬ Unsupported v) (x : ℕ → ℝ) :
    energyAt s v x = (s.active.map fun id => s.settings id *
      ((Fun.energy id).getD 0).evalR (memberR s.settings v x)).sum := by
  unfold energyAt
  refine congrArg List.sum (List.map_congr_left fun id _ => ?_)
  congr 1
  unfold fullExpr
  obtain ⟨g, hg⟩ := densvars_some (par := s.settings) hv
  rw [hg]
  cases he : Fun.energy id with
  | none => rfl
  | some e =>
    dsimp only [Option.getD_some]
    rw [Expr.evalR_subst']
    congr 1
    funext f
    rw [memberR_evalR hg]

section
variable {R S : Type _} [CommRing R] [CommRing S] (φ : R →+* S)

theorem map_spinFields (a b gaa gab gbb ta tb la lb ja jb : R) (f : Field) :
    φ (spinFields a b gaa gab gbb ta tb la lb ja jb f) =
      spinFields (φ a) (φ b) (φ gaa) (φ gab) (φ gbb) (φ ta) (φ tb) (φ la) (φ lb) (φ ja) (φ jb) f := by
  cases f <;> simp [spinFields, map_ofNat]

theorem map_withTotals (n s : R) (g : Field → R) (f : Field) :
    φ (withTotals n s g f) = withTotals (φ n) (φ s) (fun f => φ (g f)) f := by
  cases f <;> rfl

theorem map_given (h : R) (ρ : ℕ → R) (v : Vars) (f : Field) :
    φ (given h ρ v f) = given (φ h) (fun i => φ (ρ i)) v f := by
  cases v <;> simp only [given, map_zero, map_spinFields, map_withTotals, dot, map_add, map_mul, map_sub, map_ofNat]

end

/-- The value of an expansion. -/
def CT.c0Hom (N : ℕ) : CT ℝ N →+* ℝ where
  toFun := CT.c0
  map_one' := CT.c0_const _
  map_zero' := CT.c0_const _
  map_add' := CT.c0_add
  map_mul' := CT.c0_mul

theorem c0_given (x : ℕ → ℝ) (v : Vars) (f : Field) :
    (given (CT.const 0 (1 / 2)) (fun i => CT.const 0 (x i)) v f).c0 = given (1 / 2) x v f := by
  have := map_given (CT.c0Hom 0) (CT.const 0 (1 / 2)) (fun i => CT.const 0 (x i)) v f
  refine this.trans ?_
  show given (CT.c0 (CT.const 0 (1 / 2))) (fun i => CT.c0 (CT.const 0 (x i))) v f = _
  simp only [CT.c0_const]

theorem map_densities {R S : Type _} [CommRing R] [CommRing S] (φ : R →+* S) (h : R) (ρ : ℕ → R) (v : Vars) :
    (densities h ρ v).map φ = densities (φ h) (fun i => φ (ρ i)) v := by
  cases v <;> simp [densities, densSlots]

/-- Above the threshold the density variables are what the inputs stand for. -/
theorem memberR_given (par : ℕ → ℝ) {v : Vars} (hv : ¬ Unsupported v) (hA : v ≠ .A ∧ v ≠ .A_GAA) {x : ℕ → ℝ}
    (h : ∀ y ∈ densities (1 / 2) x v, threshold ≤ y) {f : Field} (hf : IsDensity f ∨ IsOther f) :
    memberR par v x f = given (1 / 2) x v f := by
  rw [memberR, ← c0_given]
  rcases hf with hf | hf
  · rw [member_density par hv hA _ (fun y hy => ?_) hf]
    have := map_densities (CT.c0Hom 0) (CT.const 0 (1 / 2)) (fun i => CT.const 0 (x i)) v
    have e : densities ((CT.c0Hom 0) (CT.const 0 (1 / 2))) (fun i => (CT.c0Hom 0) (CT.const 0 (x i))) v =
        densities (1 / 2) x v := by
      show densities (CT.c0 (CT.const 0 (1 / 2))) (fun i => CT.c0 (CT.const 0 (x i))) v = _
      simp only [CT.c0_const]
    rw [e] at this
    exact h _ (this ▸ List.mem_map_of_mem hy)
  · rw [member_other par v _ hf]

theorem scale_spinFields {g : ℝ} (a b gaa gab gbb ta tb la lb ja jb : ℝ) {f : Field} (hf : IsDensity f ∨ IsOther f) :
    spinFields (g ^ 3 * a) (g ^ 3 * b) (g ^ 8 * gaa) (g ^ 8 * gab) (g ^ 8 * gbb) (g ^ 5 * ta) (g ^ 5 * tb) (g ^ 5 * la)
      (g ^ 5 * lb) (g ^ 8 * ja) (g ^ 8 * jb) f = g ^ fieldDeg f * spinFields a b gaa gab gbb ta tb la lb ja jb f := by
  have h3 : g ^ (3 : ℤ) = g ^ 3 := rfl
  have h5 : g ^ (5 : ℤ) = g ^ 5 := rfl
  have h8 : g ^ (8 : ℤ) = g ^ 8 := rfl
  cases f <;> simp only [IsDensity, IsOther] at hf <;> simp only [spinFields, fieldDeg, h3, h5, h8] <;>
    first | rfl | ring

theorem scale_given {v : Vars} (hv : ¬ Unsupported v) (g : ℝ) (x : ℕ → ℝ) {f : Field} (hf : IsDensity f ∨ IsOther f) :
    given (1 / 2) (scaleInputs v g x) v f = g ^ fieldDeg f * given (1 / 2) x v f := by
  have w : ∀ n s (p q : Field → ℝ), (∀ f, IsDensity f ∨ IsOther f → q f = g ^ fieldDeg f * p f) →
      withTotals (g ^ 3 * n) (g ^ 3 * s) q f = g ^ fieldDeg f * withTotals n s p f := by
    intro n s p q hpq
    cases f <;> simp only [withTotals] <;> first | rfl | exact hpq _ hf
  cases v <;> first
    | exact absurd (by decide) hv
    | (simp only [given]
       first
         | (rw [← scale_spinFields _ _ _ _ _ _ _ _ _ _ _ hf]; congr 1 <;> simp [scaleInputs, inputDeg, dot] <;> ring)
         | (refine w _ _ _ _ fun f hf => ?_
            rw [← scale_spinFields _ _ _ _ _ _ _ _ _ _ _ hf]; congr 1 <;> simp [scaleInputs, inputDeg] <;> ring)
         | simp)

/-- The densities are positive. -/
theorem memberR_pos (par : ℕ → ℝ) {v : Vars} (hv : ¬ Unsupported v) (hA : v ≠ .A ∧ v ≠ .A_GAA)
    {x : ℕ → ℝ} (h : ∀ y ∈ densities (1 / 2) x v, threshold ≤ y) : Fun.Pos (memberR par v x) := by
  have ht : 0 < threshold := by norm_num [threshold]
  have p : 0 < given (1 / 2) x v .a ∧ 0 < given (1 / 2) x v .b ∧ 0 < given (1 / 2) x v .n := by
    cases v <;> first
      | exact absurd (by decide) hv
      | exact absurd rfl hA.1
      | exact absurd rfl hA.2
      | (simp only [densities, densSlots, List.map_cons, List.map_nil, List.mem_cons, List.not_mem_nil, or_false,
          forall_eq_or_imp, forall_eq] at h
         simp only [given, withTotals, spinFields]
         refine ⟨?_, ?_, ?_⟩ <;> linarith)
  exact ⟨by rw [memberR_given par hv hA h (.inl (by simp [IsDensity]))]; exact p.1,
    by rw [memberR_given par hv hA h (.inl (by simp [IsDensity]))]; exact p.2.1,
    by rw [memberR_given par hv hA h (.inl (by simp [IsDensity]))]; exact p.2.2⟩

theorem memberR_derived (par : ℕ → ℝ) {v : Vars} (hv : ¬ Unsupported v) (x : ℕ → ℝ) :
    memberR par v x .zeta = memberR par v x .s / memberR par v x .n ∧
    memberR par v x .r_s = (3 / (memberR par v x .n * 4 * Real.pi)) ^ ((1 : ℝ) / 3) ∧
    memberR par v x .n_m13 = memberR par v x .n ^ (-1 / 3 : ℝ) ∧
    memberR par v x .a_43 = memberR par v x .a ^ (4 / 3 : ℝ) ∧
    memberR par v x .b_43 = memberR par v x .b ^ (4 / 3 : ℝ) ∧
    ∀ i, memberR par v x (.param i) = par i := by
  have key : ∃ y : DV ℕ, densvars par v = some (y.finish.field par) := by
    cases v <;> first
      | exact ⟨_, rfl⟩
      | exact absurd (by decide) hv
  obtain ⟨y, hy⟩ := key
  simp only [memberR_evalR hy]
  refine ⟨?_, ?_, rfl, rfl, rfl, fun _ => rfl⟩
  · exact Expr.evalR_div x _ _
  · show (Expr.evalR x (3 / (y.n * 4 * Expr.lit Real.pi))) ^ ((1 : ℝ) / 3) = _
    rw [Expr.evalR_div, Expr.evalR_mul, Expr.evalR_mul]
    rfl

/-- Scaling the inputs scales the density variables, if all densities are above the threshold before and after. -/
theorem memberR_scale (par : ℕ → ℝ) {v : Vars} (hv : ¬ Unsupported v) (hA : v ≠ .A ∧ v ≠ .A_GAA) {g : ℝ} (hg : 0 < g)
    {x : ℕ → ℝ} (h : ∀ y ∈ densities (1 / 2) x v, threshold ≤ y)
    (h' : ∀ y ∈ densities (1 / 2) (scaleInputs v g x) v, threshold ≤ y) :
    memberR par v (scaleInputs v g x) = scaleField g (memberR par v x) := by
  have main : ∀ f, IsDensity f ∨ IsOther f →
      memberR par v (scaleInputs v g x) f = g ^ fieldDeg f * memberR par v x f := by
    intro f hf
    rw [memberR_given par hv hA h' hf, scale_given hv g x hf, memberR_given par hv hA h hf]
  have ha := main .a (.inl (by simp [IsDensity]))
  have hb := main .b (.inl (by simp [IsDensity]))
  have hn := main .n (.inl (by simp [IsDensity]))
  have hs := main .s (.inl (by simp [IsDensity]))
  obtain ⟨pa, pb, pn⟩ := memberR_pos par hv hA h
  obtain ⟨z, r, m, a4, b4, p⟩ := memberR_derived par hv x
  obtain ⟨z', r', m', a4', b4', p'⟩ := memberR_derived par hv (scaleInputs v g x)
  have h3 : g ^ fieldDeg .a = g ^ (3 : ℝ) := by rw [← Real.rpow_intCast]; simp [fieldDeg]
  have gp : ∀ c : ℝ, (g ^ (3 : ℝ)) ^ c = g ^ (3 * c) := fun c => (Real.rpow_mul hg.le _ _).symm
  have g4 : g ^ (fieldDeg .a_43) = g ^ (4 : ℝ) := by rw [← Real.rpow_intCast]; simp [fieldDeg]
  have g1 : g ^ (fieldDeg .r_s) = g ^ (-1 : ℝ) := by
    rw [← Real.rpow_intCast]; simp [fieldDeg]
  have gpos := Real.rpow_nonneg hg.le 3
  funext f
  rw [scaleField]
  cases f with
  | zeta =>
    rw [z', hs, hn, z]
    show g ^ (3 : ℤ) * _ / (g ^ (3 : ℤ) * _) = g ^ (0 : ℤ) * _
    rw [mul_div_mul_left _ _ (zpow_ne_zero _ hg.ne'), zpow_zero, one_mul]
  | r_s =>
    rw [r', hn, r, g1]
    show (3 / (g ^ fieldDeg .a * _ * 4 * Real.pi)) ^ _ = _
    rw [h3, show 3 / (g ^ (3 : ℝ) * memberR par v x .n * 4 * Real.pi) =
      (g ^ (3 : ℝ))⁻¹ * (3 / (memberR par v x .n * 4 * Real.pi)) by field_simp, Real.mul_rpow (by positivity) (by positivity),
      ← Real.rpow_neg hg.le, ← Real.rpow_mul hg.le]
    norm_num
  | n_m13 =>
    rw [m', hn, m]
    show (g ^ fieldDeg .a * _) ^ _ = g ^ (fieldDeg .r_s) * _
    rw [h3, g1, Real.mul_rpow gpos pn.le, gp]
    norm_num
  | a_43 =>
    rw [a4', ha, a4, h3, g4, Real.mul_rpow gpos pa.le, gp]
    norm_num
  | b_43 =>
    rw [b4', hb, b4]
    show (g ^ fieldDeg .a * _) ^ _ = g ^ (fieldDeg .a_43) * _
    rw [h3, g4, Real.mul_rpow gpos pb.le, gp]
    norm_num
  | param i =>
    rw [p', p]
    show _ = g ^ (0 : ℤ) * _
    rw [zpow_zero, one_mul]
  | a => exact ha
  | b => exact hb
  | n => exact hn
  | s => exact hs
  | _ => exact main _ (.inr (by simp [IsOther]))

/-- Homogeneous functionals have homogeneous energies. -/
theorem energyAt_scale (s : State ℝ) {v : Vars} (hv : ¬ Unsupported v) (hA : v ≠ .A ∧ v ≠ .A_GAA) {g : ℝ} (hg : 0 < g)
    {x : ℕ → ℝ} (h : ∀ y ∈ densities (1 / 2) x v, threshold ≤ y)
    (h' : ∀ y ∈ densities (1 / 2) (scaleInputs v g x) v, threshold ≤ y) {k : ℕ}
    (hk : ∀ id ∈ s.active, ∀ e, Fun.energy id = some e → Fun.Deg e k) :
    energyAt s v (scaleInputs v g x) = g ^ k * energyAt s v x := by
  rw [energyAt_members s hv, energyAt_members s hv, ← List.sum_map_mul_left]
  refine congrArg List.sum (List.map_congr_left fun id hid => ?_)
  rw [memberR_scale s.settings hv hA hg h h']
  cases he : Fun.energy id with
  | none =>
    show _ * (0 : ℝ) = _ * (_ * (0 : ℝ))
    simp
  | some e =>
    rw [Option.getD_some, (hk id hid e he).eq hg (memberR_pos s.settings hv hA h), Real.rpow_natCast]
    ring

end XCFun
