/-
Density variables of physical inputs, and smoothness of the members of `densvars`.
-/
import Verif.Spec.Smooth
import Verif.Proofs.Regular
import Verif.Proofs.LimitsEval

namespace XCFun
open Spec Expr

/-- The density variables of a physical input. -/
theorem memberR_sound (par : ℕ → ℝ) {v : Vars} (hv : ¬ Unsupported v) (hA : v ≠ .A ∧ v ≠ .A_GAA) {x : ℕ → ℝ}
    (h : PhysicalInput v x) : Sound (memberR par v x) := by
  have hd : ∀ y ∈ densities (1 / 2) x v, threshold ≤ y := fun y hy => (h.dens y hy).le
  obtain ⟨hz, hr, hn, -, -, -⟩ := memberR_derived par hv x
  have e : ∀ f, IsDensity f ∨ IsOther f → memberR par v x f = given (1 / 2) x v f := fun f hf => memberR_given par hv hA hd hf
  have ht : 0 < threshold := by norm_num [threshold]
  have p : given (1 / 2) x v .s < given (1 / 2) x v .n ∧ -given (1 / 2) x v .n < given (1 / 2) x v .s := by
    cases v <;> first
      | exact absurd (by decide) hv
      | exact absurd rfl hA.1
      | exact absurd rfl hA.2
      | (simp only [densities, densSlots, List.map_cons, List.map_nil, List.mem_cons, List.not_mem_nil, or_false,
          forall_eq_or_imp, forall_eq] at hd
         simp only [given, withTotals, spinFields]
         refine ⟨?_, ?_⟩ <;> linarith)
  exact { memberR_physical par hv hA x with
    s_lt := by rw [e _ (.inl (by simp [IsDensity])), e _ (.inl (by simp [IsDensity]))]; exact p.1
    lt_s := by rw [e _ (.inl (by simp [IsDensity])), e _ (.inl (by simp [IsDensity]))]; exact p.2
    zeta := hz
    r_s := hr
    n_m13 := hn
    gaa := by rw [e _ (.inr (by simp [IsOther]))]; exact h.gaa
    gbb := by rw [e _ (.inr (by simp [IsOther]))]; exact h.gbb
    gnn := by rw [e _ (.inr (by simp [IsOther]))]; exact h.gnn }

/-- The densities and the other given members are smooth at a physical input. -/
theorem members_reg_given (par : ℕ → ℝ) {v : Vars} (hv : ¬ Unsupported v) (hA : v ≠ .A ∧ v ≠ .A_GAA) {x : ℕ → ℝ}
    (h : ∀ y ∈ densities (1 / 2) x v, threshold < y) {g : Field → Expr ℕ} (hg : densvars par v = some g) (f : Field)
    (hf : IsDensity f ∨ IsOther f) : (g f).Reg x := by
  have ht : threshold = 1e-14 := rfl
  cases v <;> first
    | exact absurd (by decide) hv
    | exact absurd rfl hA.1
    | exact absurd rfl hA.2
    | (simp only [densities, densSlots, List.map_cons, List.map_nil, List.mem_cons, List.not_mem_nil, or_false,
        forall_eq_or_imp, forall_eq, ht] at h
       simp only [densvars, DV.select, DV.selectFrom, Option.map_some, Option.some.injEq] at hg
       subst hg
       simp only [IsDensity, IsOther, List.mem_cons, List.not_mem_nil, or_false] at hf
       rcases hf with (rfl | rfl | rfl | rfl) | rfl | rfl | rfl | rfl | rfl | rfl | rfl | rfl | rfl | rfl | rfl | rfl | rfl <;>
       simp [DV.field, DV.finish, DV.caseABTau, DV.caseABGrad, DV.caseABAt, DV.total, DV.caseNSTau, DV.caseNSGrad, DV.spinGrad,
         DV.caseNS, DV.caseTauNAt, DV.caseNGrad, DV.closedGrad, DV.caseN, DV.caseN2nd, DV.caseNXyz, DV.caseAB2nd, DV.dotGrad,
         DV.caseABXyzTau, DV.caseABXyz, DV.caseNSXyzTau, DV.caseNSXyz, DV.caseJp, DV.caseLapTau] <;>
       first
        | linarith
        | exact h
        | (simp only [not_lt.2 h.1.le, if_false]; refine ⟨?_, ?_⟩ <;> linarith))

/-- Every member of `densvars` is smooth at a physical input. -/
theorem members_reg (par : ℕ → ℝ) {v : Vars} (hv : ¬ Unsupported v) (hA : v ≠ .A ∧ v ≠ .A_GAA) {x : ℕ → ℝ}
    (h : ∀ y ∈ densities (1 / 2) x v, threshold < y) {g : Field → Expr ℕ} (hg : densvars par v = some g) (f : Field) :
    (g f).Reg x := by
  have hp := memberR_physical par hv hA x
  have key := members_reg_given par hv hA h hg
  have eR : ∀ f, (g f).evalR x = memberR par v x f := fun f => (memberR_evalR hg x f).symm
  have hder : g .zeta = g .s / g .n ∧ g .r_s = Expr.pow (3 / (g .n * 4 * (Real.pi : Expr ℕ))) (1 / 3) ∧
      g .n_m13 = Expr.pow (g .n) (-1 / 3) ∧ g .a_43 = Expr.pow (g .a) (4 / 3) ∧ g .b_43 = Expr.pow (g .b) (4 / 3) ∧
      ∀ i, g (.param i) = par i := by
    obtain ⟨w, -, rfl⟩ : ∃ w, DV.select v = some w ∧ (fun f => w.finish.field par f) = g := by
      simpa [densvars, Option.map_eq_some_iff] using hg
    exact ⟨rfl, rfl, rfl, rfl, rfl, fun _ => rfl⟩
  obtain ⟨d1, d2, d3, d4, d5, d6⟩ := hder
  have kn := key .n (.inl (by simp [IsDensity]))
  have ks := key .s (.inl (by simp [IsDensity]))
  have ka := key .a (.inl (by simp [IsDensity]))
  have kb := key .b (.inl (by simp [IsDensity]))
  have hn := hp.n
  have ha := hp.a
  have hb := hp.b
  have hpi := Real.pi_pos
  cases f with
  | zeta => rw [d1, Reg_div, eR]; exact ⟨ks, kn, hn.ne'⟩
  | r_s =>
    rw [d2]
    simp only [Reg_pow, Reg_div, Reg_mul, Reg_ofNat, Reg_lit, evalR_div, evalR_mul, evalR_ofNat, evalR_lit, eR, kn, true_and]
    exact ⟨by positivity, by positivity⟩
  | n_m13 => rw [d3, Reg_pow, eR]; exact ⟨kn, hn⟩
  | a_43 => rw [d4, Reg_pow, eR]; exact ⟨ka, ha⟩
  | b_43 => rw [d5, Reg_pow, eR]; exact ⟨kb, hb⟩
  | param i => rw [d6]; trivial
  | a | b | n | s => exact key _ (.inl (by simp [IsDensity]))
  | _ => exact key _ (.inr (by simp [IsOther]))

/-- A state is regular at a physical input if each active functional is regular at the density variables. -/
theorem regularAt_of_members (s : State ℝ) {v : Vars} (hv : ¬ Unsupported v) (hA : v ≠ .A ∧ v ≠ .A_GAA) {x : ℕ → ℝ}
    (h : ∀ y ∈ densities (1 / 2) x v, threshold < y)
    (he : ∀ id ∈ s.active, ∀ e, Fun.energy id = some e → e.Reg (memberR s.settings v x)) : RegularAt s v x := by
  intro id hid
  obtain ⟨g, hg⟩ := densvars_some (par := s.settings) hv
  unfold fullExpr
  rw [hg]
  cases hen : Fun.energy id with
  | none => trivial
  | some e =>
    refine Expr.Reg_subst (p := fun _ => true) (fun f _ => members_reg _ hv hA h hg f) e (usesOnly_true e) ?_
    have := he id hid e hen
    rwa [show memberR s.settings v x = fun i => (g i).evalR x from funext fun f => memberR_evalR hg x f] at this

end XCFun
