/-
Lemmas for the gradient expansion of closed shells.
-/
import Verif.Spec.GradientExpansion
import Verif.Props.Literature
import Mathlib.Analysis.SpecialFunctions.Pow.Deriv
import Mathlib.Analysis.SpecialFunctions.Log.Deriv

namespace XCFun.GE
open Lit

variable {n : ℝ}

theorem kF_pos (hn : 0 < n) : 0 < kF n := by
  have := Real.pi_pos
  unfold kF
  positivity

/-- `(3 n/π)^(1/3) = k_F/π`. -/
theorem exUnif_eq (hn : 0 < n) : exUnif n = -(3 / 4) * (kF n / Real.pi) * n := by
  have hp := Real.pi_pos
  have h : kF n / Real.pi = (3 / Real.pi) ^ (1 / 3 : ℝ) * n ^ (1 / 3 : ℝ) := by
    rw [kF, ← Real.mul_rpow (by positivity) hn.le, show 3 * Real.pi ^ 2 * n = Real.pi ^ (3 : ℝ) * (3 / Real.pi * n) by
      rw [show (3 : ℝ) = (3 : ℕ) by norm_num, Real.rpow_natCast]; field_simp, Real.mul_rpow (by positivity) (by positivity), ← Real.rpow_mul hp.le]
    norm_num
  rw [h, exUnif, show (4 / 3 : ℝ) = 1 / 3 + 1 by norm_num, Real.rpow_add hn, Real.rpow_one]
  ring

theorem phi_zero : phi 0 = 1 := by simp [phi, pol]

/-- Exchange with enhancement factor `F`, `F' = μ` at zero gradient. -/
theorem exchange (hn : 0 < n) {F : ℝ → ℝ} {μ : ℝ} (hF : HasDerivAt F μ 0) :
    HasDerivAt (fun g2 => exUnif n * F (sSq n g2)) (exchangeTerm μ n) 0 := by
  have hs : HasDerivAt (fun g2 => sSq n g2) (1 / (2 * kF n * n) ^ 2) 0 := (hasDerivAt_id' (0 : ℝ)).div_const _
  have h0 : sSq n 0 = 0 := by simp [sSq]
  rw [← h0] at hF
  refine ((hF.comp (0 : ℝ) hs).const_mul (exUnif n)).congr_deriv ?_
  have := kF_pos hn
  have := Real.pi_pos
  rw [exUnif_eq hn, exchangeTerm]
  field_simp
  ring

/-- `H` starts with `β t²` when `β` is continuous in the gradient. -/
theorem pbeH_deriv (ε : ℝ) {β : ℝ → ℝ} (hβ : DifferentiableAt ℝ β 0) : HasDerivAt (fun t2 => pbeH (β t2) ε 0 t2) (β 0) 0 := by
  have hl : Real.log 2 < 1 := by have := Real.log_two_lt_d9; linarith
  have hp := Real.pi_pos
  have hγ : 0 < gammaPBE := div_pos (by linarith) (by positivity)
  set c := Real.exp (-ε / (gammaPBE * phi 0 ^ 3)) - 1 with hc
  have hA : ∀ t, pbeA (β t) ε 0 = β t * (1 / gammaPBE / c) := fun t => by rw [pbeA, ← hc]; ring
  obtain ⟨b', hb⟩ : ∃ b', HasDerivAt β b' 0 := ⟨_, hβ.hasDerivAt⟩
  set k := 1 / gammaPBE / c
  have hid := hasDerivAt_id' (0 : ℝ)
  have hx : HasDerivAt (fun t => β t * k * t) (β 0 * k) 0 := by
    refine ((hb.mul_const k).fun_mul hid).congr_deriv ?_
    simp
  have hnum : HasDerivAt (fun t => 1 + β t * k * t) (β 0 * k) 0 := hx.const_add 1
  have hden : HasDerivAt (fun t => 1 + β t * k * t + (β t * k) ^ 2 * t ^ 2) (β 0 * k) 0 := by
    have h2 : HasDerivAt (fun t => (β t * k * t) ^ 2) 0 0 := by
      refine (hx.fun_pow 2).congr_deriv ?_
      simp
    refine ((hnum.fun_add h2).congr_deriv (add_zero _)).congr_of_eventuallyEq (.of_forall fun t => ?_)
    simp only
    ring
  have hq : HasDerivAt (fun t => (1 + β t * k * t) / (1 + β t * k * t + (β t * k) ^ 2 * t ^ 2)) 0 0 := by
    refine (hnum.fun_div hden (by simp)).congr_deriv ?_
    simp
  have hin : HasDerivAt (fun t => 1 + β t / gammaPBE * t * ((1 + β t * k * t) / (1 + β t * k * t + (β t * k) ^ 2 * t ^ 2))) (β 0 / gammaPBE) 0 := by
    refine ((((hb.div_const gammaPBE).fun_mul hid).fun_mul hq).const_add 1).congr_deriv ?_
    simp
  have hlog := (hin.log (by simp)).const_mul (gammaPBE * phi 0 ^ 3)
  have : HasDerivAt (fun t2 => pbeH (β t2) ε 0 t2) (gammaPBE * phi 0 ^ 3 * (β 0 / gammaPBE / 1)) 0 := by
    refine (hlog.congr_deriv (by simp)).congr_of_eventuallyEq (.of_forall fun t => ?_)
    simp only [pbeH, hA]
  refine this.congr_deriv ?_
  rw [phi_zero]
  field_simp

/-- Correlation of PBE form on any energy `ε` of the uniform gas. -/
theorem correlation (hn : 0 < n) (ε : ℝ) {β : ℝ → ℝ} (hβ : DifferentiableAt ℝ β 0) :
    HasDerivAt (fun g2 => n * (ε + pbeH (β (tSq n 0 g2)) ε 0 (tSq n 0 g2))) (correlationTerm (β 0) n) 0 := by
  have hs : HasDerivAt (fun g2 => tSq n 0 g2) (1 / (2 * phi 0 * ks n * n) ^ 2) 0 := (hasDerivAt_id' (0 : ℝ)).div_const _
  have h0 : tSq n 0 0 = 0 := by simp [tSq]
  have hH := pbeH_deriv ε hβ
  have h1 : HasDerivAt (fun g2 => pbeH (β (tSq n 0 g2)) ε 0 (tSq n 0 g2)) (β 0 * (1 / (2 * phi 0 * ks n * n) ^ 2)) 0 := by
    have hH' : HasDerivAt (fun t2 => pbeH (β t2) ε 0 t2) (β 0) (tSq n 0 0) := by rw [h0]; exact hH
    exact hH'.comp (0 : ℝ) hs
  refine ((h1.const_add ε).const_mul n).congr_deriv ?_
  have hk := kF_pos hn
  have hp := Real.pi_pos
  have hks : ks n ^ 2 = 4 * kF n / Real.pi := by rw [ks, Real.sq_sqrt (by positivity)]
  rw [phi_zero, show (2 * 1 * ks n * n) ^ 2 = 4 * ks n ^ 2 * n ^ 2 by ring, hks, correlationTerm]
  field_simp
  norm_num

/-! ### Enhancement factors -/

theorem fPBE_deriv {κ : ℝ} (hκ : κ ≠ 0) {μ : ℝ → ℝ} (hμ : DifferentiableAt ℝ μ 0) : HasDerivAt (fun s2 => fPBE κ (μ s2) s2) (μ 0) 0 := by
  obtain ⟨b', hb⟩ : ∃ b', HasDerivAt μ b' 0 := ⟨_, hμ.hasDerivAt⟩
  have hid := hasDerivAt_id' (0 : ℝ)
  have h1 : HasDerivAt (fun s => 1 + μ s * s / κ) (μ 0 / κ) 0 := by
    refine (((hb.fun_mul hid).div_const κ).const_add 1).congr_deriv ?_
    simp
  refine (((hasDerivAt_const (0 : ℝ) κ).fun_div h1 (by simp)).const_sub (1 + κ)).congr_deriv ?_
  simp
  field_simp

theorem rpbe_deriv : HasDerivAt (fun s2 : ℝ => 1 + 0.804 * (1 - Real.exp (-0.2195149727645171 * s2 / 0.804))) 0.2195149727645171 0 := by
  have h1 : HasDerivAt (fun s : ℝ => -0.2195149727645171 * s / 0.804) (-0.2195149727645171 / 0.804) 0 := by
    refine (((hasDerivAt_id' (0 : ℝ)).const_mul _).div_const _).congr_deriv ?_
    norm_num
  refine (((h1.exp.const_sub 1).const_mul 0.804).const_add 1).congr_deriv ?_
  norm_num

theorem pw86_deriv : HasDerivAt (fun s2 : ℝ => (1 + 1.296 * s2 + 14 * s2 ^ 2 + 0.2 * s2 ^ 3) ^ (1 / 15 : ℝ)) (1.296 / 15) 0 := by
  have hid := hasDerivAt_id' (0 : ℝ)
  have h1 : HasDerivAt (fun s : ℝ => 1 + 1.296 * s + 14 * s ^ 2 + 0.2 * s ^ 3) 1.296 0 := by
    refine ((((hid.const_mul 1.296).const_add 1).fun_add ((hid.fun_pow 2).const_mul 14)).fun_add ((hid.fun_pow 3).const_mul 0.2)).congr_deriv ?_
    norm_num
  refine (h1.rpow_const (p := 1 / 15) (.inl (by norm_num))).congr_deriv ?_
  norm_num

/-! ### The published energies of a closed shell -/

theorem exGGA_closed {g : Gas} {g2 : ℝ} (h : ClosedShell g n g2) (F : ℝ → ℝ) : exGGA g F = exUnif n * F (sSq n g2) := by
  rw [exGGA, spinScaled, h.a, h.b, h.gaa, h.gbb, show 2 * (n / 2) = n by ring, show 4 * (g2 / 4) = g2 by ring]
  ring

theorem closed_n {g : Gas} {g2 : ℝ} (h : ClosedShell g n g2) : g.n = n := by rw [Gas.n, h.a, h.b]; ring

theorem closed_zeta {g : Gas} {g2 : ℝ} (h : ClosedShell g n g2) : g.zeta = 0 := by rw [Gas.zeta, h.a, h.b]; simp

theorem closed_gnn {g : Gas} {g2 : ℝ} (h : ClosedShell g n g2) : g.gnn = g2 := by rw [Gas.gnn, h.gaa, h.gab, h.gbb]; ring

/-- The energy per electron of VWN5 without polarisation. -/
noncomputable def vwnEps (k n : ℝ) : ℝ := vwn5Eps ⟨n / 2, n / 2, 0, 0, 0, 0, 0⟩ k

theorem vwn_closed {g : Gas} {g2 k : ℝ} (h : ClosedShell g n g2) : vwn5Eps g k = vwnEps k n := by
  have h' : ClosedShell ⟨n / 2, n / 2, 0, 0, 0, 0, 0⟩ n 0 := ⟨rfl, rfl, by simp, by simp, by simp⟩
  rw [vwnEps, vwn5Eps, vwn5Eps, closed_n h, closed_n h', closed_zeta h, closed_zeta h']

theorem published_deriv (hn : 0 < n) {q : ℝ → Gas} (hq : ∀ g2, ClosedShell (q g2) n g2) (p : Par) {id : ℕ} {c : ℝ} (hc : gradientTerm n id = some c) :
    HasDerivAt (fun g2 => Props.publishedEnergy p (q g2) id) c 0 := by
  have gga : ∀ F : ℝ → ℝ, ∀ μ, HasDerivAt F μ 0 → HasDerivAt (fun g2 => exGGA (q g2) F) (exchangeTerm μ n) 0 := fun F μ hF => by
    simp only [exGGA_closed (hq _)]
    exact exchange hn hF
  have pbe : ∀ κ μ : ℝ, κ ≠ 0 → HasDerivAt (fPBE κ μ) μ 0 := fun κ μ hκ => fPBE_deriv (μ := fun _ => μ) hκ (differentiableAt_const _)
  have corr : ∀ β : ℝ, HasDerivAt (fun g2 => (q g2).n * pbeEps β (q g2).n (q g2).zeta (q g2).gnn) (correlationTerm β n) 0 := fun β => by
    simp only [closed_n (hq _), closed_zeta (hq _), closed_gnn (hq _), pbeEps]
    exact correlation hn _ (β := fun _ => β) (differentiableAt_const _)
  have zv : ∀ β α : ℝ, HasDerivAt (fun g2 => zvPbeC (q g2) β α) (correlationTerm β n) 0 := fun β α => by
    simp only [zvPbeC, closed_n (hq _), closed_zeta (hq _), closed_gnn (hq _)]
    refine (correlation hn (pw92Eps n 0) (β := fun _ => β) (differentiableAt_const _)).congr_of_eventuallyEq (.of_forall fun g2 => ?_)
    norm_num
  have vw : ∀ k, HasDerivAt (fun g2 => vwnPbeC (q g2) k) (correlationTerm 0.06672455060314922 n) 0 := fun k => by
    simp only [vwnPbeC, vwn_closed (hq _), closed_n (hq _), closed_zeta (hq _), closed_gnn (hq _)]
    exact correlation hn _ (β := fun _ => 0.06672455060314922) (differentiableAt_const _)
  match id, hc with
  | 0, hc =>
    cases hc
    show HasDerivAt (fun g2 => slaterX (q g2)) 0 0
    have : ∀ g2, slaterX (q g2) = exUnif n := fun g2 => by
      have h := hq g2
      rw [slaterX, spinScaled, h.a, h.b, show 2 * (n / 2) = n by ring]; ring
    simp only [this]
    exact hasDerivAt_const _ _
  | 1, hc => cases hc; exact gga _ _ pw86_deriv
  | 3, hc =>
    cases hc
    show HasDerivAt (fun g2 => vwn5C (q g2) _) 0 0
    simp only [vwn5C, vwn_closed (hq _), closed_n (hq _)]
    exact hasDerivAt_const _ _
  | 4, hc => cases hc; exact corr _
  | 5, hc => cases hc; exact gga _ _ (pbe _ _ (by norm_num))
  | 19, hc => cases hc; exact gga _ _ (pbe _ _ (by norm_num))
  | 20, hc => cases hc; exact gga _ _ rpbe_deriv
  | 22, hc => cases hc; exact vw _
  | 28, hc =>
    cases hc
    show HasDerivAt (fun g2 => pw92C (q g2)) 0 0
    simp only [pw92C, closed_n (hq _), closed_zeta (hq _)]
    exact hasDerivAt_const _ _
  | 67, hc => cases hc; exact corr _
  | 68, hc => cases hc; exact gga _ _ (pbe _ _ (by norm_num))
  | 69, hc => cases hc; exact zv _ _
  | 71, hc => cases hc; exact corr _
  | 72, hc =>
    cases hc
    refine gga _ _ ((fPBE_deriv (κ := 0.804) (μ := fun s2 => 0.123456790123 + (0.21951 - 0.123456790123) * (0.197 * s2 / (1 + 0.197 * s2))) (by norm_num)
      ?_).congr_deriv (by norm_num))
    have : (1 : ℝ) + 0.197 * 0 ≠ 0 := by norm_num
    fun_prop (disch := exact this)
  | 73, hc =>
    cases hc
    show HasDerivAt (fun g2 => (q g2).n * pbelocEps (q g2).n (q g2).zeta (q g2).gnn) _ 0
    simp only [closed_n (hq _), closed_zeta (hq _), closed_gnn (hq _), pbelocEps, pbeEps]
    refine (correlation hn _ (β := fun t => 0.0375 + 0.08 * t * (1 - Real.exp (-rs n ^ 2))) (by fun_prop)).congr_deriv ?_
    norm_num
  | 74, hc => cases hc; exact gga _ _ (pbe _ _ (by norm_num))
  | 76, hc => cases hc; exact zv _ _

end XCFun.GE
