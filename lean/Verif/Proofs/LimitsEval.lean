/-
The densities passed to the functionals are positive whatever the inputs.
-/
import Verif.Proofs.Limits
import Verif.Proofs.ScalingEval

namespace XCFun
open Spec

theorem CT.regularize_c0_pos {N : ℕ} (t : CT ℝ N) : 0 < t.regularize.c0 := by
  rw [CT.c0_eq_get, CT.get_regularize _ (by positivity), if_pos rfl]
  exact lt_of_lt_of_le (by norm_num [threshold]) (le_max_right _ _)

/-- For every variable set describing both spins and any inputs whatever, the densities passed on are positive. -/
theorem memberR_physical (par : ℕ → ℝ) {v : Vars} (hv : ¬ Unsupported v) (hA : v ≠ .A ∧ v ≠ .A_GAA) (x : ℕ → ℝ) :
    Physical (memberR par v x) := by
  obtain ⟨-, -, -, a4, b4, -⟩ := memberR_derived par hv x
  have key : 0 < memberR par v x .a ∧ 0 < memberR par v x .b ∧ 0 < memberR par v x .n := by
    cases v <;> first
      | exact absurd (by decide) hv
      | exact absurd rfl hA.1
      | exact absurd rfl hA.2
      | (unfold memberR
         refine ⟨?_, ?_, ?_⟩ <;> unfold_members <;> first
          | exact CT.regularize_c0_pos _
          | (rw [CT.c0_add]; exact add_pos (CT.regularize_c0_pos _) (CT.regularize_c0_pos _))
          | (rw [CT.c0_mul, CT.c0_const]; exact mul_pos (by norm_num) (CT.regularize_c0_pos _)))
  exact ⟨key.1, key.2.1, key.2.2, a4, b4⟩

end XCFun
