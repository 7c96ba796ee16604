/-
C62: the self test of the library passes.
-/
import Verif.Proofs.SelfTestChecks

namespace XCFun.Props
open XCFun Spec Num

/-- **C62, values.** In exact arithmetic, every value that a user gets for a functional with reference data at its reference point, the energy as well as all
first and second derivatives asked for, differs from the reference value by at most the given fraction of it. -/
theorem C62_reference_values {t : Tested} (ht : t ∈ tested) {res : List ℝ} (h : UserValues codeKernel t.name t.vars t.order (refPoint t.id) res) {i : ℕ} {o : ℝ}
    (ho : res[i]? = some o) : |o - (refValues t.id).getD i 0| ≤ |(refValues t.id).getD i 0 * refThreshold t.id| := by
  obtain ⟨hv, c, hc, hk⟩ := all_checked t ht
  exact user_close ht hv hc hk h ho

/-- **C62.** In exact arithmetic `xcfun_test` returns 0, whatever the program has done before and wherever the objects are placed. -/
theorem C62_self_test_passes (ops : List (Op ℝ)) (rs : List (Ret ℝ)) (w : Proc ℝ) (h : opRun codeKernel Proc.start ops = .ok (rs, w))
    (junk : ℕ → Junk ℝ) (buf : ℕ → ℕ → ℝ) (addr : ℕ → ℕ) (ha : ∀ f, w.heap (addr f) = none) :
    ∃ w', xcfunTest codeKernel farReal junk buf (fun f => some (addr f)) w = .ok (0, w') :=
  (C55_zero_iff ops rs w h junk buf addr ha).2 fun _ ht _ hr _ _ ho => C62_reference_values ht hr ho

/-! ## Cases -/

/-- The test as the first call of a program. -/
example : ∃ w', xcfunTest codeKernel farReal (fun _ => none) (fun _ _ => 0) (fun _ => some 0) Proc.start = .ok (0, w') :=
  C62_self_test_passes [] [] Proc.start rfl _ _ (fun _ => 0) fun _ => rfl

/-- The user gets values for every functional with data (here PBEC, 21 of them). -/
example : ∃ res : List ℝ, UserValues codeKernel "PBEC" .A_B_GAA_GAB_GBB 2 (refPoint 4) res ∧
    ∀ i o, res[i]? = some o → |o - (refValues 4).getD i 0| ≤ |(refValues 4).getD i 0 * refThreshold 4| := by
  obtain ⟨res, h, -⟩ := C55_result codeKernel codeKernel_local rfl farReal
  have ht : (⟨4, "PBEC", .A_B_GAA_GAB_GBB, 2⟩ : Tested) ∈ tested := by simp [tested]
  exact ⟨_, h _ ht, fun i o ho => C62_reference_values ht (h _ ht) ho⟩

/-- The energy of SLATERX at (39, 38). -/
example {res : List ℝ} (h : UserValues codeKernel "SLATERX" .A_B 2 (refPoint 0) res) {o : ℝ} (ho : res[0]? = some o) : |o + 241.948147838| ≤ 3e-9 := by
  have := C62_reference_values (t := ⟨0, "SLATERX", .A_B, 2⟩) (by simp [tested]) h ho
  have e : (refValues 0 : List ℝ).getD 0 0 = -241.948147838 := by norm_num [refValues, testTable, lit, XCFun.Lit.lit]
  have e' : (refThreshold 0 : ℝ) = 1e-11 := by norm_num [refThreshold, testTable, lit, XCFun.Lit.lit]
  dsimp only at this
  rw [e, e', sub_neg_eq_add] at this
  exact this.trans (by norm_num [abs_of_nonneg, abs_of_neg])

/-- The mixed second derivative of SLATERX at (39, 38) has to vanish exactly: its reference value is 0. -/
example {res : List ℝ} (h : UserValues codeKernel "SLATERX" .A_B 2 (refPoint 0) res) {o : ℝ} (ho : res[4]? = some o) : o = 0 := by
  have := C62_reference_values (t := ⟨0, "SLATERX", .A_B, 2⟩) (by simp [tested]) h ho
  have e : (refValues 0 : List ℝ).getD 4 0 = 0 := by simp [refValues, testTable, lit, XCFun.Lit.lit]
  rw [e] at this
  simpa using this

end XCFun.Props
