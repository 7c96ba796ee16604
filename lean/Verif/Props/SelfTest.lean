/-
C55: the self test of the library.
-/
import Verif.Proofs.SelfTest
import Verif.Proofs.EvalReal
import Verif.Props.Process

namespace XCFun.Props
open XCFun Spec

section
variable {V : Type} [Zero V] [One V] [Add V] [Sub V] [Mul V] [XCFun.Lit V]

/-- **C55.** Whatever calls came before, `xcfun_test` returns normally: it neither aborts nor is undefined, for every content of uninitialised
memory, and the objects of the caller are unchanged.  Every functional with reference data accepts the variables and the order of its own test.  The result
is the number of those functionals for which some value that a user gets at the reference point is far from the reference value, where missing
reference values are zero.  This holds for every arithmetic, every comparison `far`, and every kernel that reads only what it declares. -/
theorem C55_result (K : Kernel V) (hK : K.Local) (hr : K.reads = DV.reads) (far : V → V → V → Bool) :
    ∃ res : ℕ → List V, (∀ t ∈ tested, UserValues K t.name t.vars t.order (refPoint t.id) (res t.id)) ∧
      ∀ (ops : List (Op V)) (rs : List (Ret V)) (w : Proc V), opRun K Proc.start ops = .ok (rs, w) →
      ∀ (junk : ℕ → Junk V) (buf : ℕ → ℕ → V) (addr : ℕ → ℕ), (∀ f, w.heap (addr f) = none) →
        ∃ w', xcfunTest K far junk buf (fun f => some (addr f)) w = .ok ((open Classical in
          (tested.filter fun t => Deviates far (refThreshold t.id) (res t.id) (refValues t.id)).length), w') ∧ w'.heap = w.heap := by
  obtain ⟨res, h1, h2⟩ := xcfunTest_ok K hK hr far
  refine ⟨res, h1, fun ops rs w h junk buf addr ha => ?_⟩
  have hc : w.tabs.Consistent := by
    obtain ⟨t, ht, hr⟩ := (independent_core K ops Proc.start (Or.inl rfl) rs w.heap).2
      ((C23_objects_independent K ops rs w.heap).1 ⟨w.tabs, h⟩)
    rw [h] at hr
    cases w
    simp only [Outcome.ok.injEq, Prod.mk.injEq, Proc.mk.injEq] at hr
    rw [hr.2.1]; exact ht
  exact ⟨_, h2 junk buf addr w hc ha, rfl⟩

/-- **C55, coverage.** The result depends only on the code of the functionals in `tested`: replacing the code of all others (45 of the 78) by
anything else goes unnoticed. -/
theorem C55_coverage (K K' : Kernel V) (hK : K.Local) (hK' : K'.Local) (hr : K.reads = DV.reads) (hr' : K'.reads = DV.reads)
    (h : ∀ v st N x, ∀ t ∈ tested, K.fp v st t.id N x = K'.fp v st t.id N x) (far : V → V → V → Bool) (junk : ℕ → Junk V)
    (buf : ℕ → ℕ → V) (addr : ℕ → ℕ) :
    xcfunTest K far junk buf (fun f => some (addr f)) Proc.start = xcfunTest K' far junk buf (fun f => some (addr f)) Proc.start := by
  obtain ⟨res, h1, h2⟩ := xcfunTest_ok K hK hr far
  obtain ⟨res', h1', h2'⟩ := xcfunTest_ok K' hK' hr' far
  rw [h2 junk buf addr Proc.start (Or.inl rfl) fun _ => rfl, h2' junk buf addr Proc.start (Or.inl rfl) fun _ => rfl]
  congr 3
  refine List.filter_congr fun t ht => ?_
  have : res t.id = res' t.id := by
    refine user_values_unique (h1 t ht) ?_
    obtain ⟨s₀, s, b1, b2, b3, b4⟩ := h1' t ht
    refine ⟨s₀, s, b1, b2, b3, fun rest output jk hl => ?_⟩
    obtain ⟨c1, c2, c3, c4, -⟩ := tested_state ht b1 b2
    rw [← b4 rest output jk hl]
    refine xcfunEval_kernel (by rw [hr, hr']) (fun v st id N x hid => ?_) c2 (by rw [c3]; omega) c4 jk _ _
    rw [c1, List.mem_singleton] at hid
    rw [hid]; exact h v st N x t ht
  rw [this]

/-- **C55, coverage.** The functionals without reference data: a fault in one of them cannot be seen by the self test.  For `PBEX` and `M06X`
there are data, but they are excluded by the preprocessor; for `PW86X` and `TW` the initialiser ends before them. -/
theorem C55_untested : (funs.map FunData.name).filter (fun n => n ∉ tested.map Tested.name) = [
    "PW86X", "VWN3C", "PBEX", "BECKESRX", "BECKECAMX", "BRX", "BRC", "BRXC", "LDAERFC_JT", "OPTX", "OPTXCORR",
    "REVPBEX", "RPBEX", "SPBEC", "VWN_PBEC", "TW", "PW91K", "M06X", "M05X2C", "M05C", "M06HFC", "M06LC",
    "M06X2C", "REVTPSSC", "REVTPSSX", "P86CORRC", "BTK", "VWK", "B97X", "B97C", "B97_1X", "B97_1C", "B97_2X",
    "B97_2C", "CSC", "APBEC", "APBEX", "ZVPBESOLC", "BLOCX", "PBEINTC", "PBEINTX", "PBELOCC", "PBESOLX",
    "TPSSLOCC", "ZVPBEINTC"] := by decide +kernel

omit [Zero V] [One V] [Add V] [Sub V] [Mul V] in
/-- **C55, coverage.** Every value that is compared has an explicit reference value, and every reference value is compared, except for `TFK`: its
test asks for first derivatives only, so the three reference values of the second derivatives are never looked at. -/
theorem C55_reference_lengths : ∀ t ∈ tested, ∃ n : ℕ, taylorlen t.vars.len t.order = .ok (n : ℤ) ∧ (refPoint (V := V) t.id).length = t.vars.len ∧
    (refValues (V := V) t.id).length = n + if t.name = "TFK" then 3 else 0 := by
  have h : ∀ t ∈ tested, ∃ n ∈ List.range 37, taylorlen t.vars.len t.order = .ok (n : ℤ) ∧
      ((testTable[t.id]?.map TestData.input).getD []).length = t.vars.len ∧
      ((testTable[t.id]?.map TestData.output).getD []).length = n + if t.name = "TFK" then 3 else 0 := by decide +kernel
  intro t ht
  obtain ⟨n, -, h1, h2, h3⟩ := h t ht
  refine ⟨n, h1, by rw [refPoint, List.length_map, h2], ?_⟩
  rw [← h3, refValues]
  cases testTable[t.id]? <;> simp

end

/-- **C55, real numbers.** The self test returns 0 exactly if all values that a user gets at the reference points differ from the reference values by
at most the given fraction of these. -/
theorem C55_zero_iff (ops : List (Op ℝ)) (rs : List (Ret ℝ)) (w : Proc ℝ) (h : opRun codeKernel Proc.start ops = .ok (rs, w))
    (junk : ℕ → Junk ℝ) (buf : ℕ → ℕ → ℝ) (addr : ℕ → ℕ) (ha : ∀ f, w.heap (addr f) = none) :
    (∃ w', xcfunTest codeKernel farReal junk buf (fun f => some (addr f)) w = .ok (0, w')) ↔
      ∀ t ∈ tested, ∀ res, UserValues codeKernel t.name t.vars t.order (refPoint t.id) res →
        ∀ i o, res[i]? = some o → |o - (refValues t.id).getD i 0| ≤ |(refValues t.id).getD i 0 * refThreshold t.id| := by
  classical
  obtain ⟨res, h1, h2⟩ := C55_result codeKernel codeKernel_local rfl farReal
  obtain ⟨w', e, -⟩ := h2 ops rs w h junk buf addr ha
  have hl : (lit 0 0 : ℝ) = 0 := by simp [lit, XCFun.Lit.lit]
  have key : (∃ w', xcfunTest codeKernel farReal junk buf (fun f => some (addr f)) w = .ok (0, w')) ↔
      ∀ t ∈ tested, ¬ Deviates farReal (refThreshold t.id) (res t.id) (refValues t.id) := by
    rw [e]
    constructor
    · rintro ⟨u, hu⟩ t ht hd
      have h0 := (Prod.mk.inj (Outcome.ok.inj hu)).1
      rw [List.length_eq_zero_iff, List.filter_eq_nil_iff] at h0
      exact h0 t ht (by simpa using hd)
    · intro hn
      refine ⟨w', ?_⟩
      congr 2
      rw [List.length_eq_zero_iff, List.filter_eq_nil_iff]
      intro t ht
      simpa using hn t ht
  rw [key]
  refine forall₂_congr fun t ht => ?_
  constructor
  · intro hd r hr i o ho
    rw [user_values_unique hr (h1 t ht)] at ho
    by_contra hc
    refine hd ⟨i, o, ho, ?_⟩
    rw [farReal, decide_eq_true_eq, hl]
    exact lt_of_not_ge hc
  · rintro ha ⟨i, o, ho, hf⟩
    rw [farReal, decide_eq_true_eq, hl] at hf
    exact absurd (ha _ (h1 t ht) i o ho) (not_le.2 hf)

/-! ## Cases -/

/-- The test as the first call of a program, every object at address 0. -/
example : (∃ w', xcfunTest codeKernel farReal (fun _ => none) (fun _ _ => 0) (fun _ => some 0) Proc.start = .ok (0, w')) ↔
    ∀ t ∈ tested, ∀ res, UserValues codeKernel t.name t.vars t.order (refPoint t.id) res →
      ∀ i o, res[i]? = some o → |o - (refValues t.id).getD i 0| ≤ |(refValues t.id).getD i 0 * refThreshold t.id| :=
  C55_zero_iff [] [] Proc.start rfl _ _ (fun _ => 0) fun _ => rfl

/-- The test while the program has an object of its own at address 7: the object survives. -/
example (far : ℝ → ℝ → ℝ → Bool) : ∃ w n w', opRun codeKernel Proc.start [.new (some 7)] = .ok ([.ptr (some 7)], w) ∧
    xcfunTest codeKernel far (fun _ => none) (fun _ _ => 0) (fun _ => some 0) w = .ok (n, w') ∧ w'.heap = w.heap ∧ (w.heap 7).isSome := by
  obtain ⟨res, -, h2⟩ := C55_result codeKernel codeKernel_local rfl far
  obtain ⟨w, hw⟩ : ∃ w, opRun codeKernel Proc.start [.new (some 7)] = .ok ([.ptr (some 7)], w) := ⟨_, rfl⟩
  have h0 : w.heap 0 = none ∧ (w.heap 7).isSome := by cases hw; exact ⟨rfl, rfl⟩
  obtain ⟨w', h3, h4⟩ := h2 _ _ w hw (fun _ => none) (fun _ _ => 0) (fun _ => 0) fun _ => h0.1
  exact ⟨w, _, w', hw, h3, h4, h0.2⟩

/-- Slater exchange at its reference point: the user gets six values. -/
example : ∃ res : List ℝ, UserValues codeKernel "SLATERX" .A_B 2 [39, 38] res ∧ res.length = 6 := by
  obtain ⟨res, h1, -⟩ := C55_result codeKernel codeKernel_local rfl farReal
  have h := h1 ⟨0, "SLATERX", .A_B, 2⟩ (by decide)
  have hp : (refPoint 0 : List ℝ) = [39, 38] := by
    have : ((testTable[0]?.map TestData.input).getD []) = [(39, 0), (38, 0)] := by decide
    rw [refPoint, this]
    norm_num [lit, XCFun.Lit.lit]
  rw [← hp]
  refine ⟨_, h, ?_⟩
  obtain ⟨s₀, s, a1, a2, a3, a4⟩ := h
  obtain ⟨-, c2, c3, c4, -⟩ := tested_state (t := ⟨0, "SLATERX", .A_B, 2⟩) (by decide) a1 a2
  have e : outputLength s = taylorlen 2 2 := by
    have x1 : ¬ (PARTIAL_DERIVATIVES = MODE_UNSET) := by decide
    have x2 : ¬ (((2 : ℕ) : ℤ) = -1) := by omega
    simp only [outputLength, c2, c3, c4, x1, x2, if_false, if_true]
    rfl
  rw [e, show taylorlen 2 2 = .ok 6 by decide] at a3
  have : (6 : ℤ) = ((res 0).length : ℤ) := Outcome.ok.inj a3
  show (res 0).length = 6
  omega

/-- A kernel in which the untested functional `VWN3C` (id 2) is zero passes or fails exactly as the code does. -/
example (junk : ℕ → Junk ℝ) (buf : ℕ → ℕ → ℝ) :
    xcfunTest codeKernel farReal junk buf (fun _ => some 0) Proc.start =
      xcfunTest { codeKernel with fp := fun v st id N x => if id = 2 then 0 else codeKernel.fp v st id N x } farReal junk buf (fun _ => some 0) Proc.start := by
  refine C55_coverage _ _ codeKernel_local ?_ rfl rfl ?_ farReal junk buf fun _ => 0
  · refine ⟨codeKernel_local.lt, fun v sl hv st id N ρ ρ' h => ?_⟩
    simp only
    split
    · rfl
    · exact codeKernel_local.congr v sl hv st id N ρ ρ' h
  · intro v st N x t ht
    have : t.id ≠ 2 := by revert t; decide
    simp [this]

end XCFun.Props
