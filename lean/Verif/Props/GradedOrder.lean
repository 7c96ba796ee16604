/-
**C84.** The order of the output: docs/using.rst says that it is the graded reverse lexicographic order. This is so when the last input counts as the greatest variable.
-/
import Verif.Proofs.GradedOrder
import Verif.Props.Funeval
import Verif.Props.Smooth

namespace XCFun.Props
open XCFun Spec

/-- **C84.** Partial-derivative mode, order `k ≤ 3`, any functional: there is a list of the derivatives (each given by the inputs with respect to which it is taken) such that
the output consists of these derivatives of the energy, in this order. The list contains every derivative up to order `k`, no derivative twice, and is increasing in the graded reverse lexicographic
order in which the last input is the greatest variable. -/
theorem C84_output (s : State ℝ) {v : Vars} (hv : ¬ Unsupported v) (hA : v ≠ .A ∧ v ≠ .A_GAA) (hvs : s.vars = some v) (hm : s.mode = PARTIAL_DERIVATIVES)
    (k : ℕ) (ho : s.order = k) (hk : k ≤ 3) :
    ∃ (L : List (List ℕ)) (F : (ℕ → ℝ) → ℝ),
      (L.Pairwise fun t u => GrevLt v.len (fromLast v.len t) (fromLast v.len u)) ∧
      (L.Pairwise fun t u => ∃ i < v.len, t.count i ≠ u.count i) ∧
      (∀ e : ℕ → ℕ, ∑ i ∈ Finset.range v.len, e i ≤ k → ∃ t ∈ L, ∀ i < v.len, t.count i = e i) ∧
      (∀ y rest o output junk, xcfunEval codeKernel junk { s with order := 0 } ((List.range v.len).map y ++ rest) (o :: output) = .ok (F y :: output)) ∧
      ∀ x, PhysicalInput v x → (∀ id ∈ s.active, SmoothAt (s.settings 78) (given (1 / 2) x v) id) →
        ∀ rest output junk (len : ℕ), outputLength s = .ok (len : ℤ) → len ≤ output.length →
          xcfunEval codeKernel junk s ((List.range v.len).map x ++ rest) output = .ok ((L.map fun t => pderivs t F x) ++ output.drop len) := by
  obtain ⟨F, h0, hF⟩ := C49_partial_derivatives s hv hA hvs hm
  refine ⟨Grev.upTo v.len k, F, Grev.pairwise_grev _ _, ?_, fun e he => Grev.complete he, h0, fun x hx hs rest output junk len hl hlen => ?_⟩
  · refine (Grev.pairwise_grev v.len k).imp fun {t u} h => ?_
    obtain ⟨i, hi, h⟩ := Grev.irrefl h
    exact ⟨v.len - 1 - i, by omega, h⟩
  · rw [hF x hx hs k ho hk rest output junk len hl hlen]
    congr 2
    exact layout_words v.len k hk fun t => pderivs t F x

/-- **C84, all orders.** The list that C66 and `polymul.hpp` (C68) use for any number of variables and any degree is complete and in this order. -/
theorem C84_positions (n k : ℕ) :
    ((List.range (k + 1)).flatMap (multisets (List.range n))).Pairwise (fun t u => GrevLt n (fromLast n t) (fromLast n u)) ∧
      ∀ e : ℕ → ℕ, ∑ i ∈ Finset.range n, e i ≤ k → ∃ t ∈ (List.range (k + 1)).flatMap (multisets (List.range n)), ∀ i < n, t.count i = e i :=
  ⟨Grev.pairwise_grev n k, fun _ he => Grev.complete he⟩

/-- **C84, the first input.** If instead the first input is the greatest variable, as on the page that the documentation links to, the order is a different one: with two or more inputs
the list is not increasing, since the derivative with respect to the first input comes before that with respect to the second. -/
theorem C84_first_greatest {n : ℕ} (hn : 2 ≤ n) {k : ℕ} (hk : 1 ≤ k) :
    ¬ ((List.range (k + 1)).flatMap (multisets (List.range n))).Pairwise fun t u => GrevLt n (fun i => t.count i) (fun i => u.count i) := by
  intro h
  rw [List.pairwise_flatMap] at h
  have h1 := h.1 1 (List.mem_range.2 (by omega))
  obtain ⟨m, rfl⟩ : ∃ m, n = m + 2 := ⟨n - 2, by omega⟩
  rw [words_one, List.pairwise_map, List.pairwise_iff_getElem] at h1
  have := h1 0 1 (by simp) (by simp) (by omega)
  simp only [List.getElem_range] at this
  rcases this with h | ⟨-, i, hi, h, h'⟩
  · rw [Grev.sum_count (by simp), Grev.sum_count (by simp)] at h
    simp at h
  · have hi0 : i = 0 := by
      by_contra hne
      beta_reduce at h
      have hz : List.count i [0] = 0 := List.count_eq_zero.2 (by simpa using hne)
      omega
    subst hi0
    have := h' 1 (by omega) (by omega)
    simp at this

/-- **C84, decreasing.** Nor are the derivatives of second order in decreasing order then, when there are three or more inputs: the derivative with respect to the first and third comes before the
second one with respect to the second input. -/
theorem C84_first_greatest_decreasing {n : ℕ} (hn : 3 ≤ n) :
    ¬ (multisets (List.range n) 2).Pairwise fun t u => GrevLt n (fun i => u.count i) (fun i => t.count i) := by
  intro h
  have hb := Grev.pairwise_before (List.pairwise_lt_range (n := n)) 2
  have m1 : [0, 2] ∈ multisets (List.range n) 2 :=
    Grev.mem_of_sorted (t := [0, 2]) List.pairwise_lt_range (by simp) (by simp; omega)
  have m2 : [1, 1] ∈ multisets (List.range n) 2 :=
    Grev.mem_of_sorted (t := [1, 1]) List.pairwise_lt_range (by simp) (by simp; omega)
  have hne : ¬ Grev.Before [1, 1] [0, 2] := by
    rintro ⟨i, hi, h1, h2⟩
    have : i = 1 := by simpa using hi
    subst this
    have := h2 0 (by omega)
    simp at this
  have hirr : ¬ GrevLt n (fun i => List.count i [1, 1]) (fun i => List.count i [0, 2]) := by
    rintro (h | ⟨-, i, hi, h, h'⟩)
    · rw [Grev.sum_count (by simp; omega), Grev.sum_count (by simp; omega)] at h
      simp at h
    · have hi1 : i = 1 := by
        by_contra hne
        beta_reduce at h
        have hz : List.count i [1, 1] = 0 := List.count_eq_zero.2 (by simpa using hne)
        omega
      subst hi1
      have := h' 2 (by omega) (by omega)
      simp at this
  rcases List.pairwise_iff_getElem.1 h, List.mem_iff_getElem.1 m1, List.mem_iff_getElem.1 m2 with ⟨h, ⟨i, hi, e1⟩, ⟨j, hj, e2⟩⟩
  rcases lt_trichotomy i j with hij | rfl | hij
  · exact hirr (by have := h i j hi hj hij; rwa [e1, e2] at this)
  · rw [e1] at e2; simp at e2
  · exact hne (by have := List.pairwise_iff_getElem.1 hb j i hj hi hij; rwa [e1, e2] at this)

/-! ## Cases -/

/-- The derivatives named in the documentation, for a spin-polarised functional of the gradients at second order: 21 entries, beginning `E, E_α, E_β, E_σαα, E_σαβ, E_σββ, E_αα, E_αβ, E_ασαα`,
with `E_ββ, E_βσαα` following the second derivatives with `α`, and ending with `E_σββσββ`. -/
example : (List.range 3).flatMap (multisets (List.range 5)) = [[], [0], [1], [2], [3], [4], [0, 0], [0, 1], [0, 2], [0, 3], [0, 4], [1, 1], [1, 2], [1, 3], [1, 4],
    [2, 2], [2, 3], [2, 4], [3, 3], [3, 4], [4, 4]] := by simp [multisets, List.range_succ]

/-- A functional and input of `C84_output`: PBE correlation at second order. -/
example : ∃ s₀ s : State ℝ, run State.init [.set "pbec" 1] = .ok s₀ ∧ evalSetup s₀ Vars.A_B_GAA_GAB_GBB.code PARTIAL_DERIVATIVES 2 = .ok (0, s) ∧
    ∃ out : List ℝ, xcfunEval codeKernel none s [1, 8, 4, -2, 1] (List.replicate 21 0) = .ok out ∧
      ∃ (L : List (List ℕ)) (F : (ℕ → ℝ) → ℝ), (L.Pairwise fun t u => GrevLt 5 (fromLast 5 t) (fromLast 5 u)) ∧
        out = L.map fun t => pderivs t F fun i => [1, 8, 4, -2, 1].getD i 0 := by
  obtain ⟨s₀, s, hr, hset⟩ : ∃ s₀ s : State ℝ, run State.init [.set "pbec" 1] = .ok s₀ ∧
    evalSetup s₀ Vars.A_B_GAA_GAB_GBB.code PARTIAL_DERIVATIVES 2 = .ok (0, s) := ⟨_, _, rfl, rfl⟩
  refine ⟨s₀, s, hr, hset, ?_⟩
  obtain ⟨e, -⟩ := setup_facts hr hset
  have hact : s.active = [4] := by rw [e]; cases hr; rfl
  have hl : outputLength s = .ok (21 : ℤ) := by rw [e]; rfl
  obtain ⟨L, F, h1, -, -, -, h2⟩ := C84_output s (v := .A_B_GAA_GAB_GBB) (by decide) (by decide) (by rw [e]) (by rw [e]) 2 (by rw [e]; rfl) (by omega)
  have := h2 (fun i => [1, 8, 4, -2, 1].getD i 0)
    (by
      refine ⟨?_, ?_, ?_, ?_⟩
      · intro y hy
        simp only [densities, densSlots, List.map_cons, List.map_nil, List.mem_cons, List.not_mem_nil, or_false] at hy
        rcases hy with rfl | rfl <;> norm_num [threshold]
      all_goals norm_num [given, spinFields])
    (by rw [hact]; intro id hid; simp only [List.mem_cons, List.not_mem_nil, or_false] at hid; subst hid; trivial)
    [] (List.replicate 21 0) none 21 hl (by simp)
  rw [List.drop_of_length_le (by simp), List.append_nil, List.append_nil] at this
  exact ⟨_, this, L, F, h1, rfl⟩

end XCFun.Props
