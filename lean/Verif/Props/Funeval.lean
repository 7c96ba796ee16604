/-
C66: the labels printed by funeval are the derivatives.
-/
import Verif.Proofs.Exponents
import Verif.Props.Output

namespace XCFun.Props
open XCFun Spec

/-- **C66, all degrees.** For any number of variables: when the values are those of a function of the derivatives, listed by degree and within a degree in
lexicographic order of the non-decreasing index lists, `next_exponents` puts beside each value the exponents of its derivative. -/
theorem C66_labels {V : Type} (n k : ℕ) (f : List ℕ → V) (m : ℕ → ℕ) :
    printTable (n + 1) (((List.range (k + 1)).flatMap (multisets (List.range (n + 1)))).map f) m =
      .ok (((List.range (k + 1)).flatMap (multisets (List.range (n + 1)))).map fun t => (exponents (n + 1) t, f t)) := by
  have h := printLines_degrees (V := V) (n := n) (k + 1) 0 _ ((cleared (n + 1) m).trans List.replicate_succ) (fun d => (multisets (List.range (n + 1)) d).map f)
    (fun i => by rw [← words_exponents, List.length_map, List.length_map])
  rw [← List.range_eq_range'] at h
  rw [printTable, List.map_flatMap, h, List.map_flatMap]
  congr 2; funext d
  rw [← words_exponents, List.zip_map']

/-- **C66, without variables.** For no variables `next_exponents` reads before the start of the array as soon as something has been printed. -/
theorem C66_no_variables {V : Type} (x : V) (out : List V) (m : ℕ → ℕ) : printTable 0 (x :: out) m = .ub := rfl

theorem layout_words {V : Type} (n k : ℕ) (hk : k ≤ 3) (f : List ℕ → V) :
    layout n k (f []) (fun i => f [i]) (fun i j => f [i, j]) (fun i j l => f [i, j, l]) = ((List.range (k + 1)).flatMap (multisets (List.range n))).map f := by
  have h0 : ∀ al, multisets al 0 = [[]] := fun al => by simp [multisets]
  have e : k = 0 ∨ k = 1 ∨ k = 2 ∨ k = 3 := by omega
  rcases e with rfl | rfl | rfl | rfl <;>
    simp [layout, List.range_succ, h0] <;> simp [words_one, pairs_words, triples_words, Function.comp_def]

/-- **C66, for the output of `xcfun_eval`.** Partial-derivative mode, any functional, any variables with `k ≤ 3`: beside every derivative in the output the program prints
how often it is taken with respect to each input. -/
theorem C66_table (s : State ℝ) (v : Vars) (hv : s.vars = some v) (hm : s.mode = PARTIAL_DERIVATIVES) (k : ℕ) (ho : s.order = k) (hk : k ≤ 3)
    (hsup : DV.reads v ≠ none) (x : ℕ → ℝ) (output : List ℝ) (junk : Junk ℝ) (hlen : outputLength s = .ok (output.length : ℤ)) (m : ℕ → ℕ) :
    ∃ out, xcfunEval codeKernel junk s ((List.range v.len).map x) output = .ok out ∧
      printTable v.len out m = .ok (layout v.len k (exponents v.len [], energyAt s v x)
        (fun i => (exponents v.len [i], (energyOn s v (seed1 x (some i))).get 1))
        (fun i j => (exponents v.len [i, j], (energyOn s v (seed2 x (some i) (some j))).get 3))
        (fun i j l => (exponents v.len [i, j, l], (energyOn s v (seed3 x (some i) (some j) (some l))).get 7))) := by
  have h := C15_order_of_derivatives s v hv hm k ho hk hsup x [] output junk output.length hlen le_rfl
  rw [List.append_nil, List.drop_length, List.append_nil] at h
  refine ⟨_, h, ?_⟩
  have hn : ∃ n, v.len = n + 1 := by cases v <;> exact ⟨_, rfl⟩
  obtain ⟨n, hn⟩ := hn
  let f : List ℕ → ℝ := fun
    | [] => energyAt s v x
    | [i] => (energyOn s v (seed1 x (some i))).get 1
    | [i, j] => (energyOn s v (seed2 x (some i) (some j))).get 3
    | i :: j :: l :: _ => (energyOn s v (seed3 x (some i) (some j) (some l))).get 7
  have h1 := layout_words v.len k hk f
  have h2 := layout_words v.len k hk fun t => (exponents v.len t, f t)
  simp only [f] at h1 h2
  rw [h1, h2, hn]
  exact C66_labels n k f m

/-! ## Cases -/

/-- Two variables up to second order: energy, two first and three second derivatives. -/
example (m : ℕ → ℕ) : printTable 2 ["e", "a", "b", "aa", "ab", "bb"] m =
    .ok [([0, 0], "e"), ([1, 0], "a"), ([0, 1], "b"), ([2, 0], "aa"), ([1, 1], "ab"), ([0, 2], "bb")] := by
  simpa [List.range_succ, multisets, exponents] using C66_labels 1 2 (fun t => String.ofList (match t with | [] => ['e'] | t => t.map fun i => if i = 0 then 'a' else 'b')) m

/-- In three variables the recursion of `next_exponents` is used: from `xz` to `yy`. -/
example : nextExponents 3 (fun i => [1, 0, 1].getD i 0) = .ok (moved (fun i => [1, 0, 1].getD i 0) 1 0) ∧
    (List.range 3).map (moved (fun i => [1, 0, 1].getD i 0) 1 0) = [0, 2, 0] :=
  ⟨next_moved ⟨by omega, by simp, fun i h1 h2 => by have : i = 1 := by omega
                                                    subst this; rfl⟩, by decide⟩

/-- Exponents of the mixed third derivative by the first, first and third of four inputs. -/
example : exponents 4 [0, 0, 2] = [2, 0, 1, 0] := by decide

/-- Lists of degrees 2 and 3 in two variables. -/
example : (multisets [0, 1] 2, multisets [0, 1] 3) = ([[0, 0], [0, 1], [1, 1]], [[0, 0, 0], [0, 0, 1], [0, 1, 1], [1, 1, 1]]) := by simp [multisets]

end XCFun.Props
