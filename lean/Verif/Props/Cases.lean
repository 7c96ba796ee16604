import Verif.Props.Expansions
import Verif.Props.Ctaylor
import Verif.Props.TaylorMath
import Verif.Props.PolymulIndex
import Verif.Props.PolymulCalculus
import Verif.Props.PolymulTrans

/-! # The theorems applied to concrete cases: the differentiation and polynomial libraries

The examples beside the theorems show that their hypotheses can be met; here theorems without an instance of their own
are applied to explicit arguments. -/

namespace XCFun.Props

open XCFun Spec Filter Topology
open scoped Nat ContDiff

/-! ## C25-C28 -/

private theorem apart3 : Apart 0 (2 ^ 3) 8 (2 ^ 3) ∧ Apart 0 (2 ^ 3) 16 (2 ^ 3) ∧ Apart 0 (2 ^ 3) 16 (3 + 1) := by
  unfold Apart; omega

/-- Three variables, the factors behind the product: the top coefficient of `(Σ εᵢ-monomials)²` with all coefficients one
is the number of ways to split three variables in two. -/
example : recMulSet (V := ℤ) 3 0 8 16 (fun _ => 1) 7 = 8 ∧ recMulSet (V := ℤ) 3 0 8 16 (fun _ => 1) 24 = 1 := by
  obtain ⟨h1, h2⟩ := C25_product (V := ℤ) 3 0 8 16 (fun _ => 1) apart3.1 apart3.2.1
  exact ⟨(h1 7 (by norm_num)).trans (by decide), h2 24 (.inr (by norm_num))⟩

example : recMul (V := ℤ) 3 0 8 16 (fun _ => 1) 7 = 9 := by
  have h := (C25_product_accumulate (V := ℤ) 3 0 8 16 (fun _ => 1) apart3.1 apart3.2.1).1 7 (by norm_num)
  exact h.trans (by decide)

example (x y : CT ℤ 2) : (x * y).get 3 = x.get 0 * y.get 3 + x.get 1 * y.get 2 + x.get 2 * y.get 1 + x.get 3 * y.get 0 := by
  rw [C25_product_value x y (by norm_num)]
  simp [subsetProduct, Finset.sum_range_succ]

example (x y : CT ℤ 3) : (x - y).get 5 = x.get 5 - y.get 5 := (C26_coefficientwise 7 x y (by norm_num)).2.1

example : (CT.node (CT.leaf 0) (CT.leaf 5) : CT ℤ 1) ^ 2 = 0 := C26_nilpotent _ rfl

example : recMulto (V := ℤ) 3 0 8 (fun _ => 1) 7 = 8 :=
  ((C27_in_place (V := ℤ) 3 0 8 (fun _ => 1) apart3.1).1 7 (by norm_num)).trans (by decide)

example : recMulto (V := ℤ) 2 0 0 (fun p => p + 1) 3 = 20 :=
  (C27_self_up_to_two (V := ℤ) 2 0 le_rfl (fun p => p + 1) 3 (by norm_num)).trans (by decide)

example (m : Mem ℤ) : rd 3 (recCompose 3 0 8 16 m) 0 = ∑ i ∈ Finset.range 4, CT.const 3 (m (16 + i)) * (rd 3 m 8 - CT.const 3 (m 8)) ^ i :=
  (C28_compose 3 0 8 16 m apart3.1 apart3.2.2).1

example (x : CT ℤ 2) (c : ℕ → ℤ) : CT.compose x c = ∑ i ∈ Finset.range 11, CT.const 2 (c i) * (x - CT.const 2 (x.get 0)) ^ i :=
  C28_no_truncation_error x c (by norm_num : 2 ≤ 10)

/-! ## C29 -/

example : IsTaylor (fun x => 1 / x) (-2) 4 (invExpand (-2)) := C29_inv 4 (by norm_num)

example : IsTaylor (fun x : ℝ => x ^ (4 / 3 : ℝ)) 8 3 (powExpand 8 (4 / 3)) := C29_pow 3 _ (by norm_num)

example : IsTaylor (fun x => √x) 9 6 (sqrtExpand 9) := C29_sqrt 6 (by norm_num)

example : IsTaylor (fun x : ℝ => x ^ (1 / 3 : ℝ)) 27 2 (cbrtExpand 27) :=
  C29_cbrt 2 (by norm_num) _ fun x hx =>
    ⟨Real.rpow_pos_of_pos hx _, by rw [← Real.rpow_natCast, ← Real.rpow_mul (le_of_lt hx)]; norm_num⟩

example : IsTaylor Real.arctan (-3) 6 (atanExpand 6 (-3)) := C29_atan le_rfl _

example : IsTaylor Real.arsinh 2 5 (asinhExpand 5 2) := C29_asinh (by norm_num) _

example : IsTaylor (fun x => (∑ m ∈ Finset.range 9, x ^ m * padeP m) / ∑ m ∈ Finset.range 9, x ^ m * padeQ m) (1 / 4) 3
    (padeExpand 3 (1 / 4)) := C29_pade (by norm_num) (by rw [abs_of_pos] <;> norm_num)

example : asinExpand 3 (1 / 2) 0 ≠ Real.arcsin (1 / 2) :=
  (C29_asin_wrong (by norm_num : 3 ≤ 6) (x0 := 1 / 2) (by norm_num)).2 (by norm_num)

example : acosExpand 3 (1 / 2) 3 = -(iteratedDeriv 3 Real.arccos (1 / 2) / 3 !) ∧ acosExpand 3 (1 / 2) 0 = Real.arsinh (1 / 2) :=
  ⟨(C29_acos_wrong (by norm_num : 3 ≤ 6) (x0 := 1 / 2) (by norm_num)).2.1 (by norm_num),
    (C29_acos_wrong (by norm_num : 3 ≤ 6) (x0 := 1 / 2) (by norm_num)).2.2⟩

example (s : CT ℝ 1) : s.div (CT.node (CT.leaf 2) (CT.leaf 3)) * CT.node (CT.leaf 2) (CT.leaf 3) = s :=
  C26_division s _ (by show (2 : ℝ) ≠ 0; norm_num)

end XCFun.Props

namespace XCFun.Props

open XCFun Spec Polymul Tay MvPolynomial Finset

/-! ## C68-C70, C77 -/

private theorem len3 : (terms 2 1).length = 3 ∧ (terms 2 2).length = 6 ∧ (terms 2 3).length = 10 := by
  simp only [terms_length]; decide

example : ∃ out, taylormul 2 1 [0, 0, 0] [(1 : ℤ), 2, 3] [4, 5, 6] = .ok out ∧
    SameTo 1 (polyOf 2 1 out) (polyOf 2 1 [1, 2, 3] * polyOf 2 1 [4, 5, 6]) := by
  obtain ⟨out, e, h, -⟩ := C68_taylormul 1 1 [0, 0, 0] [(1 : ℤ), 2, 3] [4, 5, 6] len3.1.le len3.1.le len3.1.le
  exact ⟨out, e, h⟩

example : ∃ out, taylormulIn 2 2 1 [(1 : ℤ), 2, 3, 4, 5, 6] [4, 5, 6] = .ok out ∧
    SameTo 2 (polyOf 2 2 out) (polyOf 2 2 [1, 2, 3, 4, 5, 6] * polyOf 2 1 [4, 5, 6]) := by
  obtain ⟨out, e, h, -⟩ := C68_taylormul_in_place 1 2 1 [(1 : ℤ), 2, 3, 4, 5, 6] [4, 5, 6] len3.2.1.le len3.1.le
  exact ⟨out, e, h⟩

example : ∃ out, taylorcompose0 2 2 1 [7, 7, 7, 7, 7, 7] [(0 : ℤ), 1, 2] [1, 1, 1] = .ok out ∧ out.length = 6 := by
  obtain ⟨out, e, -, h, -⟩ := C68_compose0 1 2 1 [7, 7, 7, 7, 7, 7] [(0 : ℤ), 1, 2] [1, 1, 1] len3.2.1.le len3.1.le rfl le_rfl
  exact ⟨out, e, h⟩

example : ∃ out, taylorcompose 2 2 1 [7, 7, 7, 7, 7, 7] [(1 : ℤ), 1, 2] [1, 1, 1] = .ok out ∧
    SameTo 2 (polyOf 2 2 out) (∑ j ∈ range 3, C (([1, 1, 1] : List ℤ).getD j 0) * polyOf 2 1 [1, 1, 2] ^ j) := by
  obtain ⟨out, e, h, -⟩ := C68_compose 1 2 1 [7, 7, 7, 7, 7, 7] [(1 : ℤ), 1, 2] [1, 1, 1] len3.2.1.le len3.1.le le_rfl
  exact ⟨out, e, h⟩

example : evalTerms [(2 : ℤ), 3] 2 1 [0, 0, 0] = .ok ((terms 2 1).map (fun e => MvPolynomial.eval (pointOf [2, 3]) (power e)) ++ []) := by
  rw [C69_terms 1 1 [0, 0, 0] [(2 : ℤ), 3] len3.1.le le_rfl, len3.1]; rfl

example : ∃ out, diff [(1 : ℤ), 2, 3, 4, 5, 6] 2 1 0 0 2 [0, 0, 0] = .ok out ∧
    polyOf 2 1 out = MvPolynomial.pderiv 1 (polyOf 2 2 [1, 2, 3, 4, 5, 6]) := by
  obtain ⟨out, e, h, -⟩ := C69_diff 1 1 1 le_rfl [(1 : ℤ), 2, 3, 4, 5, 6] [0, 0, 0] len3.2.1.le len3.1.le
  exact ⟨out, e, h⟩

example : ∃ out, polydfac 2 2 [(1 : ℤ), 2, 3, 4, 5, 6] = .ok out ∧
    out.getD 3 0 = MvPolynomial.eval 0 ((MvPolynomial.pderiv 1)^[0] ((MvPolynomial.pderiv 0)^[2] (polyOf 2 2 [1, 2, 3, 4, 5, 6]))) := by
  obtain ⟨out, e, h⟩ := C69_dfac_derivative 1 2 [(1 : ℤ), 2, 3, 4, 5, 6] len3.2.1.le (i := 3) (e := [2, 0]) (by simp [terms, List.range_succ, multisets, Spec.exponents])
  exact ⟨out, e, h⟩

example : ∃ out, polymulTerm 2 1 4 (List.replicate 10 0) [(1 : ℤ), 3, 0] 2 = .ok out ∧
    polyOf 2 3 out = polyOf 2 3 (List.replicate 10 0) + C 2 * power [1, 1] * polyOf 2 1 [1, 3, 0] := by
  obtain ⟨out, e, -, h⟩ := C69_term 1 1 2 4 (List.replicate 10 0) [(1 : ℤ), 3, 0] 2 [1, 1] (by simp [terms, List.range_succ, multisets, Spec.exponents]) len3.1.le len3.2.2.le
  exact ⟨out, e, h⟩

example (m : ℕ → ℕ) : ∃ m', Polymul.exponents 2 2 4 m = .ok m' ∧ (List.range 2).map m' = [1, 1] :=
  C70_exponents 1 2 4 [1, 1] (by simp [terms, List.range_succ, multisets, Spec.exponents]) m

example (m : ℕ → ℕ) : Polymul.exponents 2 2 6 m = .die ∧ Polymul.exponents 2 2 (-1) m = .die :=
  ⟨(C70_exponents_rejected 0 2 6 m).2 (by rw [len3.2.1]; norm_num), (C70_exponents_rejected 2 2 (-1) m).1 (by norm_num)⟩

example : ∃ i : ℕ, termIndex 2 [0, 2] = .ok (i : ℤ) ∧ (terms 2 2)[i]? = some [0, 2] :=
  C70_index 1 2 [0, 2] rfl le_rfl (by rw [len3.2.1]; norm_num) (by norm_num)

example (m : ℕ → ℕ) : ∃ m', Polymul.exponents 2 2 5 m = .ok m' ∧ termIndex 2 ((List.range 2).map m') = .ok 5 :=
  C70_inverse 1 2 5 (by rw [len3.2.1]; norm_num) (by rw [len3.2.1]; norm_num) (by norm_num) m

example : ∃ t, toTensor 2 2 3 [(1 : ℤ), 2, 3, 4, 5, 6] (List.replicate 9 0) = .ok t ∧ fromTensor 2 2 3 t [9, 9, 9, 9, 9, 9] = .ok [1, 2, 3, 4, 5, 6] :=
  C70_round_trip 0 2 3 (by norm_num) _ _ _ len3.2.1.symm len3.2.1.symm (by simp)

example : ∃ out, toTensor 2 2 2 [(1 : ℤ), 2, 3, 4, 5, 6] [9, 9, 9, 9] = .ok out ∧ out.length = 4 ∧
    ∀ e : List ℕ, e.length = 2 → (∀ x ∈ e, x < 2) → ∀ i, (terms 2 2)[i]? = some e → out.getD (packed 2 e) 0 = [(1 : ℤ), 2, 3, 4, 5, 6].getD i 0 := by
  obtain ⟨out, e, hl, h⟩ := C70_to_tensor 0 2 2 [9, 9, 9, 9] [(1 : ℤ), 2, 3, 4, 5, 6] len3.2.1.le (by simp)
  exact ⟨out, e, hl, fun e he hx => (h e he hx).1⟩

example : fromTensor 2 1 2 [(1 : ℤ), 3, 2, 5] [9, 9, 9] =
    .ok ((terms 2 1).map (fun e => if ∀ x ∈ e, x < 2 then [(1 : ℤ), 3, 2, 5].getD (packed 2 e) 0 else 0) ++ []) := by
  rw [C70_from_tensor 0 1 2 [(1 : ℤ), 3, 2, 5] [9, 9, 9] len3.1.le (by simp), len3.1]; rfl

example : fromTensor 1 2 3 [(5 : ℤ), 7, 8] [0, 0, 0] = .ok [5, 5, 5] :=
  C70_from_tensor_one_variable 2 3 (by norm_num) [(5 : ℤ), 7, 8] [0, 0, 0] rfl le_rfl

/-- A polynomial of two variables after a linear change of variables. -/
example : ∃ out, polytrans 2 2 2 (List.replicate 6 0) (List.replicate 6 0) [(1 : ℤ), 2, 3, 4, 5, 6] [1, 1, 0, 1] = .ok out ∧
    polyOf 2 2 out = aeval (linForm 2 [1, 1, 0, 1]) (polyOf 2 2 [(1 : ℤ), 2, 3, 4, 5, 6]) := by
  obtain ⟨out, e, h, -⟩ := C77_polytrans 1 1 2 (List.replicate 6 0) (List.replicate 6 0) [(1 : ℤ), 2, 3, 4, 5, 6] [1, 1, 0, 1]
    len3.2.1.le len3.2.1.le len3.2.1.le (by simp)
  exact ⟨out, e, h⟩

/-! ## C71, C72 -/

variable (u : ℕ → ℝ)

private theorem fit6 (a b c d e f : ℝ) : [a, b, c, d, e, f].length = (terms 2 2).length := len3.2.1.symm

example : (∃ out, mkVar u 2 2 7 1 3 = .ok out ∧ polyOf 2 2 out = C 7 + C 3 * X 1) ∧ mkVar u 2 2 7 2 3 = .die := by
  obtain ⟨h1, h2⟩ := C71_variable u 1 2 1 7 3
  obtain ⟨out, e, -, h⟩ := h1 (by norm_num)
  exact ⟨⟨out, e, by rw [h]; simp⟩, (C71_variable u 1 2 2 7 3).2 le_rfl⟩

example : ∃ out, Tay.sub u 2 2 [1, 2, 3, 4, 5, 6] [6, 5, 4, 3, 2, 1] = .ok out ∧
    polyOf 2 2 out = polyOf 2 2 [1, 2, 3, 4, 5, 6] - polyOf 2 2 [6, 5, 4, 3, 2, 1] := by
  obtain ⟨-, -, ⟨out, e, -, h⟩, -⟩ := C71_ring u 1 2 [1, 2, 3, 4, 5, 6] (fit6 ..) [6, 5, 4, 3, 2, 1] [1, 2, 3] 1 (fit6 ..) len3.1.symm
  exact ⟨out, e, h⟩

example : dot 2 2 [1, 2, 3, 4, 5, 6] [6, 5, 4, 3, 2, 1] = .ok (56 : ℝ) := by
  rw [C71_dot 1 2 [1, 2, 3, 4, 5, 6] (fit6 ..) [6, 5, 4, 3, 2, 1] (fit6 ..)]; norm_num

example : ∃ out, Tay.compose 2 2 [1, 2, 3, 4, 5, 6] [9, 9, 9, 9, 9, 9] [1, 0, 1] = .ok out ∧
    SameTo 2 (polyOf 2 2 out) (∑ j ∈ range 3, C (([1, 0, 1] : List ℝ).getD j 0) * (polyOf 2 2 [1, 2, 3, 4, 5, 6] - C 1) ^ j) := by
  obtain ⟨out, e, -, h⟩ := C71_compose 1 2 [1, 2, 3, 4, 5, 6] (fit6 ..) [9, 9, 9, 9, 9, 9] [1, 0, 1] (fit6 ..) rfl
  exact ⟨out, e, h⟩

example : composeTo u 2 2 1 [1, 2, 3, 4, 5, 6] [1, 0] = .die :=
  (C71_compose_to u 1 2 [1, 2, 3, 4, 5, 6] (fit6 ..) 1 [1, 0] rfl).2 (by norm_num)

example : ∃ out, stretch 2 2 3 [1, 2, 3, 4, 5, 6] = .ok out ∧
    ∀ v, MvPolynomial.eval v (polyOf 2 2 out) = MvPolynomial.eval (fun i => 3 * v i) (polyOf 2 2 [1, 2, 3, 4, 5, 6]) := by
  obtain ⟨⟨out, e, -, h⟩, -⟩ := C71_stretch 1 2 [1, 2, 3, 4, 5, 6] (fit6 ..) (by rw [len3.2.1]; norm_num) (by norm_num) 3
  exact ⟨out, e, h⟩

example : ∃ out, integrate 1 2 [1, 2, 3] = .ok out ∧
    ∀ x : ℝ, ∑ i ∈ range 3, out.getD i 0 * x ^ i = ∫ s in (0 : ℝ)..x, ∑ i ∈ range 2, ([1, 2, 3] : List ℝ).getD i 0 * s ^ i := by
  obtain ⟨⟨out, e, -, h⟩, -⟩ := C71_integrate 1 2 [1, 2, 3] rfl
  exact ⟨out, e, h⟩

example : IsExpansion 2 2 (fun x => 2 / √Real.pi * ∫ s in (0 : ℝ)..x, Real.exp (-s ^ 2)) [1, 2, 3, 4, 5, 6] (Tay.erf u 2 2 [1, 2, 3, 4, 5, 6]) :=
  C71_erf u 1 2 _ (fit6 ..) (by norm_num)

example : Tay.div u 2 2 [1, 2, 3, 4, 5, 6] [0, 2, 3, 4, 5, 6] = .die :=
  (C71_divide_by_zero u 1 2 [0, 2, 3, 4, 5, 6] (fit6 ..) _ [9, 9, 9, 9, 9, 9] rfl 1).2.1

example : IsExpansion 2 2 (fun x => Real.sin x / x) [1, 2, 3, 4, 5, 6] (sinc u 2 2 [1, 2, 3, 4, 5, 6]) :=
  (C71_sinc u 1 2 _ (fit6 ..)).1 (by norm_num)

example : IsExpansion 2 2 (fun x => √x * Real.arsinh √x) [1, 2, 3, 4, 5, 6] (sqrtxAsinhSqrtx u 2 2 [1, 2, 3, 4, 5, 6]) ∧
    sqrtxAsinhSqrtx u 2 2 [-1, 2, 3, 4, 5, 6] = .die :=
  ⟨(C71_sqrtx_asinh_sqrtx u 1 2 _ (fit6 ..)).1 (by norm_num), (C71_sqrtx_asinh_sqrtx u 1 2 _ (fit6 ..)).2.2.1 (by norm_num)⟩

example : Tay.min [1, 2, 3, 4, 5, 6] [6, 5, 4, 3, 2, 1] = .ok [1, 2, 3, 4, 5, 6] :=
  ((C71_min_max 1 2 [1, 2, 3, 4, 5, 6] (fit6 ..) [6, 5, 4, 3, 2, 1] (fit6 ..)).1 (by norm_num)).1

example : Tay.brTaylor u 3 (-2) = .ok ((List.range 4).map (XCFun.brTaylor 3 (-2))) := C72_model u 3 (by norm_num) (by norm_num) _

end XCFun.Props
