/-
C17, C18, C19: contracted mode and the LDA potential.
-/
import Verif.Proofs.Path
import Verif.Props.Output
import Verif.Proofs.Setup

namespace XCFun.Props
open XCFun Spec

/-! ## C17 -/

theorem xcfunEval_contracted {V : Type _} [Zero V] [One V] [Add V] [Sub V] [Mul V] {K : Kernel V}
    {junk : Junk V} {s : State V} {v : Vars} {input output : List V} (hv : s.vars = some v)
    (hm : s.mode = CONTRACTED) {N : ℕ} (ho : s.order = N) (hN : N ≤ 6) :
    xcfunEval K junk s input output = evalContractedN K junk s v input output N := by
  have h1 : ¬ (CONTRACTED = MODE_UNSET) := by decide
  have h2 : ¬ (s.order = -1 ∧ CONTRACTED ≠ POTENTIAL) := by omega
  have h3 : ¬ (CONTRACTED = PARTIAL_DERIVATIVES) := by decide
  simp only [xcfunEval, hm, h1, hv, h2, h3, if_false, if_true, evalContracted]
  rw [if_pos (by omega), ho]
  rfl

/-- **C17, memory.** In contracted mode of order `N ≤ 6` the first `len*2^N` entries of the input are
read, exactly the first `2^N` entries of the output are written, and they are the coefficients of the
energy of the truncated expansions `sum_S input[i*2^N+S] e^S` (no assumption on the input). -/
theorem C17_contracted_expansion (s : State ℝ) (v : Vars) (hv : s.vars = some v) (hm : s.mode = CONTRACTED)
    (N : ℕ) (ho : s.order = N) (hN : N ≤ 6) (hsup : DV.reads v ≠ none) (y : ℕ → ℝ)
    (rest output : List ℝ) (junk : Junk ℝ) (hout : 2 ^ N ≤ output.length) :
    xcfunEval codeKernel junk s ((List.range (v.len * 2 ^ N)).map y ++ rest) output = .ok
      ((List.range (2 ^ N)).map (fun S =>
        (energyOn s v (fun i => CT.ofFn N fun S => y (i * 2 ^ N + S))).get S)
      ++ output.drop (2 ^ N)) := by
  obtain ⟨sl, hsl⟩ := Option.ne_none_iff_exists'.mp hsup
  rw [xcfunEval_contracted hv hm ho hN, evalContractedN_ok codeKernel_local hsl (len_le v) (y := y)
    (fun k hk => by rw [List.getElem?_append_left (by simpa using hk)]; simp [hk]) junk s hout,
    splice_zero, total_eq, sumExpr_evalCT]
  simp only [List.length_map, List.length_range]
  rfl

/-- **C17.** In contracted mode of order `N ≤ 6`, at every input whose base point `input[i*2^N]` is
strictly inside the domains of the elementary functions used, the output with index `S` is the mixed
partial derivative with respect to the `e_k`, `k ∈ S`, at `e = 0`, of the energy along the path
`x_i(e) = sum_S input[i*2^N+S] prod_{k∈S} e_k`. -/
theorem C17_contracted_derivatives (s : State ℝ) (v : Vars) (hv : s.vars = some v) (hm : s.mode = CONTRACTED)
    (N : ℕ) (ho : s.order = N) (hN : N ≤ 6) (hsup : DV.reads v ≠ none) (y : ℕ → ℝ)
    (hreg : RegularAt s v (fun i => y (i * 2 ^ N)))
    (rest output : List ℝ) (junk : Junk ℝ) (hout : 2 ^ N ≤ output.length) :
    xcfunEval codeKernel junk s ((List.range (v.len * 2 ^ N)).map y ++ rest) output = .ok
      ((List.range (2 ^ N)).map (fun S =>
        pderivs (bits N S) (fun e => energyAt s v (pathAt N y e)) (fun _ => 0))
      ++ output.drop (2 ^ N)) := by
  rw [C17_contracted_expansion s v hv hm N ho hN hsup y rest output junk hout]
  congr 2
  refine List.map_congr_left fun S hS => ?_
  have hS : S < 2 ^ N := by simpa using hS
  rw [← sumExpr_evalCT]
  have := energyOn_path hN (sumExpr_reg hreg) hS
  rw [show (fun i => CT.ofFn N fun S => y (i * 2 ^ N + S)) = seedC N y from rfl, this]
  congr 1
  funext e
  exact energyR_eq s v _

/-- Meaning of the index set for `N = 3`: output 5 is `d^2/de_0 de_2`, output 7 the full mixed derivative. -/
example : bits 3 5 = [0, 2] ∧ bits 3 7 = [0, 1, 2] ∧ bits 3 0 = [] := by decide

example (F : (ℕ → ℝ) → ℝ) (x : ℕ → ℝ) : pderivs (bits 3 5) F x = pderiv 0 (pderiv 2 F) x := rfl

/-- Non-trivial case: Slater exchange, order 2, base point (1, 2). -/
example : ∃ r : List ℝ, r.length = 4 ∧
    xcfunEval codeKernel none { sampleState 2 CONTRACTED .A_B with active := [0] }
      [1, 10, 20, 30, 2, 11, 21, 31] [0, 0, 0, 0] = .ok r := by
  have h := C17_contracted_derivatives { sampleState 2 CONTRACTED .A_B with active := [0] } .A_B rfl rfl 2
    rfl (by omega) (by simp [DV.reads]) (fun i => ([1, 10, 20, 30, 2, 11, 21, 31] : List ℝ).getD i 0)
    (C16_slater_regular _ rfl _ (by norm_num) (by norm_num)) [] [0, 0, 0, 0] none (by decide)
  exact ⟨_, by simp, h⟩

/-! ## C18 -/

/-- The contracted input for unit perturbations: entry `S` of input `l` is `x l` for `S = {}`, and `1` for
`S = {q}` if perturbation `q` belongs to input `l`. -/
noncomputable def unitInput (N : ℕ) (x : ℕ → ℝ) (i j k : ℕ) (m : ℕ) : ℝ :=
  let l := m / 2 ^ N
  let S := m % 2 ^ N
  if S = 0 then x l else if S = 1 then Spec.unit (some i) l else if S = 2 then Spec.unit (some j) l
  else if S = 4 then Spec.unit (some k) l else 0

/-- Position of a second derivative for indices in any order. -/
def pos2s (n i j : ℕ) : ℕ := pos2 n (min i j) (max i j)

/-- Position of a third derivative for indices in any order. -/
def pos3s (n i j k : ℕ) : ℕ :=
  let lo := min i (min j k)
  let hi := max i (max j k)
  pos3 n lo (i + j + k - lo - hi) hi

theorem seedC_unit1 (x : ℕ → ℝ) (i j k : ℕ) : seedC 1 (unitInput 1 x i j k) = seed1 x (some i) := by
  funext l
  have h0 : (l * 2 + 0) / 2 = l := by omega
  have h1 : (l * 2 + 1) / 2 = l := by omega
  simp [seedC, CT.ofFn, unitInput, seed1, h0, h1, Nat.add_mod, Nat.mul_mod]

theorem seedC_unit2 (x : ℕ → ℝ) (i j k : ℕ) :
    seedC 2 (unitInput 2 x i j k) = seed2 x (some i) (some j) := by
  funext l
  have h1 : (l * 4 + 1) / 4 = l := by omega
  have h2 : (l * 4 + 2) / 4 = l := by omega
  simp [seedC, CT.ofFn, unitInput, seed2, h1, h2, Nat.add_mod, Nat.mul_mod]

theorem seedC_unit3 (x : ℕ → ℝ) (i j k : ℕ) :
    seedC 3 (unitInput 3 x i j k) = seed3 x (some i) (some j) (some k) := by
  funext l
  have h1 : (l * 8 + 1) / 8 = l := by omega
  have h2 : (l * 8 + 2) / 8 = l := by omega
  have h4 : (l * 8 + 4) / 8 = l := by omega
  simp [seedC, CT.ofFn, unitInput, seed3, seed2, h1, h2, h4, Nat.add_mod, Nat.mul_mod]

/-- **C18.** Let `P` be what partial-derivative mode of order 3 returns at `x` (orders 1 and 2 return prefixes of
it, `C30_lower_orders_prefix`).  Contracted mode of order 1, 2, 3 seeded with unit perturbations of inputs `i`, `j`,
`k` (in any order, repetitions allowed) returns the corresponding entries of `P`. -/
theorem C18_modes_agree (s : State ℝ) (v : Vars) (hv : s.vars = some v) (hsup : DV.reads v ≠ none)
    (x : ℕ → ℝ) {i j k : ℕ} (hi : i < v.len) (hj : j < v.len) (hk : k < v.len) :
    ∃ P C1 C2 C3 : List ℝ,
      (∀ output junk, output.length = P.length →
        xcfunEval codeKernel junk { s with mode := PARTIAL_DERIVATIVES, order := 3 }
          ((List.range v.len).map x) output = .ok P) ∧
      (∀ output junk, output.length = 2 → xcfunEval codeKernel junk { s with mode := CONTRACTED, order := 1 }
          ((List.range (v.len * 2)).map (unitInput 1 x i j k)) output = .ok C1) ∧
      (∀ output junk, output.length = 4 → xcfunEval codeKernel junk { s with mode := CONTRACTED, order := 2 }
          ((List.range (v.len * 4)).map (unitInput 2 x i j k)) output = .ok C2) ∧
      (∀ output junk, output.length = 8 → xcfunEval codeKernel junk { s with mode := CONTRACTED, order := 3 }
          ((List.range (v.len * 8)).map (unitInput 3 x i j k)) output = .ok C3) ∧
      outputLength { s with mode := PARTIAL_DERIVATIVES, order := 3 } = .ok (P.length : ℤ) ∧
      C1.map some = [P[0]?, P[1 + i]?] ∧
      C2.map some = [P[0]?, P[1 + i]?, P[1 + j]?, P[pos2s v.len i j]?] ∧
      C3.map some = [P[0]?, P[1 + i]?, P[1 + j]?, P[pos2s v.len i j]?,
        P[1 + k]?, P[pos2s v.len i k]?, P[pos2s v.len j k]?, P[pos3s v.len i j k]?] := by
  set sp : State ℝ := { s with mode := PARTIAL_DERIVATIVES, order := 3 }
  set P := layout v.len 3 (energyR s v x) (D1 s v x) (D2 s v x) (D3 s v x) with hP
  have pp := C15_positions v.len 3 (energyR s v x) (D1 s v x) (D2 s v x) (D3 s v x)
  obtain ⟨p0, p1, p2, p3⟩ := pp
  rw [← hP] at p0 p1 p2 p3
  have hlen : outputLength sp = .ok (P.length : ℤ) := by
    have h1 : ¬ (PARTIAL_DERIVATIVES = MODE_UNSET) := by decide
    have h2 : ¬ ((3 : ℤ) = -1) := by omega
    simp only [outputLength, sp, h1, hv, h2, if_false, if_true]
    exact outlen_eq v (k := 3) (by omega) _ _ _ _
  have q2 : ∀ a < v.len, ∀ b < v.len, P[pos2s v.len a b]? = some (D2 s v x a b) := by
    intro a ha b hb
    unfold pos2s
    rcases le_total a b with h | h
    · rw [min_eq_left h, max_eq_right h, p2 (by omega) a b h hb]
    · rw [min_eq_right h, max_eq_left h, p2 (by omega) b a h ha, D2_symm]
  have q3 : P[pos3s v.len i j k]? = some (D3 s v x i j k) := by
    have s12 := D3_swap12 s v x
    have s23 := D3_swap23 s v x
    unfold pos3s
    dsimp only
    rcases le_total i j with h1 | h1 <;> rcases le_total j k with h2 | h2 <;>
      rcases le_total i k with h3 | h3
    · rw [show min i (min j k) = i by omega, show max i (max j k) = k by omega,
        show i + j + k - i - k = j by omega, p3 (by omega) i j k h1 h2 hk]
    · rw [show min i (min j k) = i by omega, show max i (max j k) = k by omega,
        show i + j + k - i - k = j by omega, p3 (by omega) i j k h1 h2 hk]
    · rw [show min i (min j k) = i by omega, show max i (max j k) = j by omega,
        show i + j + k - i - j = k by omega, p3 (by omega) i k j h3 h2 hj, s23]
    · rw [show min i (min j k) = k by omega, show max i (max j k) = j by omega,
        show i + j + k - k - j = i by omega, p3 (by omega) k i j h3 h1 hj, s12, s23]
    · rw [show min i (min j k) = j by omega, show max i (max j k) = k by omega,
        show i + j + k - j - k = i by omega, p3 (by omega) j i k h1 h3 hk, s12]
    · rw [show min i (min j k) = j by omega, show max i (max j k) = i by omega,
        show i + j + k - j - i = k by omega, p3 (by omega) j k i h2 h3 hi, s23, s12]
    · rw [show min i (min j k) = k by omega, show max i (max j k) = i by omega,
        show i + j + k - k - i = j by omega, p3 (by omega) k j i h2 h1 hi, s12, s23, s12]
    · rw [show min i (min j k) = k by omega, show max i (max j k) = i by omega,
        show i + j + k - k - i = j by omega, p3 (by omega) k j i h2 h1 hi, s12, s23, s12]
  refine ⟨P, [energyR s v x, D1 s v x i], [energyR s v x, D1 s v x i, D1 s v x j, D2 s v x i j],
    [energyR s v x, D1 s v x i, D1 s v x j, D2 s v x i j, D1 s v x k, D2 s v x i k, D2 s v x j k,
      D3 s v x i j k], ?_, ?_, ?_, ?_, hlen, ?_, ?_, ?_⟩
  · intro output junk ho
    have := C15_order_of_derivatives sp v hv rfl 3 rfl (by omega) hsup x [] output junk _ hlen (by omega)
    rw [List.append_nil] at this
    rw [this, List.drop_eq_nil_of_le (by omega), List.append_nil]
    simp only [← sumExpr_evalCT, ← energyR_eq]
    rfl
  · intro output junk ho
    have := C17_contracted_expansion { s with mode := CONTRACTED, order := 1 } v hv rfl 1 rfl (by omega) hsup
      (unitInput 1 x i j k) [] output junk (by omega)
    rw [List.append_nil] at this
    rw [show v.len * 2 = v.len * 2 ^ 1 from rfl, this, List.drop_eq_nil_of_le (by omega), List.append_nil,
      ← sumExpr_evalCT]
    change Outcome.ok ((List.range 2).map fun S => ((sumExpr s v).evalCT (seedC 1 _)).get S) = _
    rw [seedC_unit1, run1_all]
    rfl
  · intro output junk ho
    have := C17_contracted_expansion { s with mode := CONTRACTED, order := 2 } v hv rfl 2 rfl (by omega) hsup
      (unitInput 2 x i j k) [] output junk (by omega)
    rw [List.append_nil] at this
    rw [show v.len * 4 = v.len * 2 ^ 2 from rfl, this, List.drop_eq_nil_of_le (by omega), List.append_nil,
      ← sumExpr_evalCT]
    change Outcome.ok ((List.range 4).map fun S => ((sumExpr s v).evalCT (seedC 2 _)).get S) = _
    rw [seedC_unit2, run2_all]
    rfl
  · intro output junk ho
    have := C17_contracted_expansion { s with mode := CONTRACTED, order := 3 } v hv rfl 3 rfl (by omega) hsup
      (unitInput 3 x i j k) [] output junk (by omega)
    rw [List.append_nil] at this
    rw [show v.len * 8 = v.len * 2 ^ 3 from rfl, this, List.drop_eq_nil_of_le (by omega), List.append_nil,
      ← sumExpr_evalCT]
    change Outcome.ok ((List.range 8).map fun S => ((sumExpr s v).evalCT (seedC 3 _)).get S) = _
    rw [seedC_unit3, run3_all]
    rfl
  · simp [p0, p1 (by omega) i hi]
  · simp [p0, p1 (by omega) i hi, p1 (by omega) j hj, q2 i hi j hj]
  · simp [p0, p1 (by omega) i hi, p1 (by omega) j hj, p1 (by omega) k hk, q2 i hi j hj, q2 i hi k hk,
      q2 j hj k hk, q3]

example : pos3s 5 4 1 2 = pos3 5 1 2 4 ∧ pos2s 5 3 1 = pos2 5 1 3 := by decide

/-! ## C19 -/

theorem xcfunEval_potential {V : Type _} [Zero V] [One V] [Add V] [Sub V] [Mul V] {K : Kernel V}
    {junk : Junk V} {s : State V} {v : Vars} {input output : List V} (hv : s.vars = some v)
    (hm : s.mode = POTENTIAL) :
    xcfunEval K junk s input output = evalPotential K junk s v input output := by
  have h1 : ¬ (POTENTIAL = MODE_UNSET) := by decide
  have h3 : ¬ (POTENTIAL = PARTIAL_DERIVATIVES) := by decide
  have h4 : ¬ (POTENTIAL = CONTRACTED) := by decide
  simp [xcfunEval, hm, h1, hv, h3, h4]

theorem resPot_lda (s : State ℝ) {v : Vars} (hv : v = .A_B ∨ v = .N) (x : ℕ → ℝ) :
    resPot codeKernel s v x = energyR s v x :: (List.range v.len).map (D1 s v x) := by
  unfold resPot
  rcases hv with rfl | rfl
  · have h1 : Vars.len .A_B = 2 := by decide
    simp only [h1, potentialShape, total_eq, run1_all]
    rfl
  · have h1 : Vars.len .N = 1 := by decide
    simp only [h1, potentialShape, total_eq, run1_all]
    rfl

/-- **C19.** For density-only functionals (no gradient dependency) with `XC_A_B` or `XC_N`, potential mode writes
exactly the energy and the derivative with respect to each input, and these are the entries that
partial-derivative mode of order 1 writes. -/
theorem C19_lda_potential (s : State ℝ) {v : Vars} (hv : v = .A_B ∨ v = .N) (hs : s.vars = some v)
    (hm : s.mode = POTENTIAL) (hd : s.depends.testBit 1 = false) (x : ℕ → ℝ) :
    ∃ P : List ℝ, P.length = 1 + v.len ∧
      (∀ rest output junk, 1 + v.len ≤ output.length →
        xcfunEval codeKernel junk { s with mode := PARTIAL_DERIVATIVES, order := 1 }
          ((List.range v.len).map x ++ rest) output = .ok (P ++ output.drop (1 + v.len))) ∧
      (∀ rest output junk, 1 + v.len ≤ output.length →
        xcfunEval codeKernel junk s ((List.range v.len).map x ++ rest) output
          = .ok (P ++ output.drop (1 + v.len))) := by
  have hsup : DV.reads v ≠ none := by rcases hv with rfl | rfl <;> simp [DV.reads]
  have hl1 : taylorlen v.len 1 = .ok ((1 + v.len : ℕ) : ℤ) := by rcases hv with rfl | rfl <;> decide
  refine ⟨energyR s v x :: (List.range v.len).map (D1 s v x), by simp [Nat.add_comm], ?_, ?_⟩
  · intro rest output junk ho
    rw [C15_order_of_derivatives { s with mode := PARTIAL_DERIVATIVES, order := 1 } v hs rfl 1 rfl (by omega)
      hsup x rest output junk (1 + v.len) (by
        have h1 : ¬ (PARTIAL_DERIVATIVES = MODE_UNSET) := by decide
        have h2 : ¬ ((1 : ℤ) = -1) := by omega
        simp only [outputLength, h1, hs, h2, if_false, if_true]
        exact hl1) ho]
    simp only [← sumExpr_evalCT, ← energyR_eq]
    simp only [layout, le_refl, if_true, Nat.not_ofNat_le_one, if_false, List.append_nil, List.cons_append,
      List.nil_append]
    rfl
  · intro rest output junk ho
    have hR : Ready codeKernel v ((List.range v.len).map x ++ rest) x := by
      refine ⟨codeKernel_local, Option.ne_none_iff_exists'.mp hsup, len_le v, fun i hi => ?_⟩
      rw [List.getElem?_append_left (by simpa using hi)]; simp [hi]
    have hnp : (potentialShape v.len).1 = v.len := by rcases hv with rfl | rfl <;> decide
    have hg : ¬ (s.depends &&& GRADIENT ≠ 0) := by rw [and_gradient, hd]; simp
    rw [xcfunEval_potential hs hm, evalPotential, evalPotentialLda_ok hR (len_pos v) junk s (by rw [hnp]; exact ho),
      Outcome.ok_bind, if_neg hg, splice_zero, resPot_lda s hv x]
    simp [Nat.add_comm, pure]

/-- The entries of C19 are the exact derivatives (with C16). -/
theorem C19_lda_potential_exact (s : State ℝ) {v : Vars} (hv : v = .A_B ∨ v = .N) (hs : s.vars = some v)
    (hm : s.mode = POTENTIAL) (hd : s.depends.testBit 1 = false) (x : ℕ → ℝ) (hx : RegularAt s v x)
    (rest output : List ℝ) (junk : Junk ℝ) (ho : 1 + v.len ≤ output.length) :
    xcfunEval codeKernel junk s ((List.range v.len).map x ++ rest) output = .ok
      (energyAt s v x :: (List.range v.len).map (fun i => pderiv i (energyAt s v) x)
        ++ output.drop (1 + v.len)) := by
  have hsup : DV.reads v ≠ none := by rcases hv with rfl | rfl <;> simp [DV.reads]
  have hR : Ready codeKernel v ((List.range v.len).map x ++ rest) x := by
    refine ⟨codeKernel_local, Option.ne_none_iff_exists'.mp hsup, len_le v, fun i hi => ?_⟩
    rw [List.getElem?_append_left (by simpa using hi)]; simp [hi]
  have hnp : (potentialShape v.len).1 = v.len := by rcases hv with rfl | rfl <;> decide
  have hg : ¬ (s.depends &&& GRADIENT ≠ 0) := by rw [and_gradient, hd]; simp
  rw [xcfunEval_potential hs hm, evalPotential, evalPotentialLda_ok hR (len_pos v) junk s (by rw [hnp]; exact ho),
    Outcome.ok_bind, if_neg hg, splice_zero, resPot_lda s hv x]
  have hF : energyAt s v = fun ρ => (sumExpr s v).evalR ρ := by
    funext ρ; exact (energyR_eq s v ρ).symm
  have : (List.range v.len).map (D1 s v x) = (List.range v.len).map (fun i => pderiv i (energyAt s v) x) := by
    refine List.map_congr_left fun i hi => ?_
    rw [hF]; exact coef1_pderiv (sumExpr_reg hx) (by simpa using hi)
  rw [this, energyR_eq]
  simp [Nat.add_comm, pure]

/-- `xcfun_output_length` promises three entries for `XC_N`; potential mode writes only two: the third one
keeps the caller's value. -/
theorem C19_closed_shell_output_length (s : State ℝ) (hs : s.vars = some .N) (hm : s.mode = POTENTIAL)
    (ho : s.order ≠ -1) (hd : s.depends.testBit 1 = false) (n a b c : ℝ) (junk : Junk ℝ) :
    outputLength s = .ok 3 ∧
      ∃ e p, xcfunEval codeKernel junk s [n] [a, b, c] = .ok [e, p, c] := by
  constructor
  · have h1 : ¬ (POTENTIAL = MODE_UNSET) := by decide
    have h2 : ¬ (POTENTIAL = PARTIAL_DERIVATIVES) := by decide
    simp [outputLength, hs, hm, ho, h1, h2]
  · obtain ⟨P, hP, -, h⟩ := C19_lda_potential s (Or.inr rfl) hs hm hd (fun _ => n)
    have h := h [] [a, b, c] junk (by simp [show Vars.len .N = 1 by decide])
    obtain ⟨e, p, rfl⟩ : ∃ e p, P = [e, p] := by
      match P, hP with
      | [e, p], _ => exact ⟨e, p, rfl⟩
    exact ⟨e, p, h⟩

/-- Slater exchange in potential mode. -/
example : ∃ e va vb : ℝ, xcfunEval codeKernel none
    { sampleState 1 POTENTIAL .A_B with active := [0], depends := 1 } [1, 2] [0, 0, 0] = .ok [e, va, vb] := by
  obtain ⟨P, hP, -, h⟩ := C19_lda_potential { sampleState 1 POTENTIAL .A_B with active := [0], depends := 1 }
    (Or.inl rfl) rfl rfl (by decide) (fun i => i + 1)
  match P, hP with
  | [e, va, vb], _ =>
    refine ⟨e, va, vb, ?_⟩
    have := h [] [0, 0, 0] none (by decide)
    rw [← show _ = ([1, 2] : List ℝ) from (by norm_num [show Vars.len .A_B = 2 by decide, List.range_succ] :
      (List.range (Vars.len .A_B)).map (fun i : ℕ => (i : ℝ) + 1) ++ [] = [1, 2])]
    exact this

end XCFun.Props
