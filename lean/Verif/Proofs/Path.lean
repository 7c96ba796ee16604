/-
Contracted mode: the multilinear path and its jet.
-/
import Mathlib.Algebra.BigOperators.Group.List.Basic
import Verif.Proofs.Partials

namespace XCFun
open Spec Filter Topology
open scoped ContDiff

/-! ### Evaluation of a multilinear expansion -/

theorem bits_succ_low (N S : ℕ) (h : S < 2 ^ N) : bits (N + 1) S = bits N S := by
  simp only [bits, List.range_succ, List.filter_append]
  have : S.testBit N = false := Nat.testBit_lt_two_pow h
  simp [this]

theorem bits_succ_high (N S : ℕ) (h : S < 2 ^ N) : bits (N + 1) (2 ^ N + S) = bits N S ++ [N] := by
  simp only [bits, List.range_succ, List.filter_append]
  have h1 : (2 ^ N + S).testBit N = true := by
    rw [Nat.testBit_two_pow_add_eq, Nat.testBit_lt_two_pow h]; rfl
  have h2 : ∀ k ∈ List.range N, (2 ^ N + S).testBit k = S.testBit k := by
    intro k hk
    rw [Nat.testBit_two_pow_add_gt (by simpa using hk)]
  rw [List.filter_congr h2]
  simp [h1]

theorem eval_eq_sum : ∀ {N : ℕ} (t : CT ℝ N) (e : ℕ → ℝ),
    t.eval e = ((List.range (2 ^ N)).map fun S => t.get S * ((bits N S).map e).prod).sum
  | 0, .leaf c, e => by simp [CT.eval, CT.get, bits]
  | N + 1, .node lo hi, e => by
    rw [CT.eval, eval_eq_sum lo, eval_eq_sum hi, pow_succ, Nat.mul_two, List.range_add,
      List.map_append, List.sum_append, List.map_map]
    congr 1
    · refine congrArg _ (List.map_congr_left fun S hS => ?_)
      have hS : S < 2 ^ N := by simpa using hS
      rw [bits_succ_low N S hS]
      simp [CT.get, hS]
    · rw [← List.sum_map_mul_left]
      refine congrArg _ (List.map_congr_left fun S hS => ?_)
      have hS : S < 2 ^ N := by simpa using hS
      simp only [Function.comp_apply, bits_succ_high N S hS, CT.get]
      have : ¬ 2 ^ N + S < 2 ^ N := by omega
      simp [this]
      ring

theorem pathAt_eq (N : ℕ) (y e : ℕ → ℝ) (i : ℕ) : pathAt N y e i = (seedC N y i).eval e := by
  rw [eval_eq_sum, pathAt]
  refine congrArg _ (List.map_congr_left fun S hS => ?_)
  rw [seedC, CT.get_ofFn _ (by simpa using hS)]

/-! ### The jet of an expansion is the expansion -/

section
variable {N : ℕ}

theorem contDiff_eval {n : ℕ} (t : CT ℝ n) :
    ContDiff ℝ ∞ (fun y : Fin N → ℝ => t.eval (ext N (fun _ => 0) y)) := by
  induction t with
  | leaf c => exact contDiff_const
  | node lo hi ihl ihh =>
    simp only [CT.eval]
    exact ihl.add ((contDiff_ext N _ _).mul ihh)

theorem jet_coord_zero {n m : ℕ} (hm : n ≤ m) :
    jet (fun k => udir N k) (res N (fun _ => 0)) n (fun y : Fin N → ℝ => ext N (fun _ => 0) y m) = 0 := by
  have hz : ∀ k < n, dirDeriv (udir N k) (fun y : Fin N → ℝ => ext N (fun _ => 0) y m) = fun _ => 0 := by
    intro k hk
    rw [dirDeriv_ext]
    funext _
    have : ¬ k = m := by omega
    simp only [udir, this, if_false]
    split <;> rfl
  have h0 : ext N (fun _ => (0 : ℝ)) (res N fun _ => 0) m = 0 := congrFun (ext_res N _) m
  clear hm
  induction n with
  | zero => simp only [jet, h0]; rfl
  | succ n ih =>
    simp only [jet]
    rw [ih fun k hk => hz k (by omega), hz n (by omega), jet_const]; rfl

theorem dirDeriv_eval_other {n m : ℕ} (t : CT ℝ n) (hm : n ≤ m) :
    dirDeriv (udir N m) (fun y : Fin N → ℝ => t.eval (ext N (fun _ => 0) y)) = fun _ => 0 := by
  induction t with
  | leaf c => exact dirDeriv_const N _ c
  | @node n lo hi ihl ihh =>
    funext y
    have hl := ihl (by omega)
    have hh := ihh (by omega)
    have hl' := congrFun hl y
    have hh' := congrFun hh y
    have hc : dirDeriv (udir N m) (fun y : Fin N → ℝ => ext N (fun _ => 0) y n) y = 0 := by
      rw [dirDeriv_ext]
      have : ¬ m = n := by omega
      simp only [udir, this, if_false]
      split <;> rfl
    have d1 := ((contDiff_eval (N := N) lo).differentiable (by simp)) y
    have d2 := ((contDiff_eval (N := N) hi).differentiable (by simp)) y
    have d3 := ((contDiff_ext N (fun _ => 0) n).differentiable (by simp)) y
    simp only [dirDeriv] at hl' hh' hc ⊢
    simp only [CT.eval]
    have := (d1.hasFDerivAt.add (d3.hasFDerivAt.mul d2.hasFDerivAt)).fderiv
    rw [show (fun y : Fin N → ℝ => lo.eval (ext N (fun _ => 0) y) +
      ext N (fun _ => 0) y n * hi.eval (ext N (fun _ => 0) y)) = _ from rfl]
    erw [this]
    simp [hl', hh', hc]

theorem dirDeriv_eval_last {n : ℕ} (hn : n < N) (lo hi : CT ℝ n) :
    dirDeriv (udir N n) (fun y : Fin N → ℝ => (CT.node lo hi).eval (ext N (fun _ => 0) y)) =
      fun y => hi.eval (ext N (fun _ => 0) y) := by
  funext y
  have hl' := congrFun (dirDeriv_eval_other (N := N) lo le_rfl) y
  have hh' := congrFun (dirDeriv_eval_other (N := N) hi le_rfl) y
  have hc : dirDeriv (udir N n) (fun y : Fin N → ℝ => ext N (fun _ => 0) y n) y = 1 := by
    rw [dirDeriv_ext]
    simp [udir, hn]
  have d1 := ((contDiff_eval (N := N) lo).differentiable (by simp)) y
  have d2 := ((contDiff_eval (N := N) hi).differentiable (by simp)) y
  have d3 := ((contDiff_ext N (fun _ => 0) n).differentiable (by simp)) y
  simp only [dirDeriv] at hl' hh' hc ⊢
  simp only [CT.eval]
  have := (d1.hasFDerivAt.add (d3.hasFDerivAt.mul d2.hasFDerivAt)).fderiv
  erw [this]
  simp [hl', hh', hc]

theorem jet_eval {n : ℕ} (hn : n ≤ N) (t : CT ℝ n) :
    jet (fun k => udir N k) (res N (fun _ => 0)) n
      (fun y : Fin N → ℝ => t.eval (ext N (fun _ => 0) y)) = t := by
  induction t with
  | leaf c => rfl
  | @node n lo hi ihl ihh =>
    rw [jet, dirDeriv_eval_last (by omega), ihh (by omega)]
    congr 1
    have : (fun y : Fin N → ℝ => (CT.node lo hi).eval (ext N (fun _ => 0) y)) =
        fun y => lo.eval (ext N (fun _ => 0) y) +
          ext N (fun _ => 0) y n * hi.eval (ext N (fun _ => 0) y) := rfl
    rw [this]
    have h1 := (contDiff_eval (N := N) lo).contDiffAt (x := res N fun _ => 0)
    have h2 := (contDiff_eval (N := N) hi).contDiffAt (x := res N fun _ => 0)
    have h3 := (contDiff_ext N (fun _ => 0) n).contDiffAt (x := res N fun _ => 0)
    rw [jet_add h1 (h3.mul h2), jet_mul h3 h2, jet_coord_zero le_rfl, zero_mul, add_zero,
      ihl (by omega)]

/-- The coefficients of a jet are the iterated partial derivatives. -/
theorem jet_get_pderivs {n : ℕ} (hn : n ≤ N) {x : ℕ → ℝ} {f : (ℕ → ℝ) → ℝ}
    (h : ContDiffAt ℝ ∞ (fun y => f (ext N x y)) (res N x)) {S : ℕ} (hS : S < 2 ^ n) :
    (jet (fun k => udir N k) (res N x) n (fun y => f (ext N x y))).get S =
      pderivs (bits n S) f x := by
  induction n generalizing f S with
  | zero =>
    simp only [jet, CT.get, bits, List.range_zero, List.filter_nil, pderivs, List.foldr_nil, ext_res]
  | succ n ih =>
    simp only [jet, CT.get]
    by_cases hlt : S < 2 ^ n
    · rw [if_pos hlt, ih (by omega) h hlt, bits_succ_low n S hlt]
    · rw [if_neg hlt]
      obtain ⟨S', rfl⟩ : ∃ S', S = 2 ^ n + S' := ⟨S - 2 ^ n, by omega⟩
      have hS' : S' < 2 ^ n := by rw [pow_succ] at hS; omega
      rw [Nat.add_sub_cancel_left, bits_succ_high n S' hS',
        ← jet_congr (pderiv_near N x (by omega : n < N) h),
        ih (by omega) (pderiv_smooth N x (by omega) h) hS']
      simp [pderivs]

theorem energyOn_path {e : Expr ℕ} {N : ℕ} (hN : N ≤ 6) {y : ℕ → ℝ}
    (h : e.Reg (fun i => y (i * 2 ^ N))) {S : ℕ} (hS : S < 2 ^ N) :
    (e.evalCT (seedC N y)).get S =
      pderivs (bits N S) (fun t => e.evalR (pathAt N y t)) (fun _ => 0) := by
  have h0 : ∀ i, (seedC N y i).eval (fun _ => 0) = y (i * 2 ^ N) := by
    intro i
    have : ∀ {n : ℕ} (t : CT ℝ n), t.eval (fun _ => 0) = t.c0 := by
      intro n t
      induction t with
      | leaf c => rfl
      | node lo hi ihl ihh => simp [CT.eval, ihl, CT.c0]
    rw [this, CT.c0_eq_get, seedC, CT.get_ofFn _ (by positivity)]; rfl
  have hreg : e.Reg (fun i => (seedC N y i).eval (ext N (fun _ => 0) (res N fun _ => 0))) := by
    simp only [ext_res, h0]; exact h
  have sm := fun i => (contDiff_eval (N := N) (seedC N y i)).contDiffAt (x := res N fun _ => 0)
  have hj := Expr.evalCT_jet (N := N) hN (d := fun k => udir N k) (x := res N fun _ => 0)
    (fun i z => (seedC N y i).eval (ext N (fun _ => 0) z)) sm e hreg
  have hs := Expr.evalR_smooth (fun i z => (seedC N y i).eval (ext N (fun _ => 0) z)) sm e hreg
  simp only [jet_eval le_rfl] at hj
  rw [hj]
  have e2 : (fun t => e.evalR (pathAt N y t)) = fun t => e.evalR (fun i => (seedC N y i).eval t) := by
    funext t
    congr 1
    funext i
    exact pathAt_eq N y t i
  rw [e2]
  exact jet_get_pderivs (f := fun t => e.evalR (fun i => (seedC N y i).eval t)) le_rfl hs hS

end
end XCFun
