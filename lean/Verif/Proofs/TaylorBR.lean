/-
`BR_taylor` of brx.cpp on the expansions of taylor.hpp.
-/
import Verif.Proofs.TaylorFuns
import Verif.Proofs.BRTaylor

namespace XCFun.Tay
open XCFun Spec Polymul Filter Topology
open scoped Nat ContDiff

/-! ### Coefficients of a function of a series -/

/-- The Taylor coefficients of `B` of a series. -/
noncomputable def coefOf (B : ℝ → ℝ) (D : ℕ) (p : List ℝ) (k : ℕ) : ℝ := iteratedDeriv k (fun s => B (MvPolynomial.eval (fun _ => s) (polyOf 1 D p))) 0 / k !

theorem pow_top {W V : MvPolynomial ℕ ℝ} {i : ℕ} (hW : W.coeff 0 = 0) (hV : V.coeff 0 = 0) (h : SameTo i W V) (j : ℕ) : SameTo (i + 1) (W ^ (j + 2)) (V ^ (j + 2)) := by
  have key : ∀ j, SameTo i (W ^ (j + 1)) (V ^ (j + 1)) := fun j => by
    induction j with
    | zero => simpa using h
    | succ j ih => rw [pow_succ, pow_succ V]; exact ih.mul h
  have zero : ∀ j, SameTo 0 (W ^ (j + 1)) 0 := fun j => by
    refine same_zero ?_
    rw [← MvPolynomial.constantCoeff_eq, map_pow, MvPolynomial.constantCoeff_eq, hW, zero_pow j.succ_ne_zero]
  rw [same_sub, show W ^ (j + 2) - V ^ (j + 2) = W ^ (j + 1) * (W - V) + (W ^ (j + 1) - V ^ (j + 1)) * V by ring]
  have a1 := same_order (zero j) (same_sub.1 h)
  have a2 := same_order (same_sub.1 (key j)) (same_zero hV)
  rw [zero_add] at a1
  rw [add_zero] at a2
  have := a1.add a2
  rwa [add_zero] at this

theorem compSum_top {c : ℕ → ℝ} {D i : ℕ} (hD : 1 ≤ D) {P Q : MvPolynomial ℕ ℝ} (h : SameTo i P Q) : SameTo (i + 1) (compSum c D P - compSum c D Q) (MvPolynomial.C (c 1) * (P - Q)) := by
  have h0 : P.coeff 0 = Q.coeff 0 := h 0 (by simp)
  set W := P - MvPolynomial.C (P.coeff 0) with hW
  set V := Q - MvPolynomial.C (Q.coeff 0) with hV
  have w0 : W.coeff 0 = 0 := by rw [hW, MvPolynomial.coeff_sub, MvPolynomial.coeff_zero_C, sub_self]
  have v0 : V.coeff 0 = 0 := by rw [hV, MvPolynomial.coeff_sub, MvPolynomial.coeff_zero_C, sub_self]
  have hWV : SameTo i W V := fun m hm => by rw [hW, hV, h0, MvPolynomial.coeff_sub, MvPolynomial.coeff_sub, h m hm]
  obtain ⟨d, rfl⟩ : ∃ d, D = d + 1 := ⟨D - 1, by omega⟩
  have e : ∀ X : MvPolynomial ℕ ℝ, ∑ j ∈ Finset.range (d + 1 + 1), MvPolynomial.C (c j) * X ^ j =
      ∑ j ∈ Finset.range d, MvPolynomial.C (c (j + 2)) * X ^ (j + 2) + MvPolynomial.C (c 1) * X + MvPolynomial.C (c 0) := fun X => by
    rw [Finset.sum_range_succ', Finset.sum_range_succ', zero_add, pow_one, pow_zero, mul_one]
  rw [compSum, compSum, ← hW, ← hV, e, e, same_sub]
  have e2 : P - Q = W - V := by rw [hW, hV, h0]; ring
  rw [e2]
  have e3 : ∀ A B : MvPolynomial ℕ ℝ, A + MvPolynomial.C (c 1) * W + MvPolynomial.C (c 0) - (B + MvPolynomial.C (c 1) * V + MvPolynomial.C (c 0)) - MvPolynomial.C (c 1) * (W - V) = A - B :=
    fun A B => by ring
  rw [e3, ← same_sub]
  intro m hm
  rw [MvPolynomial.coeff_sum, MvPolynomial.coeff_sum]
  exact Finset.sum_congr rfl fun j _ => (SameTo.refl (i + 1) (MvPolynomial.C (c (j + 2)))).mul (pow_top w0 v0 hWV j) m hm

theorem lines_eval (P : MvPolynomial ℕ ℝ) (s : ℝ) : MvPolynomial.eval (fun _ => s) P = (line (fun _ => 1) P).eval s := by
  rw [← eval_line]; simp

theorem coefOf_eq {B : ℝ → ℝ} {D : ℕ} {p : List ℝ} (hp : Fit 1 D p) (hB : ContDiffAt ℝ D B (at' p 0)) {c : ℕ → ℝ} (hc : IsTaylor B (at' p 0) D c) {k : ℕ} (hk : k ≤ D) :
    coefOf B D p k = (line (fun _ => 1) (compSum c D (polyOf 1 D p))).coeff k := by
  have h := compSum_expands (P := polyOf 1 D p) (N := D) (f := B) (c := c) (by rw [coeff_zero hp.ge]; exact hB) (by rw [coeff_zero hp.ge]; exact hc) (fun _ => 1) k hk
  simp only [eval_line] at h
  simp only [coefOf, lines_eval]
  rw [← h]
  rw [iteratedDeriv_poly_zero]
  have : (k ! : ℝ) ≠ 0 := by exact_mod_cast k.factorial_ne_zero
  field_simp

/-- The highest coefficient enters linearly. -/
theorem coefOf_top {B : ℝ → ℝ} {D : ℕ} {p q : List ℝ} (hp : Fit 1 D p) (hq : Fit 1 D q) (hB : ContDiffAt ℝ D B (at' p 0)) {i : ℕ} (hi : i + 1 ≤ D) (h : ∀ j ≤ i, at' p j = at' q j) :
    coefOf B D p (i + 1) - coefOf B D q (i + 1) = deriv B (at' p 0) * (at' p (i + 1) - at' q (i + 1)) := by
  have h0 := h 0 (Nat.zero_le _)
  set c : ℕ → ℝ := fun k => iteratedDeriv k B (at' p 0) / (k ! : ℝ)
  have hc : IsTaylor B (at' p 0) D c := fun k _ => rfl
  rw [coefOf_eq hp hB hc hi, coefOf_eq hq (h0 ▸ hB) (h0 ▸ hc) hi, ← Polynomial.coeff_sub, ← map_sub]
  have hs : SameTo i (polyOf 1 D p) (polyOf 1 D q) := by
    have e : ∀ j ≤ D, at' q j = at' q j := fun _ _ => rfl
    have s1 := (ser_same hp (F := at' p) (fun _ _ => rfl) (K := D + 1) (by omega))
    have s2 := (ser_same hq (F := at' q) (fun _ _ => rfl) (K := D + 1) (by omega))
    refine (s1.mono (by omega)).trans (SameTo.trans ?_ (s2.mono (by omega)).symm)
    intro m hm
    rw [ser, ser, MvPolynomial.coeff_sum, MvPolynomial.coeff_sum]
    refine Finset.sum_congr rfl fun j _ => ?_
    rw [MvPolynomial.coeff_monomial, MvPolynomial.coeff_monomial]
    split
    · rename_i he
      rw [← he, Finsupp.degree_single] at hm
      rw [h j hm]
    · rfl
  rw [line_same (compSum_top (c := c) (by omega) hs) _ le_rfl, map_mul, map_sub]
  have eC : line (fun _ => 1) (MvPolynomial.C (c 1)) = Polynomial.C (c 1) := by simp [line]
  rw [eC, Polynomial.coeff_C_mul, Polynomial.coeff_sub, line_uni (by rw [fit_one.1 hp]) hi, line_uni (by rw [fit_one.1 hq]) hi]
  congr 1
  simp [c, iteratedDeriv_one]

/-- The Taylor coefficients of an inverse function solve the equation. -/
theorem coefOf_inverse {B g : ℝ → ℝ} {D : ℕ} {z : ℝ} (hg : ContDiffAt ℝ D g z) (hB : ContDiffAt ℝ D B (g z)) (h : ∀ᶠ y in 𝓝 z, B (g y) = y) {p : List ℝ} (hp : Fit 1 D p) (hT : IsTaylor g z D (at' p))
    {k : ℕ} (hk : k ≤ D) : coefOf B D p k = if k = 0 then z else if k = 1 then 1 else 0 := by
  have e0 : at' p 0 = g z := by have := hT 0 (Nat.zero_le _); simpa using this
  have hz : (fun s : ℝ => z + s) 0 = z := add_zero z
  have hin : ∀ j ≤ D, iteratedDeriv j (fun s => MvPolynomial.eval (fun _ => s) (polyOf 1 D p)) 0 = iteratedDeriv j (fun s => g (z + s)) 0 := fun j hj => by
    have a1 := congrFun (iteratedDeriv_comp_const_add (n := j) (f := g) (s := z)) 0
    rw [add_zero] at a1
    rw [a1]
    simp only [lines_eval]
    rw [iteratedDeriv_poly_zero, line_uni (by rw [fit_one.1 hp]) hj, hT j hj]
    have : (j ! : ℝ) ≠ 0 := by exact_mod_cast j.factorial_ne_zero
    field_simp
  have hv : MvPolynomial.eval (fun _ => (0 : ℝ)) (polyOf 1 D p) = g z := by
    have := hin 0 (Nat.zero_le _)
    simpa using this
  have e : iteratedDeriv k (fun s => B (MvPolynomial.eval (fun _ => s) (polyOf 1 D p))) 0 = iteratedDeriv k (fun s => B (g (z + s))) 0 := by
    refine comp_inner (f := B) (p := fun s => MvPolynomial.eval (fun _ => s) (polyOf 1 D p)) (q := fun s => g (z + s)) ?_ ?_ ?_ hin hk
    · rw [hv]; exact hB
    · simp only [lines_eval]; exact (poly_contDiff _ _).contDiffAt
    · refine ContDiffAt.comp (0 : ℝ) (g := g) ?_ (by fun_prop)
      rw [add_zero]; exact hg
  have e2 : iteratedDeriv k (fun s => B (g (z + s))) 0 = iteratedDeriv k (fun s => z + s) 0 := by
    refine EventuallyEq.iteratedDeriv_eq k ?_
    have : Tendsto (fun s : ℝ => z + s) (𝓝 0) (𝓝 z) := by
      have : Continuous fun s : ℝ => z + s := by fun_prop
      simpa using this.tendsto 0
    exact this.eventually h
  rw [coefOf, e, e2]
  have e3 := congrFun (iteratedDeriv_comp_const_add (n := k) (f := fun y : ℝ => y) (s := z)) 0
  rw [add_zero] at e3
  rw [e3]
  match k with
  | 0 => simp
  | 1 => simp
  | k + 2 =>
    rw [iteratedDeriv_succ', show deriv (fun y : ℝ => y) = fun _ => 1 from funext fun y => deriv_id y, iteratedDeriv_const, if_neg (by omega)]
    simp

/-! ### brx.cpp -/

theorem scalarMul_run {n N : ℕ} (u : ℕ → ℝ) {t : List ℝ} (ht : Fit n N t) (x : ℝ) : scalarMul u n N x t = .ok ((List.range (L n N)).map fun i => x * at' t i) := by
  have hf := fit_fresh u n N
  have := fill (fun i => x * at' t i) (body := fun i tmp => do
    let y ← rdBuf t i
    wrBuf tmp i (x * y)) (L n N) 0 (fresh u (polylen n N)) (by rw [hf]; omega) (by omega) (by
      intro i t' _ hi _ _
      rw [hf] at hi
      rw [rd_at (by rw [ht]; exact hi), Outcome.ok_bind])
  rw [hf] at this
  rw [scalarMul]
  rw [polylen_nat] at this ⊢
  exact this

theorem brZ_run (u : ℕ → ℝ) {D : ℕ} {x : List ℝ} (hx : Fit 1 D x) (h0 : at' x 0 ≠ 0) : ∃ out, brZ u D x = .ok out ∧ Fit 1 D out ∧ ∀ k ≤ D, at' out k = coefOf holeCurve D x k := by
  obtain ⟨a, a1, a2, a3⟩ := subScalar_run (n := 0) hx 2
  obtain ⟨b, b1, b2, b3⟩ := div_run u (n := 0) a2 hx h0
  have hc : Fit 1 D ((List.range (L 1 D)).map fun i => 2 / 3 * at' x i) := fit_range _ _ _
  obtain ⟨d, d1, d2, d3⟩ := exp_gives u (n := 0) hc
  obtain ⟨out, o1, o2, o3⟩ := mul_run u (n := 0) b2 d2
  have hP : (polyOf 1 D x).coeff 0 = at' x 0 := coeff_zero hx.ge
  have he : Expands D holeCurve (polyOf 1 D x) (polyOf 1 D out) := by
    have q : Expands D (fun x => (x - 2) / x) (polyOf 1 D x) (polyOf 1 D b) :=
      expands_div (f := fun x => x - 2) (g := fun x => x) (F := polyOf 1 D a) (G := polyOf 1 D x) (by fun_prop) (by fun_prop) (by rw [hP]; exact h0) (fun v k _ => by rw [a3]; simp)
        (fun v k _ => rfl) b3
    have s : Expands D (fun x => 2 / 3 * x) (polyOf 1 D x) (polyOf 1 D ((List.range (L 1 D)).map fun i => 2 / 3 * at' x i)) := fun v k _ => by
      rw [polyOf_smul hx hc (2 / 3) fun i hi => by rw [at_map hi, mul_comm]]; simp
    have e : Expands D (fun x => Real.exp (2 / 3 * x)) (polyOf 1 D x) (polyOf 1 D d) := expands_comp (by fun_prop) Real.contDiff_exp.contDiffAt s d3
    have := expands_mul (by rw [hP]; exact ContDiffAt.div (by fun_prop) (by fun_prop) h0) (by fun_prop) q e
    have h := expands_same this o3
    have hf : (fun x => (x - 2) / x * Real.exp (2 / 3 * x)) = holeCurve := funext fun x => by rw [holeCurve]; congr 2; ring
    rwa [hf] at h
  refine ⟨out, ?_, o2, expands_coeff (by rw [fit_one.1 o2]) he⟩
  have hsm := scalarMul_run u hx (2 / 3)
  rw [brZ, a1, Outcome.ok_bind, b1, Outcome.ok_bind, hsm, Outcome.ok_bind, d1, Outcome.ok_bind, o1]

theorem brTaylor_run (u : ℕ → ℝ) {D : ℕ} (hD : 1 ≤ D) (z : ℝ) : brTaylor u D z = .ok ((List.range (D + 1)).map fun k => BR.rootCoef k (holeCurve (brSolve z))) := by
  have hx := BR.brSolve_pos z
  set x := brSolve z with hxd
  set ζ := holeCurve x with hζ
  set c : ℕ → ℝ := fun k => BR.rootCoef k ζ with hc
  have hroot : holeRoot ζ = x := BR.root_curve hx
  have c0 : c 0 = x := by simp [hc, BR.rootCoef, hroot]
  set C := (List.range (D + 1)).map c with hC
  have fC : Fit 1 D C := fit_one.2 (by simp [hC])
  have atC : ∀ k ≤ D, at' C k = c k := fun k hk => by rw [hC, at_map (by omega)]
  have full : ∀ k ≤ D, coefOf holeCurve D C k = if k = 0 then ζ else if k = 1 then 1 else 0 := fun k hk =>
    coefOf_inverse (g := holeRoot) (smooth (BR.root_smooth ζ)) (by rw [hroot]; exact smooth (BR.curve_smooth hx)) (Eventually.of_forall BR.curve_root) fC (fun k hk => by rw [atC k hk]; rfl) hk
  have smB : ∀ p : List ℝ, at' p 0 = x → ContDiffAt ℝ D holeCurve (at' p 0) := fun p hp => by rw [hp]; exact smooth (BR.curve_smooth hx)
  set σ := deriv holeCurve x with hσ
  -- the first array
  obtain ⟨t0, e1, e2, e3⟩ := assign_run (fresh_one u (N := D)) 0
  have l0 : t0.length = D + 1 := fit_one.1 e2
  set t1 := (t0.set 0 x).set 1 1 with ht1
  have l1 : t1.length = D + 1 := by rw [ht1, List.length_set, List.length_set, l0]
  have at1 : ∀ k, at' t1 k = if k = 0 then x else if k = 1 then 1 else 0 := fun k => by
    rw [ht1, at_set _ (by rw [List.length_set]; omega), at_set _ (by omega), e3]
    split_ifs <;> first | rfl | omega
  obtain ⟨f1, g1, g2, g3⟩ := brZ_run u (x := t1) (fit_one.2 l1) (by rw [at1]; simpa using hx.ne')
  -- a constant array
  have lz : (t0.set 0 x).length = D + 1 := by rw [List.length_set, l0]
  have atz : ∀ k, at' (t0.set 0 x) k = if k = 0 then x else 0 := fun k => by
    rw [at_set _ (by omega), e3]; split_ifs <;> rfl
  have hslope : coefOf holeCurve D t1 1 = σ ∧ σ * c 1 = 1 := by
    have k0 : coefOf holeCurve D (t0.set 0 x) 1 = 0 := by
      have : polyOf 1 D (t0.set 0 x) = MvPolynomial.C x := polyOf_const (fit_one.2 lz) atz
      simp only [coefOf, this, MvPolynomial.eval_C, iteratedDeriv_one]
      simp
    have a1 := coefOf_top (p := t1) (q := t0.set 0 x) (B := holeCurve) (i := 0) (fit_one.2 l1) (fit_one.2 lz) (smB _ (by rw [at1]; rfl)) hD (fun j hj => by
      rw [at1, atz, if_pos (by omega), if_pos (by omega)])
    have a2 := coefOf_top (p := C) (q := t0.set 0 x) (B := holeCurve) (i := 0) fC (fit_one.2 lz) (smB _ (by rw [atC 0 (Nat.zero_le _), c0])) hD (fun j hj => by
      rw [atC j (by omega), atz, if_pos (by omega), show j = 0 by omega, c0])
    rw [zero_add, k0, sub_zero, at1, at1, atz] at a1
    rw [zero_add, k0, sub_zero, full 1 hD, atC 0 (Nat.zero_le _), atC 1 hD, c0, atz] at a2
    simp only [if_true, one_ne_zero, if_false, sub_zero, mul_one] at a1 a2
    exact ⟨a1, a2.symm⟩
  obtain ⟨s1, s2⟩ := hslope
  have σ0 : σ ≠ 0 := fun h => by rw [h, zero_mul] at s2; exact zero_ne_one s2
  have c1 : 1 / σ = c 1 := by rw [div_eq_iff σ0, mul_comm, s2]
  -- the loop
  obtain ⟨out, o1, o2, o3⟩ := forLoop_inv (body := fun i t => do
    let f ← brZ u D t
    let fi ← rdBuf f i
    let t1 ← rdBuf t 1
    wrBuf t i (-fi * t1)) (fun i t => t.length = D + 1 ∧ ∀ k, at' t k = if k < i then c k else 0) (D - 1) 2 (t1.set 1 (1 / σ)) ⟨by rw [List.length_set, l1], fun k => by
      rw [at_set _ (by omega), at1, c1]
      match k with
      | 0 => simp [c0]
      | 1 => simp
      | k + 2 => simp⟩ (by
      rintro i t hi hi' ⟨hl, ht⟩
      have ht0 : at' t 0 = x := by rw [ht, if_pos (by omega), c0]
      obtain ⟨f, b1, b2, b3⟩ := brZ_run u (x := t) (fit_one.2 hl) (by rw [ht0]; exact hx.ne')
      have hfl : f.length = D + 1 := fit_one.1 b2
      obtain ⟨j, rfl⟩ : ∃ j, i = j + 1 := ⟨i - 1, by omega⟩
      have top := coefOf_top (p := t) (q := C) (B := holeCurve) (i := j) (fit_one.2 hl) fC (smB _ ht0) (by omega) (fun k hk => by rw [ht, if_pos (by omega), atC k (by omega)])
      rw [full (j + 1) (by omega), if_neg (by omega), if_neg (by omega), sub_zero, ht0, ← hσ, ht (j + 1), if_neg (lt_irrefl _), zero_sub, atC (j + 1) (by omega)] at top
      refine ⟨t.set (j + 1) (c (j + 1)), ?_, by rw [List.length_set, hl], fun k => ?_⟩
      · rw [b1, Outcome.ok_bind, rd_at (by omega : j + 1 < f.length), Outcome.ok_bind, rd_at (by omega : 1 < t.length), Outcome.ok_bind, b3 (j + 1) (by omega), top, ht 1, if_pos (by omega),
          wrBuf_ok (by omega), show -(σ * -c (j + 1)) * c 1 = σ * c 1 * c (j + 1) by ring, s2, one_mul]
      · rw [at_set _ (by omega), ht]
        by_cases hk : k = j + 1
        · rw [if_pos hk, if_pos (by omega), hk]
        · rw [if_neg hk]; exact if_congr (by omega) rfl rfl)
  have hout : out = (List.range (D + 1)).map c := by
    rw [← o2]; exact list_eq fun i hi => by rw [o3, if_pos (by omega)]
  rw [brTaylor, e1, Outcome.ok_bind, wrBuf_ok (by omega), Outcome.ok_bind, wrBuf_ok (by rw [lz]; omega), Outcome.ok_bind, ← ht1, g1, Outcome.ok_bind,
    rd_at (by rw [fit_one.1 g2]; omega), Outcome.ok_bind, g3 1 hD, s1, wrBuf_ok (by omega), Outcome.ok_bind, o1, hout]

end XCFun.Tay
