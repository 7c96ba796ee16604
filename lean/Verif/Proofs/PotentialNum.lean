/-
Numerical evaluation of potentials.
-/
import Verif.Proofs.BallTrig
import Verif.Proofs.Programs
import Verif.Props.Potential
import Verif.Props.Modes

namespace XCFun.Num
open XCFun Spec Props

/-! ## Density variables -/

namespace Dens

/-! Both densities with gradients and second derivatives. -/

noncomputable def bT : IE ℕ := .reg (.var 10)
noncomputable def nT : IE ℕ := a.add bT
noncomputable def sT : IE ℕ := a.sub bT
noncomputable def zetaT : IE ℕ := .mul (.prim .inv nT) sT
noncomputable def r_sT : IE ℕ :=
  .prim (.pow (.div (.nat 1) (.nat 3))) (.mul (.prim .inv (.mul (.mul nT (.lit (.nat 4))) (.lit .pi))) (.lit (.nat 3)))
noncomputable def n_m13T : IE ℕ := .prim (.pow (.div (.neg (.nat 1)) (.nat 3))) nT
noncomputable def b_43T : IE ℕ := .prim (.pow (.div (.nat 4) (.nat 3))) bT
noncomputable def gnnT : IE ℕ := .add (.add (dot 1 1) (.mul (.lit (.nat 2)) (dot 1 11))) (dot 11 11)
noncomputable def gssT : IE ℕ := .add (.sub (dot 1 1) (.mul (.lit (.nat 2)) (dot 1 11))) (dot 11 11)
noncomputable def gnsT : IE ℕ := .sub (dot 1 1) (dot 11 11)

/-- `XC_A_B_2ND_TAYLOR` without what is made of second derivatives. -/
noncomputable def codeABT : Codes := fun k =>
  Field.casesOn (motive := fun _ => Option (IE ℕ)) k (some a) (some bT) (some (dot 1 1)) (some (dot 1 11)) (some (dot 11 11)) (some nT) (some sT)
    (some gnnT) (some gnsT) (some gssT) none none none none none
    (some zetaT) (some r_sT) (some n_m13T) (some a_43) (some b_43T) none none fun _ => none

end Dens

open Dens in
theorem code_ABT : CodeOf .A_B_2ND_TAYLOR Dens.codeABT := by
  intro par f hf k e he
  simp only [densvars, DV.select, DV.selectFrom, Option.map_some, Option.some.injEq] at hf
  subst hf
  cases k <;> first
    | (cases he; done)
    | (cases he; rfl)
    | (cases he
       simp only [Dens.a, Dens.bT, Dens.nT, Dens.r_sT, Dens.n_m13T, IE.den, IPrim.den, RE.den, Nat.cast_ofNat, Nat.cast_one]
       rfl)

theorem code_NT : CodeOf .N_2ND_TAYLOR Dens.codeNX := by dens_code

/-! ## Points -/

/-- Entry `i` of a list of numbers known up to an error. -/
noncomputable def getQ (l : List Q) (i : ℕ) : Q := Option.casesOn (l[i]?) .bad fun q => q

theorem near_getQ {l : List Q} {x : List ℝ} (h : List.Forall₂ Near l x) (i : ℕ) : Near (getQ l i) (x.getD i 0) := by
  unfold getQ
  induction h generalizing i with
  | nil => exact near_bad
  | cons a _ ih =>
    cases i with
    | zero => exact a
    | succ i => exact ih i

section
variable {s : State ℝ} {v : Vars} {c : Codes} {l : List (Dec × IE Field)} {q : List Q} {x : List ℝ}

/-- The energy. -/
noncomputable def energyQ (c : Codes) (q : List Q) (l : List (Dec × IE Field)) : Q := (sumT c 0 (fun k => .leaf (getQ q k)) l).last

theorem near_energyQ (hc : CodeOf v c) (hv : DV.reads v ≠ none) (hl : Terms s l) (h : List.Forall₂ Near q x) :
    Near (energyQ c q l) (energyAt s v fun k => x.getD k 0) := by
  have := nearT_last (nearT_energy hc hv hl (N := 0) (by omega) (ρ := fun k => .leaf (getQ q k)) (σ := fun i => CT.const 0 (x.getD i 0))
    fun k => .leaf (near_getQ h k))
  rw [energyAt_energyOn] at this
  exact this

/-- 1 at `i`. -/
noncomputable def unitQ (i l : ℕ) : Q := Bool.rec .z (ofDec (1, 0)) (Nat.beq i l)

theorem near_unitQ (i l : ℕ) : Near (unitQ i l) (unit (some i) l : ℝ) := by
  unfold unitQ unit
  by_cases h : i = l
  · subst h
    rw [if_pos rfl, show Nat.beq i i = true by simp]
    have := near_ofDec (1, 0)
    simpa [lit, XCFun.Lit.lit] using this
  · rw [if_neg (by simpa using h), show Nat.beq i l = false from Bool.eq_false_iff.2 fun hb => h (Nat.eq_of_beq_eq_true hb)]
    exact near_z.2 rfl

/-- The derivative with respect to input `i`. -/
noncomputable def derivQ (c : Codes) (q : List Q) (l : List (Dec × IE Field)) (i : ℕ) : Q :=
  (sumT c 1 (fun k => .node (.leaf (getQ q k)) (.leaf (unitQ i k))) l).last

theorem near_derivQ (hc : CodeOf v c) (hv : DV.reads v ≠ none) (hl : Terms s l) (h : List.Forall₂ Near q x) (i : ℕ) :
    Near (derivQ c q l i) (D1 s v (fun k => x.getD k 0) i) := by
  have := nearT_last (nearT_energy hc hv hl (N := 1) (by omega) (ρ := fun k => .node (.leaf (getQ q k)) (.leaf (unitQ i k)))
    (σ := seed1 (fun k => x.getD k 0) (some i)) fun k => .node (.leaf (near_getQ h k)) (.leaf (near_unitQ i k)))
  rw [← sumExpr_evalCT] at this
  exact this

/-- Inputs for a direction with the positions `d` of the derivatives and the component `g` of a gradient. -/
noncomputable def dirT (q : List Q) (d g l : ℕ) : T := .node (.node (.leaf (getQ q l)) (.leaf (getQ q d))) (.node (.leaf (unitQ g l)) (.leaf .z))

theorem near_dirT (h : List.Forall₂ Near q x) (D : ℕ → ℝ) {d g l : ℕ} (hd : D l = x.getD d 0) :
    NearT (dirT q d g l) (seedG (fun k => x.getD k 0) D g l) :=
  .node (.node (.leaf (near_getQ h l)) (.leaf (hd ▸ near_getQ h d))) (.node (.leaf (near_unitQ g l)) (.leaf (near_z.2 rfl)))

/-- Inputs of one run of the restricted potential. -/
noncomputable def seedNT (q : List Q) (k : ℕ × ℕ × ℕ × ℕ) (g l : ℕ) : T := Bool.rec .bad (dirT q (dpos k l) g l) (Nat.blt l 4)

theorem near_seedNT (h : List.Forall₂ Near q x) (k : ℕ × ℕ × ℕ × ℕ) (g l : ℕ) : NearT (seedNT q k g l) (seedN (fun k => x.getD k 0) k g l) := by
  unfold seedNT seedN
  cases hl : Nat.blt l 4 with
  | false => exact .bad
  | true =>
    have : l < 4 := by simpa using hl
    rw [if_pos this]
    exact near_dirT h _ rfl

/-- Inputs of one run of the unrestricted potential. -/
noncomputable def seedABT (q : List Q) (k : ℕ × ℕ × ℕ × ℕ) (g l : ℕ) : T :=
  Bool.rec (Bool.rec .bad (Bool.rec .bad (dirT q (Nat.add (dpos k (Nat.sub l 10)) 10) g l) (Nat.blt l 14)) (Nat.ble 10 l)) (dirT q (dpos k l) g l) (Nat.blt l 4)

theorem near_seedABT (h : List.Forall₂ Near q x) (old : ℕ → CT ℝ 2) (k : ℕ × ℕ × ℕ × ℕ) (g l : ℕ) :
    NearT (seedABT q k g l) (seedAB (fun k => x.getD k 0) old k g l) := by
  unfold seedABT seedAB
  cases h4 : Nat.blt l 4 with
  | true =>
    have : l < 4 := by simpa using h4
    rw [if_pos this]
    exact near_dirT h _ rfl
  | false =>
    have h4' : ¬ l < 4 := fun hb => by rw [show Nat.blt l 4 = true by simpa using hb] at h4; exact absurd h4 (by decide)
    cases h10 : Nat.ble 10 l with
    | false => exact .bad
    | true =>
      have h10' : 10 ≤ l := by simpa using h10
      cases h14 : Nat.blt l 14 with
      | false => exact .bad
      | true =>
        have h14' : l < 14 := by simpa using h14
        rw [if_neg h4', if_neg (by omega), if_pos h14']
        exact near_dirT h _ rfl

theorem get_total3 (s : State ℝ) (v : Vars) (σ₁ σ₂ σ₃ : ℕ → CT ℝ 2) :
    (total codeKernel s v (total codeKernel s v (total codeKernel s v 0 σ₁) σ₂) σ₃).get 3 =
      (energyOn s v σ₁).get 3 + (energyOn s v σ₂).get 3 + (energyOn s v σ₃).get 3 := by
  rw [total_add, total_add s v (total codeKernel s v 0 σ₁), total_eq, total_eq, total_eq, sumExpr_evalCT, sumExpr_evalCT, sumExpr_evalCT, CT.get_add, CT.get_add]

/-- The divergence of the restricted potential. -/
noncomputable def divNQ (c : Codes) (q : List Q) (l : List (Dec × IE Field)) : Q :=
  ((sumT c 2 (seedNT q dirX 1) l).last.add (sumT c 2 (seedNT q dirY 2) l).last).add (sumT c 2 (seedNT q dirZ 3) l).last

theorem near_divNQ (hc : CodeOf v c) (hv : DV.reads v ≠ none) (hl : Terms s l) (h : List.Forall₂ Near q x) :
    Near (divNQ c q l) ((ggaN codeKernel s v fun k => x.getD k 0).get 3) := by
  unfold ggaN
  rw [get_total3]
  exact Q.near_add (Q.near_add (nearT_last (nearT_energy hc hv hl (by omega) (near_seedNT h dirX 1))) (nearT_last (nearT_energy hc hv hl (by omega) (near_seedNT h dirY 2))))
    (nearT_last (nearT_energy hc hv hl (by omega) (near_seedNT h dirZ 3)))

/-- The divergence of the unrestricted potential for spin `j`. -/
noncomputable def divABQ (c : Codes) (q : List Q) (l : List (Dec × IE Field)) (j : ℕ) : Q :=
  ((sumT c 2 (seedABT q dirX (Nat.add 1 (Nat.mul 10 j))) l).last.add (sumT c 2 (seedABT q dirY (Nat.add 2 (Nat.mul 10 j))) l).last).add
    (sumT c 2 (seedABT q dirZ (Nat.add 3 (Nat.mul 10 j))) l).last

theorem near_divABQ (hc : CodeOf v c) (hv : DV.reads v ≠ none) (hl : Terms s l) (h : List.Forall₂ Near q x) (old : ℕ → CT ℝ 2) (j : ℕ) :
    Near (divABQ c q l j) ((ggaAB codeKernel s v (fun k => x.getD k 0) old j).get 3) := by
  unfold ggaAB
  rw [get_total3]
  exact Q.near_add (Q.near_add (nearT_last (nearT_energy hc hv hl (by omega) (near_seedABT h old dirX _)))
    (nearT_last (nearT_energy hc hv hl (by omega) (near_seedABT h old dirY _)))) (nearT_last (nearT_energy hc hv hl (by omega) (near_seedABT h old dirZ _)))

/-! ## What potential mode returns -/

/-- Energy and potentials: without gradients, restricted, unrestricted. -/
noncomputable def potLda (s : State ℝ) (v : Vars) (x : ℕ → ℝ) : List ℝ := energyAt s v x :: (List.range v.len).map (D1 s v x)
noncomputable def potN (s : State ℝ) (x : ℕ → ℝ) : List ℝ :=
  [energyAt s .N_2ND_TAYLOR x, D1 s .N_2ND_TAYLOR x 0 - (ggaN codeKernel s .N_2ND_TAYLOR x).get 3]
noncomputable def potAB (s : State ℝ) (old : ℕ → CT ℝ 2) (x : ℕ → ℝ) : List ℝ :=
  [energyAt s .A_B_2ND_TAYLOR x, D1 s .A_B_2ND_TAYLOR x 0 - (ggaAB codeKernel s .A_B_2ND_TAYLOR x old 0).get 3,
    D1 s .A_B_2ND_TAYLOR x 10 - (ggaAB codeKernel s .A_B_2ND_TAYLOR x old 1).get 3]

theorem ready {v : Vars} (hv : DV.reads v ≠ none) (hl : v.len ≤ 20) (x : ℕ → ℝ) (rest : List ℝ) :
    Ready codeKernel v ((List.range v.len).map x ++ rest) x := by
  obtain ⟨sl, hs⟩ := Option.ne_none_iff_exists'.1 hv
  refine ⟨codeKernel_local, ⟨sl, hs⟩, hl, fun i hi => ?_⟩
  rw [List.getElem?_append_left (by simpa using hi)]; simp [hi]

theorem eval_potLda (hv : v = .A_B ∨ v = .N) (hvs : s.vars = some v) (hm : s.mode = POTENTIAL) (hd : s.depends &&& GRADIENT = 0) (x : ℕ → ℝ) (rest out : List ℝ)
    (junk : Junk ℝ) (ho : 3 ≤ out.length) :
    xcfunEval codeKernel junk s ((List.range v.len).map x ++ rest) out = .ok (potLda s v x ++ out.drop (potLda s v x).length) := by
  have hr : DV.reads v ≠ none := by rcases hv with rfl | rfl <;> decide
  have hl : v.len ≤ 20 ∧ 0 < v.len ∧ 1 + (potentialShape v.len).1 ≤ 3 := by rcases hv with rfl | rfl <;> decide
  rw [xcfunEval_potential hvs hm, evalPotential, evalPotentialLda_ok (ready hr hl.1 x rest) hl.2.1 junk s (by omega), Outcome.ok_bind,
    if_neg (by simpa using hd), splice_zero, resPot_lda s hv, energyR_eq]
  rfl

theorem eval_potN (hvs : s.vars = some .N_2ND_TAYLOR) (hm : s.mode = POTENTIAL) (hd : s.depends &&& GRADIENT ≠ 0) (x : ℕ → ℝ) (rest out : List ℝ)
    (junk : Junk ℝ) (ho : 3 ≤ out.length) :
    xcfunEval codeKernel junk s ((List.range (Vars.len .N_2ND_TAYLOR)).map x ++ rest) out = .ok (potN s x ++ out.drop 2) := by
  have h1 : potentialShape (Vars.len .N_2ND_TAYLOR) = (1, 0) := by decide
  have hR := ready (v := .N_2ND_TAYLOR) (by decide) (by decide) x rest
  have e : resPot codeKernel s .N_2ND_TAYLOR x = [energyAt s .N_2ND_TAYLOR x, D1 s .N_2ND_TAYLOR x 0] := by
    unfold resPot
    simp only [h1, total_eq, run1_all]
    rw [← energyR_eq]
    simp
    exact ⟨rfl, rfl⟩
  rw [xcfunEval_potential hvs hm, evalPotential, evalPotentialLda_ok hR (by decide) junk s (by rw [h1]; omega), Outcome.ok_bind, if_pos hd, if_pos (Or.inr rfl),
    splice_zero, e, evalPotentialGgaN_ok hR (by decide) junk s rfl]
  rfl

theorem eval_potAB (hvs : s.vars = some .A_B_2ND_TAYLOR) (hm : s.mode = POTENTIAL) (hd : s.depends &&& GRADIENT ≠ 0) (x : ℕ → ℝ) (rest out : List ℝ)
    (j : (N : ℕ) → ℕ → CT ℝ N) (ho : 3 ≤ out.length) :
    xcfunEval codeKernel (some j) s ((List.range (Vars.len .A_B_2ND_TAYLOR)).map x ++ rest) out = .ok (potAB s (j 2) x ++ out.drop 3) := by
  have h1 : potentialShape (Vars.len .A_B_2ND_TAYLOR) = (2, 10) := by decide
  have hR := ready (v := .A_B_2ND_TAYLOR) (by decide) (by decide) x rest
  have e : resPot codeKernel s .A_B_2ND_TAYLOR x = [energyAt s .A_B_2ND_TAYLOR x, D1 s .A_B_2ND_TAYLOR x 0, D1 s .A_B_2ND_TAYLOR x 10] := by
    unfold resPot
    simp only [h1, total_eq, run1_all]
    rw [← energyR_eq]
    simp [List.range_succ]
    exact ⟨rfl, rfl, rfl⟩
  rw [xcfunEval_potential hvs hm, evalPotential, evalPotentialLda_ok hR (by decide) (some j) s (by rw [h1]; omega), Outcome.ok_bind, if_pos hd, if_neg (by simp),
    splice_zero, e, evalPotentialGgaAB_ok hR (by decide) j s rfl rfl]
  rfl

end

/-! ## Relative differences -/

/-- A lower bound of the absolute value, in units. -/
noncomputable def Q.low (q : Q) : ℕ := Q.casesOn q 0 (fun n r => Nat.sub n r) (fun n r => Nat.sub n r) 0

theorem Q.low_le {q : Q} {x : ℝ} (h : Near q x) : (q.low : ℝ) ≤ |x| * U := by
  have e : |x| * U = |x * U| := by rw [abs_mul, abs_of_pos U_pos]
  rw [e]
  have key : ∀ (n r : ℕ) (y : ℝ), |y - n| ≤ r → ((n - r : ℕ) : ℝ) ≤ |y| := by
    intro n r y hy
    rcases le_or_gt r n with hr | hr
    · rw [Nat.cast_sub hr]
      have := abs_le.1 hy
      exact le_trans (by linarith) (le_abs_self y)
    · rw [Nat.sub_eq_zero_of_le hr.le]; simp
  cases q with
  | z => rw [Q.low, Nat.cast_zero]; exact abs_nonneg _
  | p n r => exact key n r _ h
  | m n r =>
    rw [near_m] at h
    rw [← abs_neg]
    exact key n r _ (by rw [← abs_neg]; convert h using 2; ring)
  | bad => rw [Q.low, Nat.cast_zero]; exact abs_nonneg _

/-- Do the numbers differ by at most `10^-7` of the second? -/
noncomputable def relQ (q q' : Q) : Bool := (q.sub q').small (Nat.div q'.low (Nat.pow 10 7))

theorem relQ_le {q q' : Q} {x y : ℝ} (h : Near q x) (h' : Near q' y) (hc : relQ q q' = true) : |x - y| ≤ 1e-7 * |y| := by
  have h1 := Q.small_le (Q.near_sub h h') hc
  have h2 : ((Nat.div q'.low (Nat.pow 10 7) : ℕ) : ℝ) ≤ q'.low / 10 ^ 7 := by
    refine (Nat.cast_div_le (α := ℝ)).trans (le_of_eq ?_)
    rw [Nat.pow_eq]; push_cast; norm_num
  have h3 : (q'.low : ℝ) / 10 ^ 7 ≤ 1e-7 * |y| * U := by
    have := Q.low_le h'
    rw [div_le_iff₀ (by positivity)]
    linarith
  exact le_of_mul_le_mul_right (h1.trans (h2.trans h3)) U_pos

end XCFun.Num
