/-
The bundled programs: the parts of testall.cpp.
-/
import Verif.Proofs.ProgramsRun
import Verif.Props.SelfTestPass

namespace XCFun
open Spec Num Props

/-! ## Checks -/

theorem check_run {c : Bool} (h : c = true) (w : Proc ℝ) : check c w = .ok (.ok (), w) := by
  unfold check; rw [if_pos h]; rfl

theorem checknum_run {x xref abserr relerr : ℝ} (h : |x - xref| < abserr) (w : Proc ℝ) : checknum realOrder x xref abserr relerr w = .ok (.ok (), w) := by
  unfold checknum
  rw [if_pos]
  · rfl
  · unfold realOrder; simpa using h

theorem checkzero_run {x : ℝ} (h : |x| < 1e-14) (w : Proc ℝ) : checkzero realOrder x w = .ok (.ok (), w) := by
  refine checknum_run ?_ w
  have : (lit 0 0 : ℝ) = 0 := by simp [lit, XCFun.Lit.lit]
  rw [this, sub_zero]
  refine h.trans_le (le_of_eq ?_)
  norm_num [lit, XCFun.Lit.lit]

theorem checkdiff_run {l l' : List ℝ} {i j : ℕ} {a b : ℝ} (ha : l[i]? = some a) (hb : l'[j]? = some b) (h : |a - b| < 1e-14) (w : Proc ℝ) :
    checkdiff realOrder l i l' j w = .ok (.ok (), w) := by
  unfold checkdiff
  rw [Prog.next (Prog.ofOutcome_run (a := a) (by rw [rdBuf, ha]) w), Prog.next (Prog.ofOutcome_run (a := b) (by rw [rdBuf, hb]) w)]
  exact checkzero_run h w

/-! ## Objects that come and go -/

/-- The output of order 1 for a functional of the gradient. -/
theorem order1_run {h : ℕ → Option (State ℝ)} {p : ℕ} {s : State ℝ} (hs : h p = some s) {v : Vars} (hv : s.vars = some v) (hm : s.mode = PARTIAL_DERIVATIVES)
    (ho : s.order = 1) (hsup : DV.reads v ≠ none) (x : List Dec) (hx : x.length = v.len) (junk : Junk ℝ) {buf : List ℝ} (hb : buf.length = v.len + 1) :
    evalInto codeKernel junk p (x.map fun d => (lit d.1 d.2 : ℝ)) buf ⟨.filled, h⟩ = .ok (.ok ((List.range (v.len + 1)).map (outR s v x)), ⟨.filled, h⟩) := by
  unfold evalInto
  exact Prog.eval_run codeKernel hs (eval_out hv hm ho hsup x hx junk buf hb)

/-! ## consistency_test -/

def unpolarized : List Dec := [(1, 0), (1, 0), (2, 0), (-3, 0), (4, 0), (2, 0), (-3, 0), (4, 0)]
def polA : List Dec := [(1, 0), (21, 1), (2, 0), (-3, 0), (4, 0), (7, 0), (-8, 0), (9, 0)]
def polB : List Dec := [(21, 1), (1, 0), (7, 0), (-8, 0), (9, 0), (2, 0), (-3, 0), (4, 0)]

/-- Do two entries of the output agree? -/
noncomputable def agreeQ (c : Codes) (l : List (Dec × IE Field)) (x : List Dec) (i : ℕ) (y : List Dec) (j : ℕ) : Bool :=
  tiny ((outQ c x l i).sub (outQ c y l j))

theorem agree_lt {s s' : State ℝ} {v v' : Vars} {c c' : Codes} (hc : CodeOf v c) (hv : DV.reads v ≠ none) (hc' : CodeOf v' c') (hv' : DV.reads v' ≠ none)
    {l : List (Dec × IE Field)} (hl : Terms s l) (hl' : Terms s' l) {x y : List Dec} {i j : ℕ}
    (h : tiny ((outQ c x l i).sub (outQ c' y l j)) = true) : |outR s v x i - outR s' v' y j| < 1e-14 :=
  tiny_lt (Q.near_sub (near_out hc hv hl x i) (near_out hc' hv' hl' y j)) h

theorem unpolarized_checks : [(1, 2), (3, 6), (4, 7), (5, 8)].all (fun q => agreeQ Dens.codeABX pbeTerms unpolarized q.1 unpolarized q.2) = true := by
  decide +kernel

theorem polarized_checks : [(1, 2), (3, 6), (4, 7), (5, 8), (2, 1), (6, 3), (7, 4), (8, 5)].all
    (fun q => agreeQ Dens.codeABX pbeTerms polA q.1 polB q.2) = true := by
  decide +kernel

theorem abx_length {s : State ℝ} (hv : s.vars = some .A_B_AX_AY_AZ_BX_BY_BZ) (hm : s.mode = PARTIAL_DERIVATIVES) (ho : s.order = (1 : ℕ)) : outputLength s = .ok 9 := by
  simp only [outputLength, hv, hm, ho]; rfl

theorem abg_length {s : State ℝ} (hv : s.vars = some .A_B_GAA_GAB_GBB) (hm : s.mode = PARTIAL_DERIVATIVES) (ho : s.order = (1 : ℕ)) : outputLength s = .ok 6 := by
  simp only [outputLength, hv, hm, ho]; rfl

theorem consistency_run (junk : ℕ → Junk ℝ) (buf : ℕ → ℕ → ℝ) (p : ℕ) (w : Proc ℝ) (hw : w.tabs.Consistent) (hp : w.heap p = none) :
    consistencyTest codeKernel realOrder junk buf p w = .ok (.ok (), ⟨.filled, w.heap⟩) := by
  obtain ⟨s, h0, g0⟩ := pbe_set
  obtain ⟨g1, e1⟩ := g0.setup (v := .A_B_AX_AY_AZ_BX_BY_BZ) rfl (m := PARTIAL_DERIVATIVES) (.inl rfl) (o := 1) (by omega)
  set s' : State ℝ := { s with mode := PARTIAL_DERIVATIVES, vars := some .A_B_AX_AY_AZ_BX_BY_BZ, order := ((1 : ℕ) : ℤ) } with hs'
  replace e1 : evalSetup s Vars.A_B_AX_AY_AZ_BX_BY_BZ.code PARTIAL_DERIVATIVES 1 = .ok (0, s') := e1
  have hr : DV.reads .A_B_AX_AY_AZ_BX_BY_BZ ≠ none := by decide
  have hget : ∀ (x : List Dec) (i : ℕ), i < 9 → ((List.range (Vars.A_B_AX_AY_AZ_BX_BY_BZ.len + 1)).map (outR s' .A_B_AX_AY_AZ_BX_BY_BZ x))[i]? =
      some (outR s' .A_B_AX_AY_AZ_BX_BY_BZ x i) := by
    intro x i hi
    rw [List.getElem?_map, List.getElem?_range (show i < Vars.A_B_AX_AY_AZ_BX_BY_BZ.len + 1 from hi)]
    rfl
  have hu : ∀ q ∈ [(1, 2), (3, 6), (4, 7), (5, 8)], |outR s' .A_B_AX_AY_AZ_BX_BY_BZ unpolarized q.1 - outR s' .A_B_AX_AY_AZ_BX_BY_BZ unpolarized q.2| < 1e-14 :=
    fun q hq => agree_lt code_ABX hr code_ABX hr g1.1 g1.1 (List.all_eq_true.1 unpolarized_checks q hq)
  have hb : ∀ q ∈ [(1, 2), (3, 6), (4, 7), (5, 8), (2, 1), (6, 3), (7, 4), (8, 5)],
      |outR s' .A_B_AX_AY_AZ_BX_BY_BZ polA q.1 - outR s' .A_B_AX_AY_AZ_BX_BY_BZ polB q.2| < 1e-14 :=
    fun q hq => agree_lt code_ABX hr code_ABX hr g1.1 g1.1 (List.all_eq_true.1 polarized_checks q hq)
  have hb' : ∀ q ∈ [(1, 2), (3, 6), (4, 7), (5, 8), (2, 1), (6, 3), (7, 4), (8, 5)],
      |outR s' .A_B_AX_AY_AZ_BX_BY_BZ polB q.2 - outR s' .A_B_AX_AY_AZ_BX_BY_BZ polA q.1| < 1e-14 := fun q hq => by
    rw [abs_sub_comm]; exact hb q hq
  have eA : ([lit 1 0, lit 21 1, lit 2 0, lit (-3) 0, lit 4 0, lit 7 0, lit (-8) 0, lit 9 0] : List ℝ) = polA.map fun d => (lit d.1 d.2 : ℝ) := rfl
  have eB : ([lit 21 1, lit 1 0, lit 7 0, lit (-8) 0, lit 9 0, lit 2 0, lit (-3) 0, lit 4 0] : List ℝ) = polB.map fun d => (lit d.1 d.2 : ℝ) := rfl
  have eU : (row [1, 1, 2, -3, 4, 2, -3, 4] : List ℝ) = unpolarized.map fun d => (lit d.1 d.2 : ℝ) := rfl
  unfold consistencyTest
  dsimp only
  rw [Prog.next (Prog.new_run codeKernel hw hp), Prog.next (Prog.set_run codeKernel (upd_same _ _ _) h0), upd_upd,
    Prog.next (Prog.setup_run codeKernel (upd_same _ _ _) e1), upd_upd,
    Prog.next (Prog.int_run (Prog.length_run codeKernel (upd_same _ _ _) (abx_length rfl rfl rfl))), Prog.next (check_run (by decide) _), eU, eA, eB,
    Prog.next (order1_run (upd_same _ _ _) rfl rfl rfl hr unpolarized rfl (junk 0) (by simp; rfl)),
    Prog.next (checkdiff_run (hget _ 1 (by omega)) (hget _ 2 (by omega)) (hu (1, 2) (by simp)) _),
    Prog.next (checkdiff_run (hget _ 3 (by omega)) (hget _ 6 (by omega)) (hu (3, 6) (by simp)) _),
    Prog.next (checkdiff_run (hget _ 4 (by omega)) (hget _ 7 (by omega)) (hu (4, 7) (by simp)) _),
    Prog.next (checkdiff_run (hget _ 5 (by omega)) (hget _ 8 (by omega)) (hu (5, 8) (by simp)) _),
    Prog.next (order1_run (upd_same _ _ _) rfl rfl rfl hr polA rfl (junk 1) (by simp)),
    Prog.next (order1_run (upd_same _ _ _) rfl rfl rfl hr polB rfl (junk 2) (by simp; rfl)),
    Prog.next (checkdiff_run (hget _ 1 (by omega)) (hget _ 2 (by omega)) (hb (1, 2) (by simp)) _),
    Prog.next (checkdiff_run (hget _ 3 (by omega)) (hget _ 6 (by omega)) (hb (3, 6) (by simp)) _),
    Prog.next (checkdiff_run (hget _ 4 (by omega)) (hget _ 7 (by omega)) (hb (4, 7) (by simp)) _),
    Prog.next (checkdiff_run (hget _ 5 (by omega)) (hget _ 8 (by omega)) (hb (5, 8) (by simp)) _),
    Prog.next (checkdiff_run (hget _ 1 (by omega)) (hget _ 2 (by omega)) (hb' (2, 1) (by simp)) _),
    Prog.next (checkdiff_run (hget _ 3 (by omega)) (hget _ 6 (by omega)) (hb' (6, 3) (by simp)) _),
    Prog.next (checkdiff_run (hget _ 4 (by omega)) (hget _ 7 (by omega)) (hb' (7, 4) (by simp)) _),
    Prog.next (checkdiff_run (hget _ 5 (by omega)) (hget _ 8 (by omega)) (hb' (8, 5) (by simp)) _),
    Prog.delete_run codeKernel (upd_same _ _ _)]
  dsimp only
  rw [upd_upd, ← hp, upd_self]

/-! ## gradient_forms_test -/

def elements : List Dec := [(1, 0), (21, 1), (11, 1), (12, 1), (13, 1), (14, 1), (15, 1), (16, 1)]
/-- Densities and scalar products of the gradients of `elements`. -/
def sqnorms : List Dec := [(1, 0), (21, 1), (434, 2), (542, 2), (677, 2)]

theorem forms_checks : [0, 1, 2].all (fun i => tiny ((outQ Dens.codeABX elements blypTerms i).sub (outQ Dens.codeABG sqnorms blypTerms i))) = true := by
  decide +kernel

/-- The chain rule for the gradient of one spin: entry `i` of the first output, entry `j` of the second one. -/
noncomputable def chainQ (i j a b : ℕ) : Bool :=
  tiny ((outQ Dens.codeABX elements blypTerms i).sub
    ((((ofDec (2, 0)).mul (outQ Dens.codeABG sqnorms blypTerms j)).mul (entry elements a)).add ((outQ Dens.codeABG sqnorms blypTerms 4).mul (entry elements b))))

theorem chain_checks : [0, 1, 2].all (fun i => chainQ (3 + i) 3 (2 + i) (5 + i) && chainQ (6 + i) 5 (5 + i) (2 + i)) = true := by decide +kernel

theorem sqnorm_eq : dSqnorm (fun i => (dElements : List ℝ).getD i (lit 0 0)) = sqnorms.map fun d => (lit d.1 d.2 : ℝ) := by
  simp only [dSqnorm, dElements, sqnorms, List.map_cons, List.map_nil]
  norm_num [lit, XCFun.Lit.lit]

theorem gradient_run (junk : ℕ → Junk ℝ) (buf : ℕ → ℕ → ℝ) (p : ℕ) (w : Proc ℝ) (hw : w.tabs.Consistent) (hp : w.heap p = none) :
    gradientFormsTest codeKernel realOrder junk buf p w = .ok (.ok (), ⟨.filled, w.heap⟩) := by
  obtain ⟨s, h0, g0⟩ := blyp_set
  obtain ⟨g1, e1⟩ := g0.setup (v := .A_B_AX_AY_AZ_BX_BY_BZ) rfl (m := PARTIAL_DERIVATIVES) (.inl rfl) (o := 1) (by omega)
  set s' : State ℝ := { s with mode := PARTIAL_DERIVATIVES, vars := some .A_B_AX_AY_AZ_BX_BY_BZ, order := ((1 : ℕ) : ℤ) } with hs'
  obtain ⟨g2, e2⟩ := g1.setup (v := .A_B_GAA_GAB_GBB) rfl (m := PARTIAL_DERIVATIVES) (.inl rfl) (o := 1) (by omega)
  set s'' : State ℝ := { s' with mode := PARTIAL_DERIVATIVES, vars := some .A_B_GAA_GAB_GBB, order := ((1 : ℕ) : ℤ) } with hs''
  replace e1 : evalSetup s Vars.A_B_AX_AY_AZ_BX_BY_BZ.code PARTIAL_DERIVATIVES 1 = .ok (0, s') := e1
  replace e2 : evalSetup s' Vars.A_B_GAA_GAB_GBB.code PARTIAL_DERIVATIVES 1 = .ok (0, s'') := e2
  have hr : DV.reads .A_B_AX_AY_AZ_BX_BY_BZ ≠ none := by decide
  have hr' : DV.reads .A_B_GAA_GAB_GBB ≠ none := by decide
  set out := (List.range (Vars.A_B_AX_AY_AZ_BX_BY_BZ.len + 1)).map (outR s' .A_B_AX_AY_AZ_BX_BY_BZ elements) with hout
  set out2 := (List.range (Vars.A_B_GAA_GAB_GBB.len + 1)).map (outR s'' .A_B_GAA_GAB_GBB sqnorms) with hout2
  have hget : ∀ i, i < 9 → out[i]? = some (outR s' .A_B_AX_AY_AZ_BX_BY_BZ elements i) := by
    intro i hi
    rw [hout, List.getElem?_map, List.getElem?_range (show i < Vars.A_B_AX_AY_AZ_BX_BY_BZ.len + 1 from hi)]
    rfl
  have hget2 : ∀ i, i < 6 → out2[i]? = some (outR s'' .A_B_GAA_GAB_GBB sqnorms i) := by
    intro i hi
    rw [hout2, List.getElem?_map, List.getElem?_range (show i < Vars.A_B_GAA_GAB_GBB.len + 1 from hi)]
    rfl
  have hf : ∀ i ∈ [0, 1, 2], |outR s' .A_B_AX_AY_AZ_BX_BY_BZ elements i - outR s'' .A_B_GAA_GAB_GBB sqnorms i| < 1e-14 :=
    fun i hi => agree_lt code_ABX hr code_ABG hr' g1.1 g2.1 (List.all_eq_true.1 forms_checks i hi)
  have hchain : ∀ i j a b, chainQ i j a b = true → |outR s' .A_B_AX_AY_AZ_BX_BY_BZ elements i -
      (lit 2 0 * outR s'' .A_B_GAA_GAB_GBB sqnorms j * (dElements : List ℝ).getD a (lit 0 0) +
        outR s'' .A_B_GAA_GAB_GBB sqnorms 4 * (dElements : List ℝ).getD b (lit 0 0))| < 1e-14 := by
    intro i j a b hc
    have hd : ∀ k, Near (entry elements k) ((dElements : List ℝ).getD k (lit 0 0)) := by
      intro k
      have := near_entry elements k
      have e : (lit 0 0 : ℝ) = 0 := by simp [lit, XCFun.Lit.lit]
      rw [e]
      exact this
    exact tiny_lt (Q.near_sub (near_out code_ABX hr g1.1 _ _) (Q.near_add (Q.near_mul (Q.near_mul (near_ofDec _) (near_out code_ABG hr' g2.1 _ _)) (hd _))
      (Q.near_mul (near_out code_ABG hr' g2.1 _ _) (hd _)))) hc
  have hcomp : ∀ i ∈ [0, 1, 2], ∀ w : Proc ℝ, checkComponent realOrder (fun i => (dElements : List ℝ).getD i (lit 0 0)) out out2 i w = .ok (.ok (), w) := by
    intro i hi w
    have h12 := List.all_eq_true.1 chain_checks i hi
    rw [Bool.and_eq_true] at h12
    have hi3 : i < 3 := by simp at hi; omega
    unfold checkComponent
    rw [Prog.next (Prog.ofOutcome_run (by rw [rdBuf, hget (3 + i) (by omega)]) w), Prog.next (Prog.ofOutcome_run (by rw [rdBuf, hget2 3 (by omega)]) w),
      Prog.next (Prog.ofOutcome_run (by rw [rdBuf, hget2 4 (by omega)]) w), Prog.next (checkzero_run (hchain _ _ _ _ h12.1) w),
      Prog.next (Prog.ofOutcome_run (by rw [rdBuf, hget (6 + i) (by omega)]) w), Prog.next (Prog.ofOutcome_run (by rw [rdBuf, hget2 5 (by omega)]) w)]
    exact checkzero_run (hchain _ _ _ _ h12.2) w
  have eE : (dElements : List ℝ) = elements.map fun d => (lit d.1 d.2 : ℝ) := rfl
  unfold gradientFormsTest
  dsimp only
  rw [Prog.next (Prog.new_run codeKernel hw hp), Prog.next (Prog.set_run codeKernel (upd_same _ _ _) h0), upd_upd,
    Prog.next (Prog.setup_run codeKernel (upd_same _ _ _) e1), upd_upd,
    Prog.next (Prog.int_run (Prog.length_run codeKernel (upd_same _ _ _) (abx_length rfl rfl rfl))), Prog.next (check_run (by decide) _),
    Prog.next (a := out) (w' := ⟨.filled, upd w.heap p (some s')⟩) (by
      rw [eE]; exact order1_run (upd_same _ _ _) rfl rfl rfl hr elements rfl (junk 0) (by simp; rfl)),
    Prog.next (Prog.setup_run codeKernel (upd_same _ _ _) e2), upd_upd,
    Prog.next (Prog.int_run (Prog.length_run codeKernel (upd_same _ _ _) (abg_length rfl rfl rfl))), Prog.next (check_run (by decide) _),
    Prog.next (a := out2) (w' := ⟨.filled, upd w.heap p (some s'')⟩) (by
      rw [sqnorm_eq]; exact order1_run (upd_same _ _ _) rfl rfl rfl hr' sqnorms rfl (junk 1) (by simp; rfl)),
    Prog.next (checkdiff_run (hget 0 (by omega)) (hget2 0 (by omega)) (hf 0 (by simp)) _),
    Prog.next (checkdiff_run (hget 1 (by omega)) (hget2 1 (by omega)) (hf 1 (by simp)) _),
    Prog.next (checkdiff_run (hget 2 (by omega)) (hget2 2 (by omega)) (hf 2 (by simp)) _),
    Prog.next (hcomp 0 (by simp) _), Prog.next (hcomp 1 (by simp) _), Prog.next (hcomp 2 (by simp) _),
    Prog.delete_run codeKernel (upd_same _ _ _)]
  dsimp only
  rw [upd_upd, ← hp, upd_self]

/-! ## user_setup_test -/

/-- An alias and a setup by flags that succeed. -/
theorem user_lda : ∃ s s' : State ℝ, xcfunSet State.init "lda" (lit 1 0) = .ok (0, s) ∧ userEvalSetup s 0 0 0 1 0 0 0 0 = .ok (0, s') := ⟨_, _, rfl, rfl⟩
theorem user_pbe : ∃ s s' : State ℝ, xcfunSet State.init "pbe" (lit 1 0) = .ok (0, s) ∧ userEvalSetup s 1 1 1 1 0 0 0 1 = .ok (0, s') := ⟨_, _, rfl, rfl⟩
theorem user_m06l : ∃ s s' : State ℝ, xcfunSet State.init "m06l" (lit 1 0) = .ok (0, s) ∧ userEvalSetup s 2 2 2 1 0 1 0 1 = .ok (0, s') := ⟨_, _, rfl, rfl⟩

theorem upd_ne {α : Type} (g : ℕ → α) {a b : ℕ} (h : b ≠ a) (x : α) : upd g a x b = g b := by simp [upd, h]

theorem user_setup_run {p₁ p₂ p₃ : ℕ} (h12 : p₁ ≠ p₂) (h13 : p₁ ≠ p₃) (h23 : p₂ ≠ p₃) (w : Proc ℝ) (hw : w.tabs.Consistent)
    (hp₁ : w.heap p₁ = none) (hp₂ : w.heap p₂ = none) (hp₃ : w.heap p₃ = none) :
    userSetupTest codeKernel p₁ p₂ p₃ w = .ok (.ok (), ⟨.filled, w.heap⟩) := by
  obtain ⟨a, a', a1, a2⟩ := user_lda
  obtain ⟨b, b', b1, b2⟩ := user_pbe
  obtain ⟨c, c', c1, c2⟩ := user_m06l
  unfold userSetupTest
  rw [Prog.next (Prog.new_run codeKernel hw hp₁),
    Prog.next (Prog.new_run codeKernel filled_consistent (by dsimp only; rw [upd_ne _ h12.symm, hp₂])),
    Prog.next (Prog.new_run codeKernel filled_consistent (by dsimp only; rw [upd_ne _ h23.symm, upd_ne _ h13.symm, hp₃]))]
  dsimp only
  rw [Prog.next (Prog.set_run codeKernel (by rw [upd_ne _ h13, upd_ne _ h12, upd_same]) a1),
    Prog.next (Prog.set_run codeKernel (by rw [upd_ne _ h12.symm, upd_ne _ h23, upd_same]) b1),
    Prog.next (Prog.set_run codeKernel (by rw [upd_ne _ h23.symm, upd_ne _ h13.symm, upd_same]) c1),
    Prog.next (Prog.int_run (Prog.user_run codeKernel (by rw [upd_ne _ h13, upd_ne _ h12, upd_same]) a2)),
    Prog.next (Prog.int_run (Prog.user_run codeKernel (by rw [upd_ne _ h12.symm, upd_ne _ h23, upd_same]) b2)),
    Prog.next (Prog.int_run (Prog.user_run codeKernel (by rw [upd_ne _ h23.symm, upd_ne _ h13.symm, upd_same]) c2)),
    Prog.next (check_run (by decide) _), Prog.next (check_run (by decide) _), Prog.next (check_run (by decide) _),
    Prog.next (Prog.delete_run codeKernel (s := a') (by dsimp only; rw [upd_ne _ h13, upd_ne _ h12, upd_same])),
    Prog.next (Prog.delete_run codeKernel (s := b') (by dsimp only; rw [upd_ne _ h12.symm, upd_ne _ h23, upd_same])),
    Prog.delete_run codeKernel (s := c') (by dsimp only; rw [upd_ne _ h23.symm, upd_ne _ h13.symm, upd_same])]
  congr 4
  funext i
  simp only [upd]
  split_ifs <;> simp_all

/-! ## xcfun_get_test -/

theorem getValid_run {h : ℕ → Option (State ℝ)} {p : ℕ} {s : State ℝ} (hs : h p = some s) {name : String} {x : ℝ} (e : xcfunGet s name = (0, some x)) :
    getValid codeKernel p name ⟨.filled, h⟩ = .ok (.ok x, ⟨.filled, h⟩) := by
  unfold getValid
  rw [Prog.next (Prog.value_run (Prog.get_run codeKernel hs name)), e]
  dsimp only
  rw [Prog.next (check_run (by simp) _)]
  rfl

theorem b3lyp_set : ∃ s : State ℝ, xcfunSet State.init "B3LYP" (lit 1 0) = .ok (0, s) ∧
    xcfunGet s "SLATERX" = (0, some (lit 0 0 + lit 1 0 * lit 8 1)) ∧ xcfunGet s "BECKECORRX" = (0, some (lit 0 0 + lit 1 0 * lit 72 2)) ∧
    xcfunGet s "LYPC" = (0, some (lit 0 0 + lit 1 0 * lit 81 2)) ∧ xcfunGet s "VWN5C" = (0, some (lit 0 0 + lit 1 0 * lit 19 2)) ∧
    xcfunGet s "EXX" = (0, some (lit 1 0 * lit 2 1)) ∧ xcfunGet s "KTX" = (0, some (lit 0 0)) ∧ (xcfunGet s "FOO").1 ≠ 0 :=
  ⟨_, rfl, rfl, rfl, rfl, rfl, rfl, rfl, by decide⟩

theorem get_test_run (p : ℕ) (w : Proc ℝ) (hw : w.tabs.Consistent) (hp : w.heap p = none) :
    xcfunGetTest codeKernel realOrder p w = .ok (.ok (), ⟨.filled, w.heap⟩) := by
  obtain ⟨s, h0, h1, h2, h3, h4, h5, h6, h7⟩ := b3lyp_set
  unfold xcfunGetTest
  rw [Prog.next (Prog.new_run codeKernel hw hp), Prog.next (Prog.set_run codeKernel (upd_same _ _ _) h0), upd_upd,
    Prog.next (getValid_run (upd_same _ _ _) h1), Prog.next (getValid_run (upd_same _ _ _) h2), Prog.next (getValid_run (upd_same _ _ _) h3),
    Prog.next (getValid_run (upd_same _ _ _) h4), Prog.next (getValid_run (upd_same _ _ _) h5), Prog.next (getValid_run (upd_same _ _ _) h6),
    Prog.next (Prog.value_run (Prog.get_run codeKernel (upd_same _ _ _) "FOO")), Prog.next (check_run (by simpa using h7) _),
    Prog.next (checknum_run (by norm_num [lit, XCFun.Lit.lit]) _), Prog.next (checknum_run (by norm_num [lit, XCFun.Lit.lit]) _),
    Prog.next (checknum_run (by norm_num [lit, XCFun.Lit.lit]) _), Prog.next (checknum_run (by norm_num [lit, XCFun.Lit.lit]) _),
    Prog.next (checknum_run (by norm_num [lit, XCFun.Lit.lit]) _), Prog.next (checknum_run (by norm_num [lit, XCFun.Lit.lit]) _),
    Prog.delete_run codeKernel (upd_same _ _ _)]
  dsimp only
  rw [upd_upd, ← hp, upd_self]

/-! ## The lists of names -/

theorem printNames_run {en : ℤ → Op ℝ} {h : ℕ → Option (State ℝ)} {n : ℕ}
    (hsome : ∀ i : ℕ, i < n → ∃ nm, opStep codeKernel ⟨.filled, h⟩ (en i) = .ok (.name (some nm), ⟨.filled, h⟩))
    (hnone : opStep codeKernel ⟨.filled, h⟩ (en n) = .ok (.name none, ⟨.filled, h⟩)) :
    ∀ (fuel k : ℕ), k ≤ n → n - k < fuel → printNames codeKernel en fuel k ⟨.filled, h⟩ = .ok (.ok (), ⟨.filled, h⟩) := by
  intro fuel
  induction fuel with
  | zero => intro k _ h; omega
  | succ fuel ih =>
    intro k hk hf
    rw [printNames]
    rcases Nat.lt_or_ge k n with hlt | hge
    · obtain ⟨nm, e⟩ := hsome k hlt
      simp only [e, Outcome.ok_bind]
      rw [opStep, describe_consistent filled_consistent]
      simp only [Outcome.ok_bind, Outcome.pure_eq]
      exact ih (k + 1) hlt (by omega)
    · obtain rfl : k = n := by omega
      simp only [hnone, Outcome.ok_bind]

theorem printParameters_run (h : ℕ → Option (State ℝ)) {fuel : ℕ} (hf : 82 < fuel) :
    printNames codeKernel .enumerateParameters fuel 0 ⟨.filled, h⟩ = .ok (.ok (), ⟨.filled, h⟩) := by
  have hall : ∀ i < 82, ∃ nm, enumerateParameters (i : ℕ) = .ok (some nm) := by
    intro i hi
    have := (show ∀ i < 82, (match enumerateParameters (i : ℕ) with | .ok (some _) => true | _ => false) = true by decide +kernel) i hi
    split at this
    · rename_i nm e; exact ⟨nm, e⟩
    · cases this
  refine printNames_run (n := 82) (fun i hi => ?_) ?_ fuel 0 (by omega) (by omega)
  · obtain ⟨nm, e⟩ := hall i hi
    exact ⟨nm, by rw [opStep, enumerate_consistent filled_consistent, e]; rfl⟩
  · rw [opStep, enumerate_consistent filled_consistent, show enumerateParameters ((82 : ℕ) : ℤ) = .ok none by decide +kernel]; rfl

theorem printAliases_run (h : ℕ → Option (State ℝ)) {fuel : ℕ} (hf : 46 < fuel) :
    printNames codeKernel .enumerateAliases fuel 0 ⟨.filled, h⟩ = .ok (.ok (), ⟨.filled, h⟩) := by
  have hall : ∀ i < 46, ∃ nm, enumerateAliases (i : ℕ) = some nm := by
    intro i hi
    have := (show ∀ i < 46, (enumerateAliases (i : ℕ)).isSome = true by decide +kernel) i hi
    exact Option.isSome_iff_exists.1 this
  refine printNames_run (n := 46) (fun i hi => ?_) ?_ fuel 0 (by omega) (by omega)
  · obtain ⟨nm, e⟩ := hall i hi
    exact ⟨nm, by rw [opStep, e]⟩
  · rw [opStep, show enumerateAliases ((46 : ℕ) : ℤ) = none by decide +kernel]

/-! ## The whole program -/

/-- The objects that exist at the same time are at different places. -/
def Memory.Distinct {V : Type} (m : Memory V) : Prop := m.user.1 ≠ m.user.2.1 ∧ m.user.1 ≠ m.user.2.2 ∧ m.user.2.1 ≠ m.user.2.2

theorem selfTest_run (junk : ℕ → Junk ℝ) (buf : ℕ → ℕ → ℝ) (addr : ℕ → ℕ) (w : Proc ℝ) (hw : w.tabs.Consistent) (hh : w.heap = fun _ => none) :
    runSelfTest codeKernel farReal junk buf addr w = .ok (.ok 0, ⟨.filled, fun _ => none⟩) := by
  obtain ⟨res, -, hres⟩ := xcfunTest_ok codeKernel codeKernel_local rfl farReal
  have ht := hres junk buf addr Proc.start (Or.inl rfl) fun _ => rfl
  obtain ⟨w', e⟩ := C62_self_test_passes [] [] Proc.start rfl junk buf addr fun _ => rfl
  have h0 := (Prod.mk.inj (Outcome.ok.inj (ht.symm.trans e))).1
  unfold runSelfTest
  rw [hres junk buf addr w hw (by rw [hh]; exact fun _ => rfl), h0, hh]
  rfl

theorem testall_run (fuel : ℕ) (hf : 82 < fuel) (m : Memory ℝ) (hm : m.Distinct) :
    testallMain codeKernel realOrder farReal fuel m Proc.start = .ok (.ok 0, ⟨.filled, fun _ => none⟩) := by
  unfold testallMain
  rw [Prog.next (consistency_run _ _ _ _ (Or.inl rfl) rfl), Prog.next (gradient_run _ _ _ _ filled_consistent rfl),
    Prog.next (user_setup_run hm.1 hm.2.1 hm.2.2 _ filled_consistent rfl rfl rfl), Prog.next (get_test_run _ _ filled_consistent rfl),
    Prog.next (printParameters_run _ hf), Prog.next (printAliases_run _ (by omega)), Prog.next (selfTest_run _ _ _ _ filled_consistent rfl)]
  rfl

end XCFun
