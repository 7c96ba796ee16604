/-
The bundled programs: example.f90.
-/
import Verif.Proofs.ProgramsTest
import Verif.Props.Fortran

namespace XCFun
open Spec Num Props

theorem fAssert_run {c : Bool} (h : c = true) (w : Proc ℝ) : fAssert c w = .ok (.ok (), w) := by
  unfold fAssert; rw [if_pos h]; rfl

theorem fName_run {s : String} (h : '\x00' ∉ s.toList) (w : Proc ℝ) : fName s w = .ok (.ok s, w) := by
  unfold fName
  refine Prog.ofOutcome_run ?_ w
  rw [fstringToCarray, cString_append h, String.ofList_toList]

theorem evalVec_run {h : ℕ → Option (State ℝ)} {p : ℕ} {s : State ℝ} (hs : h p = some s) {junk : Junk ℝ} {n : ℤ} {d r : FArray ℝ} {out : List ℝ}
    (h1 : d.cols ≠ 0) (h2 : r.cols ≠ 0) (e : fEvalVec codeKernel junk s n d r = .ok out) :
    fEvalVecAt codeKernel junk p n d r ⟨.filled, h⟩ = .ok (.ok out, ⟨.filled, h⟩) := by
  unfold fEvalVec at e
  rw [if_neg (by simp [h1, h2])] at e
  unfold fEvalVecAt
  rw [if_neg (by simp [h1, h2])]
  refine Prog.buffer_run ?_
  rw [Prog.call_run codeKernel (w := ⟨.filled, h⟩) hs (s' := s) (r := .buffer out) (t := .filled) (by rw [objStep, e]; rfl)]
  dsimp only
  rw [← hs, upd_self]

theorem evalVec_one (junk : Junk ℝ) (s : State ℝ) (d r : List ℝ) (dp rp : ℤ) :
    xcfunEvalVec codeKernel junk s 1 d 0 dp r 0 rp = xcfunEval codeKernel junk s d r := by
  have h0 : inInt 0 := by decide
  simp [xcfunEvalVec, forLoop, h0]
  cases xcfunEval codeKernel junk s d r <;> rfl

/-! ## Contracted mode -/

/-- An object set up for order `N` in contracted mode with closed shells. -/
structure SetUpFor (s : State ℝ) (N : ℕ) : Prop where
  pbe : HoldsGga s pbeTerms
  vars : s.vars = some .N_NX_NY_NZ
  mode : s.mode = CONTRACTED
  order : s.order = N

theorem fSetup_run {h : ℕ → Option (State ℝ)} {p : ℕ} {s : State ℝ} (hs : h p = some s) (hp : HoldsGga s pbeTerms) {N : ℕ} (hN : N ≤ 3) :
    ∃ s', SetUpFor s' N ∧ fSetup codeKernel p Vars.N_NX_NY_NZ.code CONTRACTED N ⟨.filled, h⟩ = .ok (.ok (), ⟨.filled, upd h p (some s')⟩) := by
  obtain ⟨h1, h2⟩ := hp.setup (v := .N_NX_NY_NZ) rfl (m := CONTRACTED) (.inr rfl) hN
  refine ⟨_, ⟨h1, rfl, rfl, rfl⟩, ?_⟩
  unfold fSetup
  rw [Prog.next (Prog.int_run (Prog.setup_run codeKernel hs h2))]
  exact fAssert_run (by decide) _

theorem fCompare_run {h : ℕ → Option (State ℝ)} {p : ℕ} {s : State ℝ} (hs : h p = some s) {N : ℕ} (hp : SetUpFor s N) (hN : N ≤ 3)
    {density : List (List ℝ)} {x : List Dec} (hx : x.length = 4 * 2 ^ N)
    (hin : ((List.range (4 * 2 ^ N)).mapM fun n => do
      let row ← rdBuf density (n % 2 ^ N)
      rdBuf row (n / 2 ^ N)) = .ok (x.map fun d => (lit d.1 d.2 : ℝ)))
    {r : Dec} (hr : close7 (sumT Dens.codeNX N (pathT N x) pbeTerms).last r = true) (junk : Junk ℝ) (buf : ℕ → ℝ) :
    fCompare codeKernel realOrder junk buf p N density (lit r.1 r.2) ⟨.filled, h⟩ = .ok (.ok (), ⟨.filled, h⟩) := by
  have hd : (⟨4 * 2 ^ N, 1, fun i _ => (x.map fun d => (lit d.1 d.2 : ℝ)).getD i 0⟩ : FArray ℝ).flat = x.map fun d => (lit d.1 d.2 : ℝ) := by
    simp only [FArray.flat, List.range_one, List.flatMap_cons, List.flatMap_nil, List.append_nil]
    refine List.ext_getElem (by simp [hx]) fun i h1 h2 => ?_
    have hi : i < x.length := by simpa using h2
    simp [hi]
  have hrl : (⟨2 ^ N, 1, fun i _ => buf i⟩ : FArray ℝ).flat = (List.range (2 ^ N)).map buf := by
    simp [FArray.flat, List.range_one]
  have hc := C17_contracted_expansion s .N_NX_NY_NZ hp.vars hp.mode N hp.order (by omega) (by decide) (fun k => (x.map fun d => (lit d.1 d.2 : ℝ)).getD k 0) []
    ((List.range (2 ^ N)).map buf) junk (by simp)
  have hl : (List.range (Vars.N_NX_NY_NZ.len * 2 ^ N)).map (fun k => (x.map fun d => (lit d.1 d.2 : ℝ)).getD k 0) = x.map fun d => (lit d.1 d.2 : ℝ) := by
    refine List.ext_getElem (by simp [hx]; rfl) fun i h1 h2 => ?_
    have hi : i < x.length := by simpa using h2
    simp [hi]
  rw [List.append_nil, hl, List.drop_of_length_le (by simp), List.append_nil] at hc
  have hq := close7_lt (near_contracted code_NX (by decide) hp.pbe.1 hN x) hr
  have h2N : 0 < 2 ^ N := by positivity
  unfold fCompare fDerivative
  rw [Prog.next (w' := ⟨.filled, h⟩) (a := (energyOn s .N_NX_NY_NZ (fun i => CT.ofFn N fun S =>
    (x.map fun d => (lit d.1 d.2 : ℝ)).getD (i * 2 ^ N + S) 0)).get (2 ^ N - 1))]
  · refine fAssert_run ?_ _
    unfold realOrder
    simp only [decide_eq_true_eq]
    refine hq.trans_le (le_of_eq ?_)
    norm_num [lit, XCFun.Lit.lit]
  · rw [Prog.next (Prog.ofOutcome_run hin _), Prog.next (evalVec_run hs (by simp) (by simp) (by
      unfold fEvalVec
      rw [if_neg (by simp), hd, hrl, evalVec_one, hc]))]
    refine Prog.ofOutcome_run ?_ _
    unfold rdBuf
    rw [List.getElem?_map, List.getElem?_range (by omega)]
    rfl

/-! ## The batch -/

noncomputable def pbexTerms : List (Dec × IE Field) := [((1, 0), Fun.pbex.code)]

theorem pbex_set : ∃ s : State ℝ, xcfunSet State.init "pbex" (lit 1 0) = .ok (0, s) ∧ HoldsGga s pbexTerms := by
  have e : (lit 0 0 + lit 1 0 : ℝ) = lit 1 0 := by simp [lit, XCFun.Lit.lit]
  obtain ⟨s, h1, h2, h3, h5⟩ : ∃ s : State ℝ, xcfunSet State.init "pbex" (lit 1 0) = .ok (0, s) ∧ s.active = [5] ∧
    s.settings 5 = lit 0 0 + lit 1 0 ∧ s.depends = DENSITY ||| GRADIENT := ⟨_, rfl, rfl, rfl, rfl⟩
  refine ⟨s, h1, ?_, h5⟩
  unfold Terms
  rw [h2]
  exact .cons ⟨h3.trans e, by rw [Fun.pbex.code_den]; rfl⟩ .nil

/-- The points. -/
def point (j : ℕ) : List Dec := [(5 * (j + 1), 2), (5 * (j + 1), 2), (25 * (j + 1), 3), (25 * (j + 1), 3), (25 * (j + 1), 3)]

theorem point_eq (j : ℕ) : ((List.range 5).map fun i => (fDens : FArray ℝ).elem i j) = (point j).map fun d => (lit d.1 d.2 : ℝ) := by
  have h : List.range 5 = [0, 1, 2, 3, 4] := rfl
  have e1 : (lit 1 1 * lit (j + 1) 0 * lit 5 1 : ℝ) = lit (5 * (j + 1)) 2 := by simp only [lit, XCFun.Lit.lit]; push_cast; ring
  have e2 : (lit 1 1 * lit (j + 1) 0 * lit 25 2 : ℝ) = lit (25 * (j + 1)) 3 := by simp only [lit, XCFun.Lit.lit]; push_cast; ring
  simp [h, fDens, point, e1, e2]

def vrho : List Dec := [(-41114303, 8), (-54041968, 8), (-63521105, 8), (-70819636, 8), (-76829536, 8)]
def vsig : List Dec := [(-10299851, 8), (-59386172, 9), (-38032091, 9), (-26939729, 9), (-20408009, 9)]

theorem vrho_checks : [0, 1, 2, 3, 4].all (fun j => close6 (outQ Dens.codeABG (point j) pbexTerms 1) (vrho.getD j (0, 0))) = true := by decide +kernel
theorem vsig_checks : [0, 1, 2, 3, 4].all (fun j => close6 (outQ Dens.codeABG (point j) pbexTerms 3) (vsig.getD j (0, 0))) = true := by decide +kernel

theorem deviation_ok {pots : List ℝ} {row : ℕ} {ref : List Dec} (hr : ref.length = 5) {f : ℕ → ℝ} (hf : ∀ j < 5, pots[j * 6 + row]? = some (f j))
    (hc : ∀ j < 5, |(lit (ref.getD j (0, 0)).1 (ref.getD j (0, 0)).2 : ℝ) - f j| ≤ 1e-6) :
    ∃ d, fDeviation pots 6 row (ref.map fun d => (lit d.1 d.2 : ℝ)) = .ok d ∧ d < lit 1 8 := by
  obtain ⟨r0, r1, r2, r3, r4, rfl⟩ : ∃ r0 r1 r2 r3 r4, ref = [r0, r1, r2, r3, r4] := by
    match ref, hr with
    | [r0, r1, r2, r3, r4], _ => exact ⟨r0, r1, r2, r3, r4, rfl⟩
  have h : List.range 5 = [0, 1, 2, 3, 4] := rfl
  have sq : ∀ j < 5, (f j - lit ([r0, r1, r2, r3, r4].getD j (0, 0)).1 ([r0, r1, r2, r3, r4].getD j (0, 0)).2) *
      (f j - lit ([r0, r1, r2, r3, r4].getD j (0, 0)).1 ([r0, r1, r2, r3, r4].getD j (0, 0)).2) ≤ 1e-12 := by
    intro j hj
    have := hc j hj
    rw [abs_sub_comm] at this
    have h2 := abs_mul_abs_self (f j - lit ([r0, r1, r2, r3, r4].getD j (0, 0)).1 ([r0, r1, r2, r3, r4].getD j (0, 0)).2)
    rw [← h2]
    nlinarith [abs_nonneg (f j - lit ([r0, r1, r2, r3, r4].getD j (0, 0)).1 ([r0, r1, r2, r3, r4].getD j (0, 0)).2)]
  have g0 := hf 0 (by omega); have g1 := hf 1 (by omega); have g2 := hf 2 (by omega); have g3 := hf 3 (by omega); have g4 := hf 4 (by omega)
  refine ⟨_, by
    unfold fDeviation rdBuf
    simp only [h, List.mapM_cons, List.mapM_nil, g0, g1, g2, g3, g4]
    rfl, ?_⟩
  have s0 := sq 0 (by omega); have s1 := sq 1 (by omega); have s2 := sq 2 (by omega); have s3 := sq 3 (by omega); have s4 := sq 4 (by omega)
  simp only [List.getD_cons_zero, List.getD_cons_succ] at s0 s1 s2 s3 s4
  have z : (lit 0 0 : ℝ) = 0 := by simp [lit, XCFun.Lit.lit]
  have t : (lit 1 8 : ℝ) = 1e-8 := by norm_num [lit, XCFun.Lit.lit]
  simp only [List.foldl_cons, List.foldl_nil, z, t]
  norm_num at s0 s1 s2 s3 s4 ⊢
  linarith

/-! ## The whole program -/

theorem op_whichVars (h : ℕ → Option (State ℝ)) : fOp codeKernel (.whichVars 1 0 0 0 0 0) ⟨.filled, h⟩ = .ok (.ok (), ⟨.filled, h⟩) := rfl
theorem op_whichMode (h : ℕ → Option (State ℝ)) : fOp codeKernel (.whichMode 3) ⟨.filled, h⟩ = .ok (.ok (), ⟨.filled, h⟩) := rfl

theorem fortran_run (m : FMemory ℝ) : fortranMain codeKernel realOrder farReal m Proc.start = .ok (.ok (), ⟨.filled, fun _ => none⟩) := by
  obtain ⟨s, h0, g0⟩ := pbe_set
  have hx : (xcfunGet s "pbex").1 = 0 ∧ (xcfunGet s "pbec").1 = 0 := ⟨by rfl, by rfl⟩
  set p := m.obj₁ with hpdef
  set H : ℕ → Option (State ℝ) := fun _ => none with hH
  obtain ⟨s0, r0, e0⟩ := fSetup_run (h := upd H p (some s)) (upd_same _ _ _) g0 (N := 0) (by omega)
  obtain ⟨s1, r1, e1⟩ := fSetup_run (h := upd H p (some s0)) (upd_same _ _ _) r0.pbe (N := 1) (by omega)
  obtain ⟨s2, r2, e2⟩ := fSetup_run (h := upd H p (some s1)) (upd_same _ _ _) r1.pbe (N := 2) (by omega)
  obtain ⟨s3, r3, e3⟩ := fSetup_run (h := upd H p (some s2)) (upd_same _ _ _) r2.pbe (N := 3) (by omega)
  rw [upd_upd] at e0 e1 e2 e3
  have c0 := fCompare_run (h := upd H p (some s0)) (upd_same _ _ _) r0 (by omega) (density := [row [1, 2, 3, 4]]) rfl rfl fcheck1 (m.junk 1) (m.buf 1)
  have c1 := fCompare_run (h := upd H p (some s1)) (upd_same _ _ _) r1 (by omega) (density := [row [1, 2, 3, 4], row [5, 6, 7, 8]]) rfl rfl fcheck2
    (m.junk 2) (m.buf 2)
  have c2 := fCompare_run (h := upd H p (some s1)) (upd_same _ _ _) r1 (by omega) (density := [row [1, 2, 3, 4], row [0, 0, 1, 0]]) rfl rfl fcheck3
    (m.junk 3) (m.buf 3)
  have c3 := fCompare_run (h := upd H p (some s2)) (upd_same _ _ _) r2 (by omega)
    (density := [row [1, 2, 3, 4], row [5, 6, 7, 8], row [5, 6, 7, 8], row [0, 0, 0, 0]]) rfl rfl fcheck4 (m.junk 4) (m.buf 4)
  have c4 := fCompare_run (h := upd H p (some s3)) (upd_same _ _ _) r3 (by omega)
    (density := [row [1, 2, 3, 4], row [5, 6, 7, 8], row [9, 10, 11, 12], row [5, 6, 7, 8], row [9, 10, 11, 12],
      row [5, 6, 7, 8], row [9, 10, 11, 12], row [0, 0, 0, 0]]) rfl rfl fcheck5 (m.junk 5) (m.buf 5)
  obtain ⟨t, k0, k1⟩ := pbex_set
  obtain ⟨k2, k3⟩ := k1.setup (v := .A_B_GAA_GAB_GBB) rfl (m := PARTIAL_DERIVATIVES) (.inl rfl) (o := 1) (by omega)
  set t' : State ℝ := { t with mode := PARTIAL_DERIVATIVES, vars := some .A_B_GAA_GAB_GBB, order := ((1 : ℕ) : ℤ) } with ht'
  have hr : DV.reads .A_B_GAA_GAB_GBB ≠ none := by decide
  obtain ⟨out, o1, -, o3, -⟩ := C48_eval_vec t' (v := .A_B_GAA_GAB_GBB) rfl hr rfl (k := 1) (M := 6) rfl (by omega) (abg_length rfl rfl rfl) (m.junk 6)
    fDens ⟨6, 5, fun _ _ => lit 0 0⟩ (n := 5) rfl rfl (by decide) (by decide) (by decide) (by decide) (by decide)
  replace o1 : fEvalVec codeKernel (m.junk 6) t' 5 fDens ⟨6, 5, fun _ _ => lit 0 0⟩ = .ok out := o1
  have hval : ∀ j < 5, ∀ i < 6, out[j * 6 + i]? = some (outR t' .A_B_GAA_GAB_GBB (point j) i) := by
    intro j hj i hi
    obtain ⟨r, q1, -, q3⟩ := o3 j hj
    have q := q1 (List.replicate 6 0) (by simp)
    rw [show Vars.A_B_GAA_GAB_GBB.len = 5 from rfl, point_eq, eval_out (s := t') rfl rfl rfl hr (point j) rfl (m.junk 6) _ rfl] at q
    rw [q3 i hi, ← Outcome.ok.inj q, List.getElem?_map, List.getElem?_range (show i < Vars.A_B_GAA_GAB_GBB.len + 1 from hi)]
    rfl
  have five : ∀ j < 5, j ∈ [0, 1, 2, 3, 4] := by intro j hj; simp; omega
  obtain ⟨d1, x1, y1⟩ := deviation_ok (pots := out) (row := 1) (ref := vrho) rfl (fun j hj => hval j hj 1 (by omega)) fun j hj =>
    close6_le (near_out code_ABG hr k2.1 (point j) 1) (List.all_eq_true.1 vrho_checks j (five j hj))
  replace x1 : fDeviation out 6 1 vrhoRef = .ok d1 := x1
  obtain ⟨d2, x2, y2⟩ := deviation_ok (pots := out) (row := 3) (ref := vsig) rfl (fun j hj => hval j hj 3 (by omega)) fun j hj =>
    close6_le (near_out code_ABG hr k2.1 (point j) 3) (List.all_eq_true.1 vsig_checks j (five j hj))
  replace x2 : fDeviation out 6 3 vsigRef = .ok d2 := x2
  have lt1 : realOrder.lt d1 (lit 1 8) = true := by unfold realOrder; simpa using y1
  have lt2 : realOrder.lt d2 (lit 1 8) = true := by unfold realOrder; simpa using y2
  unfold fortranMain
  rw [Prog.next (selfTest_run _ _ _ _ (Or.inl rfl) rfl), Prog.next (fAssert_run (by decide) _), Prog.next (op_whichVars _), Prog.next (op_whichMode _)]
  dsimp only
  rw [← hH, ← hpdef, Prog.next (Prog.new_run codeKernel filled_consistent rfl), Prog.next (fName_run (by decide) _)]
  dsimp only
  rw [Prog.next (Prog.int_run (Prog.set_run codeKernel (upd_same _ _ _) h0)), upd_upd,
    Prog.next (fAssert_run (by decide) _), Prog.next (fName_run (by decide) _), Prog.next (Prog.value_run (Prog.get_run codeKernel (upd_same _ _ _) _)),
    Prog.next (fAssert_run (by simpa using hx.1) _), Prog.next (fName_run (by decide) _),
    Prog.next (Prog.value_run (Prog.get_run codeKernel (upd_same _ _ _) _)), Prog.next (fAssert_run (by simpa using hx.2) _),
    Prog.next e0, Prog.next c0, Prog.next e1, Prog.next c1, Prog.next c2, Prog.next e2, Prog.next c3, Prog.next e3, Prog.next c4,
    Prog.next (Prog.delete_run codeKernel (s := s3) (upd_same H p (some s3)))]
  dsimp only
  have hback : upd (upd H p (some s3)) p none = H := by funext i; simp [upd, hH]
  have hback' : upd (upd H m.obj₂ (some t')) m.obj₂ none = H := by funext i; simp [upd, hH]
  have hset : fSetup codeKernel m.obj₂ Vars.A_B_GAA_GAB_GBB.code PARTIAL_DERIVATIVES ((1 : ℕ) : ℤ) ⟨.filled, upd H m.obj₂ (some t)⟩ =
      .ok (.ok (), ⟨.filled, upd H m.obj₂ (some t')⟩) := by
    unfold fSetup
    rw [Prog.next (Prog.int_run (Prog.setup_run codeKernel (upd_same _ _ _) k3)), upd_upd]
    exact fAssert_run (by decide) _
  rw [hback, Prog.next (Prog.new_run codeKernel filled_consistent rfl), Prog.next (fName_run (by decide) _)]
  dsimp only
  rw [Prog.next (Prog.int_run (Prog.set_run codeKernel (upd_same _ _ _) k0)), upd_upd, Prog.next (fAssert_run (by decide) _), Prog.next hset,
    Prog.next (Prog.int_run (Prog.length_run codeKernel (upd_same _ _ _) (abg_length rfl rfl rfl))),
    show Int.toNat 6 = 6 from rfl, Prog.next (evalVec_run (upd_same _ _ _) (by simp [fDens]) (by simp) o1), Prog.next (Prog.ofOutcome_run x1 _), Prog.next (Prog.ofOutcome_run x2 _),
    Prog.next (fAssert_run lt1 _), Prog.next (fAssert_run lt2 _), Prog.delete_run codeKernel (s := t') (upd_same H m.obj₂ (some t'))]
  dsimp only
  rw [hback']

end XCFun
