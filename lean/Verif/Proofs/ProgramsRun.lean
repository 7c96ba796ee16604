/-
The bundled programs: the five blocks of example.cpp and the parts of testall.cpp.
-/
import Verif.Proofs.Programs

namespace XCFun
open Spec Num Props

/-- An object with the active functionals and weights of `l`, which needs the density and its gradient. -/
structure HoldsGga (s : State ℝ) (l : List (Dec × IE Field)) : Prop where
  terms : Terms s l
  depends : s.depends = DENSITY ||| GRADIENT

theorem HoldsGga.setup {s : State ℝ} {l : List (Dec × IE Field)} (h : HoldsGga s l) {v : Vars} (hv : ((DENSITY ||| GRADIENT) &&& v.provides) = DENSITY ||| GRADIENT)
    {m : ℤ} (hm : m = PARTIAL_DERIVATIVES ∨ m = CONTRACTED) {o : ℕ} (ho : o ≤ 3) :
    HoldsGga { s with mode := m, vars := some v, order := (o : ℤ) } l ∧
      evalSetup s v.code m o = .ok (0, { s with mode := m, vars := some v, order := (o : ℤ) }) := by
  refine ⟨⟨h.1, h.2⟩, ?_⟩
  have hp : m ≠ POTENTIAL := by rcases hm with rfl | rfl <;> decide
  rw [evalSetup, ofCode_code]
  simp only [evalSetupVars]
  rw [h.2, if_neg (by simpa using hv), if_neg (by simp only [MAX_ORDER]; omega), if_neg (by simp [hp]), if_neg (by simp [hp])]

/-- PBE. -/
noncomputable def pbeTerms : List (Dec × IE Field) := [((1, 0), Fun.pbex.code), ((1, 0), Fun.pbec.code)]
/-- BLYP. -/
noncomputable def blypTerms : List (Dec × IE Field) := [((1, 0), Fun.beckex.code), ((1, 0), Fun.lypc.code)]

theorem pbe_set : ∃ s : State ℝ, xcfunSet State.init "pbe" (lit 1 0) = .ok (0, s) ∧ HoldsGga s pbeTerms := by
  have e : (lit 0 0 + lit 1 0 * lit 1 0 : ℝ) = lit 1 0 := by simp [lit, XCFun.Lit.lit]
  obtain ⟨s, h1, h2, h3, h4, h5⟩ : ∃ s : State ℝ, xcfunSet State.init "pbe" (lit 1 0) = .ok (0, s) ∧ s.active = [5, 4] ∧
    s.settings 5 = lit 0 0 + lit 1 0 * lit 1 0 ∧ s.settings 4 = lit 0 0 + lit 1 0 * lit 1 0 ∧ s.depends = DENSITY ||| GRADIENT := ⟨_, rfl, rfl, rfl, rfl, rfl⟩
  refine ⟨s, h1, ?_, h5⟩
  unfold Terms
  rw [h2]
  exact .cons ⟨h3.trans e, by rw [Fun.pbex.code_den]; rfl⟩ (.cons ⟨h4.trans e, by rw [Fun.pbec.code_den]; rfl⟩ .nil)

theorem blyp_set : ∃ s : State ℝ, xcfunSet State.init "blyp" (lit 1 0) = .ok (0, s) ∧ HoldsGga s blypTerms := by
  have e : (lit 0 0 + lit 1 0 * lit 1 0 : ℝ) = lit 1 0 := by simp [lit, XCFun.Lit.lit]
  obtain ⟨s, h1, h2, h3, h4, h5⟩ : ∃ s : State ℝ, xcfunSet State.init "blyp" (lit 1 0) = .ok (0, s) ∧ s.active = [6, 16] ∧
    s.settings 6 = lit 0 0 + lit 1 0 * lit 1 0 ∧ s.settings 16 = lit 0 0 + lit 1 0 * lit 1 0 ∧ s.depends = DENSITY ||| GRADIENT := ⟨_, rfl, rfl, rfl, rfl, rfl⟩
  refine ⟨s, h1, ?_, h5⟩
  unfold Terms
  rw [h2]
  exact .cons ⟨h3.trans e, by rw [Fun.beckex.code_den]; rfl⟩ (.cons ⟨h4.trans e, by rw [Fun.lypc.code_den]; rfl⟩ .nil)

/-! ## example.cpp -/

theorem block_run {h : ℕ → Option (State ℝ)} {p : ℕ} {s : State ℝ} (hs : h p = some s) (hp : HoldsGga s pbeTerms) {N : ℕ} (hN : N ≤ 3)
    {density : List (List ℝ)} {x : List Dec} (hx : x.length = 4 * 2 ^ N)
    (hin : ((List.range (4 * 2 ^ N)).mapM fun n => do
      let row ← rdBuf density (n % 2 ^ N)
      rdBuf row (n / 2 ^ N)) = .ok (x.map fun d => (lit d.1 d.2 : ℝ)))
    {r : Dec} (hr : close7 (sumT Dens.codeNX N (pathT N x) pbeTerms).last r = true) (junk : Junk ℝ) :
    ∃ s', HoldsGga s' pbeTerms ∧ exBlock codeKernel realOrder junk p N density (lit r.1 r.2) ⟨.filled, h⟩ =
      .ok (.ok [], ⟨.filled, upd h p (some s')⟩) := by
  obtain ⟨h1, h2⟩ := hp.setup (v := .N_NX_NY_NZ) rfl (m := CONTRACTED) (.inr rfl) hN
  set s' : State ℝ := { s with mode := CONTRACTED, vars := some .N_NX_NY_NZ, order := (N : ℤ) } with hs'
  refine ⟨s', h1, ?_⟩
  have hc := C17_contracted_expansion s' .N_NX_NY_NZ rfl rfl N rfl (by omega) (by decide) (fun k => (x.map fun d => (lit d.1 d.2 : ℝ)).getD k 0) []
    (List.replicate (2 ^ N) 0) junk (by simp)
  have hl : (List.range (Vars.N_NX_NY_NZ.len * 2 ^ N)).map (fun k => (x.map fun d => (lit d.1 d.2 : ℝ)).getD k 0) = x.map fun d => (lit d.1 d.2 : ℝ) := by
    refine List.ext_getElem (by simp [hx]; rfl) fun i h1 h2 => ?_
    have hi : i < x.length := by simpa using h2
    simp [hi]
  rw [List.append_nil, hl, List.drop_of_length_le (by simp), List.append_nil] at hc
  have hq := close7_lt (near_contracted code_NX (by decide) h1.1 hN x) hr
  have h2N : 0 < 2 ^ N := by positivity
  unfold exBlock
  rw [Prog.next (Prog.int_run (Prog.setup_run codeKernel hs h2))]
  unfold exDerivative
  rw [Prog.next (w' := ⟨.filled, upd h p (some s')⟩) (a := (energyOn s' .N_NX_NY_NZ (fun i => CT.ofFn N fun S =>
    (x.map fun d => (lit d.1 d.2 : ℝ)).getD (i * 2 ^ N + S) 0)).get (2 ^ N - 1))]
  · have hlt : realOrder.lt (lit 1 6) (realOrder.abs (lit r.1 r.2 - (energyOn s' .N_NX_NY_NZ (fun i => CT.ofFn N fun S =>
        (x.map fun d => (lit d.1 d.2 : ℝ)).getD (i * 2 ^ N + S) 0)).get (2 ^ N - 1))) = false := by
      unfold realOrder
      simp only [decide_eq_false_iff_not, not_lt]
      refine hq.le.trans (le_of_eq ?_)
      norm_num [lit, XCFun.Lit.lit]
    rw [hlt]
    rfl
  · rw [Prog.next (Prog.ofOutcome_run hin _), Prog.next (Prog.eval_run codeKernel (upd_same _ _ _) hc)]
    refine Prog.ofOutcome_run ?_ _
    unfold rdBuf
    rw [List.getElem?_map, List.getElem?_range (by omega)]
    rfl

theorem fcheck1 : close7 (sumT Dens.codeNX 0 (pathT 0 [(1,0),(2,0),(3,0),(4,0)]) pbeTerms).last (-86494159400066051, 17) = true := by decide +kernel
theorem fcheck2 : close7 (sumT Dens.codeNX 1 (pathT 1 [(1,0),(5,0),(2,0),(6,0),(3,0),(7,0),(4,0),(8,0)]) pbeTerms).last (-51509916226154067, 16) = true := by
  decide +kernel
theorem fcheck3 : close7 (sumT Dens.codeNX 1 (pathT 1 [(1,0),(0,0),(2,0),(0,0),(3,0),(1,0),(4,0),(0,0)]) pbeTerms).last (-13470456737102541, 18) = true := by
  decide +kernel
theorem fcheck4 : close7 (sumT Dens.codeNX 2 (pathT 2 [(1,0),(5,0),(5,0),(0,0),(2,0),(6,0),(6,0),(0,0),(3,0),(7,0),(7,0),(0,0),(4,0),(8,0),(8,0),(0,0)])
    pbeTerms).last (-94927931153398468, 16) = true := by decide +kernel
theorem fcheck5 : close7 (sumT Dens.codeNX 3 (pathT 3 [(1,0),(5,0),(9,0),(5,0),(9,0),(5,0),(9,0),(0,0),(2,0),(6,0),(10,0),(6,0),(10,0),(6,0),(10,0),(0,0),
    (3,0),(7,0),(11,0),(7,0),(11,0),(7,0),(11,0),(0,0),(4,0),(8,0),(12,0),(8,0),(12,0),(8,0),(12,0),(0,0)]) pbeTerms).last (47091223089835331, 15) = true := by
  decide +kernel

/-- The program from a process whose tables are consistent. -/
theorem example_run (junk : ℕ → Junk ℝ) (p : ℕ) (w : Proc ℝ) (hw : w.tabs.Consistent) (hp : w.heap p = none) :
    exampleMain codeKernel realOrder junk p w = .ok (.ok [], ⟨.filled, w.heap⟩) := by
  obtain ⟨s, h0, g0⟩ := pbe_set
  unfold exampleMain
  rw [Prog.next (Prog.new_run codeKernel hw hp), Prog.next (Prog.int_run (Prog.set_run codeKernel (upd_same _ _ _) h0)), upd_upd]
  obtain ⟨s1, g1, e1⟩ := block_run (h := upd w.heap p (some s)) (upd_same _ _ _) g0 (N := 0) (by omega) (density := [row [1, 2, 3, 4]]) rfl rfl fcheck1 (junk 1)
  obtain ⟨s2, g2, e2⟩ := block_run (h := upd w.heap p (some s1)) (upd_same _ _ _) g1 (N := 1) (by omega) (density := [row [1, 2, 3, 4], row [5, 6, 7, 8]]) rfl rfl
    fcheck2 (junk 2)
  obtain ⟨s3, g3, e3⟩ := block_run (h := upd w.heap p (some s2)) (upd_same _ _ _) g2 (N := 1) (by omega) (density := [row [1, 2, 3, 4], row [0, 0, 1, 0]]) rfl rfl
    fcheck3 (junk 3)
  obtain ⟨s4, g4, e4⟩ := block_run (h := upd w.heap p (some s3)) (upd_same _ _ _) g3 (N := 2) (by omega)
    (density := [row [1, 2, 3, 4], row [5, 6, 7, 8], row [5, 6, 7, 8], row [0, 0, 0, 0]]) rfl rfl fcheck4 (junk 4)
  obtain ⟨s5, g5, e5⟩ := block_run (h := upd w.heap p (some s4)) (upd_same _ _ _) g4 (N := 3) (by omega)
    (density := [row [1, 2, 3, 4], row [5, 6, 7, 8], row [9, 10, 11, 12], row [5, 6, 7, 8], row [9, 10, 11, 12],
      row [5, 6, 7, 8], row [9, 10, 11, 12], row [0, 0, 0, 0]]) rfl rfl fcheck5 (junk 5)
  rw [upd_upd] at e1 e2 e3 e4 e5
  rw [Prog.next e1, Prog.next e2, Prog.next e3, Prog.next e4, Prog.next e5, Prog.next (Prog.delete_run codeKernel (upd_same _ _ _))]
  dsimp only
  rw [upd_upd, ← hp, upd_self]
  rfl

end XCFun
