/-
C67: the tests of the Python module pass in exact arithmetic.

Every test of tests/test_xcfun.py except `test_splash`, and the test shadowed by another of the same name, passes when arithmetic is exact: every call
succeeds or raises what the test expects, and every number is within the tolerance of its reference value.  This holds for every content of
uninitialised arrays.  Where the unrestricted potential of a GGA is computed, uninitialised storage is read (C46): there, the tests pass for every content of that
storage, and are undefined if reading it is.
-/
import Verif.Proofs.PyTestsNum
import Verif.Props.Accepted

namespace XCFun.Props
open XCFun Spec Num

variable (junk : ℕ → Junk ℝ) (u : ℕ → ℕ → ℝ)

/-! ## Points -/

theorem point_N (i : ℕ) : pointN dens none i = fun k => [(densAt i : ℝ)].getD k 0 := by
  funext k
  match k with
  | 0 => rfl
  | 1 => rfl
  | 2 => rfl
  | 3 => rfl
  | _ + 4 => rfl

theorem point_NX (i : ℕ) : pointN dens (some (densgrad realNumpy)) i = fun k => (rowNR i).getD k 0 := by
  funext k
  match k with
  | 0 => rfl
  | 1 => rfl
  | 2 => rfl
  | 3 => rfl
  | _ + 4 => rfl

theorem point_AB (a b : ℕ → ℝ) (i : ℕ) : pointAB (rho a b) none i = fun k => [a i, b i].getD k 0 := by
  funext k
  match k with
  | 0 => rfl
  | 1 => rfl
  | 2 => rfl
  | 3 => rfl
  | 4 => rfl
  | 5 => rfl
  | 6 => rfl
  | 7 => rfl
  | _ + 8 => rfl

theorem point_ABX (a b : ℕ → ℝ) (ca cb : Dec) (i : ℕ) :
    pointAB (rho a b) (some (rhograd realNumpy (lit ca.1 ca.2) (lit cb.1 cb.2))) i = fun k => (rowABR a b ca cb i).getD k 0 := by
  funext k
  match k with
  | 0 => rfl
  | 1 => rfl
  | 2 => rfl
  | 3 => rfl
  | 4 => rfl
  | 5 => rfl
  | 6 => rfl
  | 7 => rfl
  | _ + 8 => rfl

theorem point_N2 (i k : ℕ) (hk : k < 10) :
    (pyDensN2 10 dens (densgrad realNumpy) (denshess realNumpy)).elem [i, k] = (rowN2R i).getD k 0 := by
  interval_cases k <;> rfl

theorem point_AB2 (a b : ℕ → ℝ) (ca cb ha hb : Dec) (i k : ℕ) (hk : k < 20) :
    (pyDensAB2 10 (rho a b) (rhograd realNumpy (lit ca.1 ca.2) (lit cb.1 cb.2)) (rhohess realNumpy (lit ha.1 ha.2) (lit hb.1 hb.2))).elem [i, k] =
      (rowAB2R a b ca cb ha hb i).getD k 0 := by
  interval_cases k <;> rfl

/-! ## Numbers -/

section
variable {s : State ℝ}

theorem near_eN (h : Terms s ldaTerms) (i : ℕ) : Near (eN i) (energyAt s .N (pointN dens none i)) := by
  rw [point_N]; exact near_energyQ code_N (by decide) h (.cons (near_densQ i) .nil)

theorem near_vN (h : Terms s ldaTerms) (i : ℕ) : Near (vN i) (D1 s .N (pointN dens none i) 0) := by
  rw [point_N]; exact near_derivQ code_N (by decide) h (.cons (near_densQ i) .nil) 0

theorem near_eAB (h : Terms s ldaTerms) {a b : ℕ → Q} {x y : ℕ → ℝ} {i : ℕ} (ha : Near (a i) (x i)) (hb : Near (b i) (y i)) :
    Near (eAB a b i) (energyAt s .A_B (pointAB (rho x y) none i)) := by
  rw [point_AB]; exact near_energyQ code_AB (by decide) h (.cons ha (.cons hb .nil))

theorem near_vAB (h : Terms s ldaTerms) {a b : ℕ → Q} {x y : ℕ → ℝ} {i : ℕ} (ha : Near (a i) (x i)) (hb : Near (b i) (y i)) (j : ℕ) :
    Near (vAB a b j i) (D1 s .A_B (pointAB (rho x y) none i) j) := by
  rw [point_AB]; exact near_derivQ code_AB (by decide) h (.cons ha (.cons hb .nil)) j

theorem near_eNX (h : Terms s pbeTerms) (i : ℕ) : Near (eNX i) (energyAt s .N_NX_NY_NZ (pointN dens (some (densgrad realNumpy)) i)) := by
  rw [point_NX]; exact near_energyQ code_NX (by decide) h (near_rowN i)

theorem near_eN2 (h : Terms s pbeTerms) (i : ℕ) : Near (eN2 i) (energyAt s .N_2ND_TAYLOR fun k => (rowN2R i).getD k 0) :=
  near_energyQ code_NT (by decide) h (near_rowN2 i)

theorem near_vN2 (h : Terms s pbeTerms) (i : ℕ) :
    Near (vN2 i) (D1 s .N_2ND_TAYLOR (fun k => (rowN2R i).getD k 0) 0 - (ggaN codeKernel s .N_2ND_TAYLOR fun k => (rowN2R i).getD k 0).get 3) :=
  Q.near_sub (near_derivQ code_NT (by decide) h (near_rowN2 i) 0) (near_divNQ code_NT (by decide) h (near_rowN2 i))

theorem near_eABX (h : Terms s pbeTerms) {a b : ℕ → Q} {x y : ℕ → ℝ} {i : ℕ} (ha : Near (a i) (x i)) (hb : Near (b i) (y i)) (ca cb : Dec) :
    Near (eABX (rowABQ a b ca cb) i) (energyAt s .A_B_AX_AY_AZ_BX_BY_BZ (pointAB (rho x y) (some (rhograd realNumpy (lit ca.1 ca.2) (lit cb.1 cb.2))) i)) := by
  rw [point_ABX]; exact near_energyQ code_ABX (by decide) h (near_rowAB ha hb ca cb)

theorem near_eAB2 (h : Terms s pbeTerms) {a b : ℕ → Q} {x y : ℕ → ℝ} {i : ℕ} (ha : Near (a i) (x i)) (hb : Near (b i) (y i)) (ca cb da db : Dec) :
    Near (eAB2 (rowAB2Q a b ca cb da db) i) (energyAt s .A_B_2ND_TAYLOR fun k => (rowAB2R x y ca cb da db i).getD k 0) :=
  near_energyQ code_ABT (by decide) h (near_rowAB2 ha hb ca cb da db)

theorem near_vAB2 (h : Terms s pbeTerms) {a b : ℕ → Q} {x y : ℕ → ℝ} {i : ℕ} (ha : Near (a i) (x i)) (hb : Near (b i) (y i)) (ca cb da db : Dec)
    (old : ℕ → CT ℝ 2) (j : ℕ) :
    Near (vAB2 (rowAB2Q a b ca cb da db) j i) (D1 s .A_B_2ND_TAYLOR (fun k => (rowAB2R x y ca cb da db i).getD k 0) (10 * j) -
      (ggaAB codeKernel s .A_B_2ND_TAYLOR (fun k => (rowAB2R x y ca cb da db i).getD k 0) old j).get 3) :=
  Q.near_sub (near_derivQ code_ABT (by decide) h (near_rowAB2 ha hb ca cb da db) _) (near_divABQ code_ABT (by decide) h (near_rowAB2 ha hb ca cb da db) old j)

end

/-! ## C67 -/

/-- **C67, `test_lda_old`.** -/
theorem C67_lda_old : testLdaOld codeKernel realNumpy junk u = Outcome.ok (.ok ()) := by
  obtain ⟨s, h0, hs⟩ := lda_functional
  obtain ⟨data, s', e, -, hd⟩ := potentialN_lda (junk 0) (u 0) hs (d := ⟨[1], fun _ => lit 1 0⟩) (n := 1) rfl (by norm_num)
  have hp : pointN ⟨[1], fun _ => lit 1 0⟩ none 0 = fun k => [(lit 1 0 : ℝ)].getD k 0 := by
    funext k
    match k with
    | 0 => rfl
    | 1 => rfl
    | 2 => rfl
    | 3 => rfl
    | _ + 4 => rfl
  unfold testLdaOld
  rw [PyTest.next h0, PyTest.next (PyTest.call_run e)]
  dsimp only
  obtain ⟨d0, d1⟩ := hd 0 (by omega)
  rw [hp] at d0 d1
  have n0 : List.Forall₂ Near [ofDec (1, 0)] [(lit 1 0 : ℝ)] := .cons (near_ofDec (1, 0)) .nil
  rw [PyTest.next (item_run (by omega) (by omega) d0), PyTest.next (item_run (by omega) (by omega) d1)]
  refine (PyTest.next (allclose_map (n := 1) (x := fun _ => _) (y := fun _ => _) fun _ _ =>
    relQ_le (near_energyQ code_N (by decide) hs.2 n0) (near_ofDec (-8101513, 7)) num_old.1)).trans ?_
  exact allclose_map (n := 1) (x := fun _ => D1 s .N (fun k => [(lit 1 0 : ℝ)].getD k 0) 0) (y := fun _ => lit (-106468341) 8) fun _ _ =>
    relQ_le (near_derivQ code_N (by decide) hs.2 n0 0) (near_ofDec (-106468341, 8)) num_old.2

/-- **C67, `test_type`.** -/
theorem C67_type : testType (V := ℝ) = Outcome.ok (.ok ()) := by
  obtain ⟨s, h0, hs⟩ := lda_functional
  obtain ⟨t, h1, ht⟩ := pbe_functional
  unfold testType
  rw [PyTest.next h0, PyTest.next h1]
  simp only [pyType, hs.lda, ht.gga]
  rfl

/-- **C67, `test_lda_energy_restr`.** -/
theorem C67_lda_energy_restr : testLdaEnergyRestr codeKernel realNumpy junk u = Outcome.ok (.ok ()) := by
  obtain ⟨s, h0, hs⟩ := lda_functional
  obtain ⟨s', e, -⟩ := energyN_lda (junk 0) (u 0) hs (d := dens) (n := 10) rfl (by norm_num)
  unfold testLdaEnergyRestr
  rw [PyTest.next h0, PyTest.next (PyTest.call_run e)]
  exact allclose_ref rfl (fun i _ => near_eN hs.2 i) num_eN

/-- **C67, `test_lda_potential_restr`.** -/
theorem C67_lda_potential_restr : testLdaPotentialRestr codeKernel realNumpy junk u = Outcome.ok (.ok ()) := by
  obtain ⟨s, h0, hs⟩ := lda_functional
  obtain ⟨data, s', e, -, hd⟩ := potentialN_lda (junk 0) (u 0) hs (d := dens) (n := 10) rfl (by norm_num)
  unfold testLdaPotentialRestr
  rw [PyTest.next h0, PyTest.next (PyTest.call_run e)]
  dsimp only
  rw [PyTest.next (column_run (by omega) _ fun i hi => (hd i hi).1)]
  refine (PyTest.next (allclose_ref (n := 10) rfl (fun i _ => near_eN hs.2 i) num_eN)).trans ?_
  rw [PyTest.next (column_run (by omega) _ fun i hi => (hd i hi).2)]
  exact allclose_ref rfl (fun i _ => near_vN hs.2 i) num_vN

/-- **C67, `test_lda_energy_unrestr_closedshell`.** -/
theorem C67_lda_energy_closed : testLdaEnergyClosed codeKernel realNumpy junk u = Outcome.ok (.ok ()) := by
  obtain ⟨s, h0, hs⟩ := lda_functional
  obtain ⟨s', e, -⟩ := energyAB_lda (junk 0) (u 0) hs (d := rhoClosed) (n := 10) rfl (by norm_num)
  unfold testLdaEnergyClosed
  rw [PyTest.next h0, PyTest.next (PyTest.call_run e)]
  exact allclose_ref rfl (fun i _ => near_eAB hs.2 (near_half i) (near_half i)) num_eClosed

/-- **C67, `test_lda_potential_unrestr_closedshell`.** -/
theorem C67_lda_potential_closed : testLdaPotentialClosed codeKernel realNumpy junk u = Outcome.ok (.ok ()) := by
  obtain ⟨s, h0, hs⟩ := lda_functional
  obtain ⟨data, s', e, -, hd⟩ := potentialAB_lda (junk 0) (u 0) hs (d := rhoClosed) (n := 10) rfl (by norm_num)
  unfold testLdaPotentialClosed
  rw [PyTest.next h0, PyTest.next (PyTest.call_run e)]
  dsimp only
  rw [PyTest.next (column_run (by omega) _ fun i hi => (hd i hi).1)]
  refine (PyTest.next (allclose_ref (n := 10) rfl (fun i _ => near_eAB hs.2 (near_half i) (near_half i)) num_eClosed)).trans ?_
  rw [PyTest.next (column_run (by omega) _ fun i hi => (hd i hi).2.1)]
  refine (PyTest.next (allclose_ref (n := 10) rfl (fun i _ => near_vAB hs.2 (near_half i) (near_half i) 0) num_vClosed0)).trans ?_
  rw [PyTest.next (column_run (by omega) _ fun i hi => (hd i hi).2.2)]
  exact allclose_ref rfl (fun i _ => near_vAB hs.2 (near_half i) (near_half i) 1) num_vClosed1

/-- **C67, `test_lda_energy_unrestr_openshell`.** -/
theorem C67_lda_energy_open : testLdaEnergyOpen codeKernel realNumpy junk u = Outcome.ok (.ok ()) := by
  obtain ⟨s, h0, hs⟩ := lda_functional
  obtain ⟨s', e, -⟩ := energyAB_lda (junk 0) (u 0) hs (d := rhoOpen realNumpy) (n := 10) rfl (by norm_num)
  unfold testLdaEnergyOpen
  rw [PyTest.next h0, PyTest.next (PyTest.call_run e)]
  exact allclose_ref rfl (fun i _ => near_eAB hs.2 (near_openA i) (near_openB i)) num_eOpen

/-- **C67, `test_lda_potential_unrestr_openshell`.** -/
theorem C67_lda_potential_open : testLdaPotentialOpen codeKernel realNumpy junk u = Outcome.ok (.ok ()) := by
  obtain ⟨s, h0, hs⟩ := lda_functional
  obtain ⟨data, s', e, hs', hd⟩ := potentialAB_lda (junk 0) (u 0) hs (d := rhoOpen realNumpy) (n := 10) rfl (by norm_num)
  obtain ⟨s'', e', -⟩ := energyAB_lda (junk 1) (u 1) hs' (d := rhoOpen realNumpy) (n := 10) rfl (by norm_num)
  unfold testLdaPotentialOpen
  rw [PyTest.next h0, PyTest.next (PyTest.call_run e)]
  dsimp only
  rw [PyTest.next (column_run (by omega) _ fun i hi => (hd i hi).2.1)]
  refine (PyTest.next (allclose_ref (n := 10) rfl (fun i _ => near_vAB hs.2 (near_openA i) (near_openB i) 0) num_vOpen0)).trans ?_
  rw [PyTest.next (column_run (by omega) _ fun i hi => (hd i hi).2.2)]
  refine (PyTest.next (allclose_ref (n := 10) rfl (fun i _ => near_vAB hs.2 (near_openA i) (near_openB i) 1) num_vOpen1)).trans ?_
  rw [PyTest.next (PyTest.call_run e')]
  dsimp only
  rw [PyTest.next (column_run (by omega) _ fun i hi => (hd i hi).1)]
  exact allclose_run (fun i _ => near_eAB hs.2 (near_openA i) (near_openB i)) (fun i _ => near_eAB hs'.2 (near_openA i) (near_openB i)) num_eOpenSame

/-- **C67, `test_pbe_energy_restr`.** -/
theorem C67_pbe_energy_restr : testPbeEnergyRestr codeKernel realNumpy junk u = Outcome.ok (.ok ()) := by
  obtain ⟨s, h0, hs⟩ := pbe_functional
  obtain ⟨s', e, -⟩ := energyN_gga (junk 0) (u 0) hs (d := dens) (n := 10) rfl (g := densgrad realNumpy) rfl (by norm_num)
  unfold testPbeEnergyRestr
  rw [PyTest.next h0, PyTest.next (PyTest.call_run e)]
  exact allclose_ref rfl (fun i _ => near_eNX hs.2 i) num_eNX

/-- **C67, `test_pbe_potential_restr`.** -/
theorem C67_pbe_potential_restr : testPbePotentialRestr codeKernel realNumpy junk u = Outcome.ok (.ok ()) := by
  obtain ⟨s, h0, hs⟩ := pbe_functional
  obtain ⟨data, s', e, -, hd⟩ := potentialN_gga (junk 0) (u 0) hs (d := dens) (n := 10) rfl (g := densgrad realNumpy) (hh := denshess realNumpy) rfl rfl (by norm_num)
    _ fun i _ k hk => point_N2 i k hk
  unfold testPbePotentialRestr
  rw [PyTest.next h0, PyTest.next (PyTest.call_run e)]
  dsimp only
  rw [PyTest.next (column_run (by omega) _ fun i hi => (hd i hi).1)]
  refine (PyTest.next (allclose_ref (n := 10) rfl (fun i _ => near_eN2 hs.2 i) num_eN2)).trans ?_
  rw [PyTest.next (column_run (by omega) _ fun i hi => (hd i hi).2)]
  exact allclose_ref rfl (fun i _ => near_vN2 hs.2 i) num_vN2

/-- **C67, `test_pbe_energy_unrestr_closedshell`.** -/
theorem C67_pbe_energy_closed : testPbeEnergyClosed codeKernel realNumpy junk u = Outcome.ok (.ok ()) := by
  obtain ⟨s, h0, hs⟩ := pbe_functional
  obtain ⟨s', e, -⟩ := energyAB_gga (junk 0) (u 0) hs (d := rhoClosed) (n := 10) rfl (g := rhograd realNumpy (lit 5 1) (lit 5 1)) rfl (by norm_num)
  unfold testPbeEnergyClosed
  rw [PyTest.next h0, PyTest.next (PyTest.call_run e)]
  exact allclose_ref rfl (fun i _ => near_eABX hs.2 (near_half i) (near_half i) (5, 1) (5, 1)) num_eClosedX

/-- **C67, the first definition of `test_pbe_potential_unrestr_closedshell`**, which pytest does not run. -/
theorem C67_pbe_potential_closed (hj : junk 0 ≠ none) : testPbePotentialClosed codeKernel realNumpy junk u = Outcome.ok (.ok ()) := by
  obtain ⟨j, hj⟩ := Option.ne_none_iff_exists'.1 hj
  obtain ⟨s, h0, hs⟩ := pbe_functional
  obtain ⟨data, s', e, -, hd⟩ := potentialAB_gga (u 0) j hs (d := rhoClosed) (n := 10) rfl (g := rhograd realNumpy (lit 5 1) (lit 5 1))
    (hh := rhohess realNumpy (lit 5 1) (lit 5 1)) rfl rfl (by norm_num) _ fun i _ k hk => point_AB2 _ _ (5, 1) (5, 1) (5, 1) (5, 1) i k hk
  unfold testPbePotentialClosed
  rw [hj, PyTest.next h0, PyTest.next (PyTest.call_run e)]
  dsimp only
  rw [PyTest.next (column_run (by omega) _ fun i hi => (hd i hi).1)]
  refine (PyTest.next (allclose_ref (n := 10) rfl (fun i _ => near_eAB2 hs.2 (near_half i) (near_half i) (5, 1) (5, 1) (5, 1) (5, 1)) num_eClosed2)).trans ?_
  rw [PyTest.next (column_run (by omega) _ fun i hi => (hd i hi).2.1)]
  refine (PyTest.next (allclose_ref (n := 10) rfl (fun i _ => near_vAB2 hs.2 (near_half i) (near_half i) (5, 1) (5, 1) (5, 1) (5, 1) _ 0) num_vClosed20)).trans ?_
  rw [PyTest.next (column_run (by omega) _ fun i hi => (hd i hi).2.2)]
  exact allclose_ref rfl (fun i _ => near_vAB2 hs.2 (near_half i) (near_half i) (5, 1) (5, 1) (5, 1) (5, 1) _ 1) num_vClosed21

/-- **C67, `test_pbe_energy_unrestr_openshell`.** -/
theorem C67_pbe_energy_open : testPbeEnergyOpen codeKernel realNumpy junk u = Outcome.ok (.ok ()) := by
  obtain ⟨s, h0, hs⟩ := pbe_functional
  obtain ⟨s', e, -⟩ := energyAB_gga (junk 0) (u 0) hs (d := rhoOpen2 realNumpy) (n := 10) rfl (g := rhograd realNumpy (lit 4 1) (lit 6 1)) rfl (by norm_num)
  unfold testPbeEnergyOpen
  rw [PyTest.next h0, PyTest.next (PyTest.call_run e)]
  exact allclose_ref rfl (fun i _ => near_eABX hs.2 (near_open2A i) (near_open2B i) (4, 1) (6, 1)) num_eOpenX

/-- **C67, the second definition of `test_pbe_potential_unrestr_closedshell`.** -/
theorem C67_pbe_potential_open (hj : junk 0 ≠ none) : testPbePotentialOpen codeKernel realNumpy junk u = Outcome.ok (.ok ()) := by
  obtain ⟨j, hj⟩ := Option.ne_none_iff_exists'.1 hj
  obtain ⟨s, h0, hs⟩ := pbe_functional
  obtain ⟨data, s', e, hs', hd⟩ := potentialAB_gga (u 0) j hs (d := rhoOpen2 realNumpy) (n := 10) rfl (g := rhograd realNumpy (lit 4 1) (lit 6 1))
    (hh := rhohess realNumpy (lit 7 1) (lit 2 1)) rfl rfl (by norm_num) _ fun i _ k hk => point_AB2 _ _ (4, 1) (6, 1) (7, 1) (2, 1) i k hk
  obtain ⟨s'', e', -⟩ := energyAB_gga (junk 1) (u 1) hs' (d := rhoOpen2 realNumpy) (n := 10) rfl (g := rhograd realNumpy (lit 4 1) (lit 6 1)) rfl (by norm_num)
  unfold testPbePotentialOpen
  rw [hj, PyTest.next h0, PyTest.next (PyTest.call_run e)]
  dsimp only
  rw [PyTest.next (column_run (by omega) _ fun i hi => (hd i hi).2.1)]
  refine (PyTest.next (allclose_ref (n := 10) rfl (fun i _ => near_vAB2 hs.2 (near_open2A i) (near_open2B i) (4, 1) (6, 1) (7, 1) (2, 1) _ 0) num_vOpen20)).trans ?_
  rw [PyTest.next (column_run (by omega) _ fun i hi => (hd i hi).2.2)]
  refine (PyTest.next (allclose_ref (n := 10) rfl (fun i _ => near_vAB2 hs.2 (near_open2A i) (near_open2B i) (4, 1) (6, 1) (7, 1) (2, 1) _ 1) num_vOpen21)).trans ?_
  rw [PyTest.next (PyTest.call_run e')]
  dsimp only
  rw [PyTest.next (column_run (by omega) _ fun i hi => (hd i hi).1)]
  exact allclose_run (fun i _ => near_eAB2 hs.2 (near_open2A i) (near_open2B i) (4, 1) (6, 1) (7, 1) (2, 1))
    (fun i _ => near_eABX hs'.2 (near_open2A i) (near_open2B i) (4, 1) (6, 1)) num_eOpen2

/-! ### Undefined behaviour -/

theorem pyEval_undefined {K : Kernel ℝ} {junk : Junk ℝ} {w : ℕ → ℝ} {s : State ℝ} {a : NdArray ℝ} {n M : ℕ} {v : Vars}
    (hv : s.vars = some v) (ho : outputLength s = .ok (M : ℤ)) (ha : a.shape = [n, v.len]) (h0 : 0 < n) (hn : n < 2147483648)
    (he : ∀ input output : List ℝ, v.len ≤ input.length → M ≤ output.length → xcfunEval K junk s input output = .ub) :
    pyEval K junk w s a = .ub := by
  obtain ⟨n, rfl⟩ : ∃ m, n = m + 1 := ⟨n - 1, by omega⟩
  have hi : inputLength s = .ok (v.len : ℤ) := by simp [inputLength, hv]
  have ht : (toInt ((n + 1 : ℕ) : ℤ)).toNat = n + 1 := by unfold toInt; omega
  have hf : v.len ≤ a.flat.length := by rw [flat_two ha]; simp; nlinarith
  unfold pyEval
  rw [hi, ho, ha]
  have e : xcfunEvalVec K junk s (toInt ((n + 1 : ℕ) : ℤ)) a.flat 0 v.len ((List.range ((n + 1) * (M : ℤ).toNat)).map w) 0 M = .ub := by
    unfold xcfunEvalVec
    rw [ht, forLoop]
    have hM : M ≤ (n + 1) * M := by nlinarith
    have := he a.flat ((List.range ((n + 1) * M)).map w) hf (by simpa using hM)
    simp [this, inInt]
  simp only [Outcome.ok_bind, List.getLast_cons_cons, List.getLast_singleton, ne_eq, not_true_eq_false, if_false]
  rw [e]
  rfl
theorem pySetupEval_undefined {K : Kernel ℝ} {junk : Junk ℝ} {w : ℕ → ℝ} {s s' : State ℝ} {a : NdArray ℝ} {v : Vars} {m o : ℤ}
    (e1 : pyEvalSetup s v m o = .ok (.ok (), s')) (e2 : pyEval K junk w s' a = .ub) : pySetupEval K junk w s v m o true a = .ub := by
  unfold pySetupEval
  rw [e1]
  simp only [Outcome.ok_bind, if_true]
  rw [e2]
  rfl

/-- The unrestricted potential of a GGA at one point or more. -/
theorem potentialAB_undefined {s : State ℝ} {l : List (Dec × IE Field)} (w : ℕ → ℝ) (h : Obj s l (DENSITY ||| GRADIENT)) {d g hh : NdArray ℝ} {n : ℕ}
    (h0 : 0 < n) (hn : n < 2147483648) (hd : d.shape = [n, 2]) (hg : g.shape = [n, 3, 2]) (hhs : hh.shape = [n, 6, 2]) :
    evalPotentialAB codeKernel none w s d (some g) (some hh) = .ub := by
  obtain ⟨k, hr⟩ := h.1
  obtain ⟨e0, e1⟩ := py_setup hr h.gga.1 (v := .A_B_2ND_TAYLOR) (m := POTENTIAL) (o := 1) ⟨_, rfl, rfl⟩ (fun _ => ⟨_, rfl, rfl⟩) (by simp [OrderOk])
    (fun _ _ => by simp [HessianVars])
  have e2 : pyEval codeKernel none w { s with mode := POTENTIAL, vars := some .A_B_2ND_TAYLOR, order := 1 } (pyDensAB2 n d g hh) = .ub :=
    pyEval_undefined (n := n) (M := 3) (v := .A_B_2ND_TAYLOR) rfl (outlenPot rfl rfl rfl (by decide)) rfl h0 hn fun input output h1 h2 =>
      C46_unrestricted_gga_undefined codeKernel codeKernel_local rfl k s _ hr POTENTIAL 1 e0 ⟨rfl, rfl, (gga_needs hr).1 h.gga.2⟩ input output h1 h2
  unfold evalPotentialAB
  rw [hd]
  simp only [h.gga.1, h.gga.2, Bool.false_eq_true, if_false, if_true, hg, hhs, and_self, decide_true]
  exact pySetupEval_undefined e1 e2

theorem next_undefined {V α β : Type} {m : Outcome (Except PyExc α × State V)} {f : α × State V → PyTest β} (h : m = .ub) : (PyTest.call m >>= f) = Outcome.ub := by
  subst h; rfl

/-- **C67, undefined behaviour**: where the language leaves reading uninitialised storage undefined, so is the test. -/
theorem C67_pbe_potential_open_undefined (hj : junk 0 = none) : testPbePotentialOpen codeKernel realNumpy junk u = Outcome.ub := by
  obtain ⟨s, h0, hs⟩ := pbe_functional
  unfold testPbePotentialOpen
  rw [hj, PyTest.next h0]
  exact next_undefined (potentialAB_undefined (u 0) hs (n := 10) (by norm_num) (by norm_num) rfl rfl rfl)

/-- **C67, undefined behaviour** of the test shadowed by it. -/
theorem C67_pbe_potential_closed_undefined (hj : junk 0 = none) : testPbePotentialClosed codeKernel realNumpy junk u = Outcome.ub := by
  obtain ⟨s, h0, hs⟩ := pbe_functional
  unfold testPbePotentialClosed
  rw [hj, PyTest.next h0]
  exact next_undefined (potentialAB_undefined (u 0) hs (n := 10) (by norm_num) (by norm_num) rfl rfl rfl)

/-! ### Exceptions -/

section
variable {s : State ℝ} {l : List (Dec × IE Field)} {dep : ℕ} {d : NdArray ℝ} {g hh : Option (NdArray ℝ)}

theorem raise_energyN (h : Obj s l dep) (j : Junk ℝ) (w : ℕ → ℝ) (hb : BadEnergyArgs s d g [] [3]) :
    ∃ s', evalEnergyN codeKernel j w s d g = .ok (.error .xcfunException, s') ∧ Obj s' l dep := by
  obtain ⟨k, hr⟩ := h.1
  obtain ⟨s', e, hs⟩ := C47_energy_n_raises k s hr j w d g hb
  exact ⟨s', e, h.of (reach_energyN h.1 e) hs⟩

theorem raise_energyAB (h : Obj s l dep) (j : Junk ℝ) (w : ℕ → ℝ) (hb : BadEnergyArgs s d g [2] [3, 2]) :
    ∃ s', evalEnergyAB codeKernel j w s d g = .ok (.error .xcfunException, s') ∧ Obj s' l dep := by
  obtain ⟨k, hr⟩ := h.1
  obtain ⟨s', e, hs⟩ := C47_energy_ab_raises k s hr j w d g hb
  exact ⟨s', e, h.of (reach_energyAB h.1 e) hs⟩

theorem raise_potentialN (h : Obj s l dep) (j : Junk ℝ) (w : ℕ → ℝ) (hb : BadPotentialArgs s d g hh [] [3] [6]) :
    ∃ s', evalPotentialN codeKernel j w s d g hh = .ok (.error .xcfunException, s') ∧ Obj s' l dep := by
  obtain ⟨k, hr⟩ := h.1
  obtain ⟨s', e, hs⟩ := C47_potential_n_raises k s hr j w d g hh hb
  exact ⟨s', e, h.of (reach_potentialN h.1 e) hs⟩

theorem raise_potentialAB (h : Obj s l dep) (j : Junk ℝ) (w : ℕ → ℝ) (hb : BadPotentialArgs s d g hh [2] [3, 2] [6, 2]) :
    ∃ s', evalPotentialAB codeKernel j w s d g hh = .ok (.error .xcfunException, s') ∧ Obj s' l dep := by
  obtain ⟨k, hr⟩ := h.1
  obtain ⟨s', e, hs⟩ := C47_potential_ab_raises k s hr j w d g hh hb
  exact ⟨s', e, h.of (reach_potentialAB h.1 e) hs⟩

theorem bad_shape {sh : List ℕ} {tail gtail : List ℕ} (h : ∀ n, sh ≠ n :: tail) : BadEnergyArgs s (zeros sh) g tail gtail := Or.inl fun ⟨n, hn⟩ => h n hn
theorem bad_shape' {sh : List ℕ} {tail gtail htail : List ℕ} (h : ∀ n, sh ≠ n :: tail) : BadPotentialArgs s (zeros sh) g hh tail gtail htail :=
  Or.inl fun ⟨n, hn⟩ => h n hn
theorem no_grad {tail gtail : List ℕ} (h : Obj s l (DENSITY ||| GRADIENT)) : BadEnergyArgs s d none tail gtail :=
  Or.inr (Or.inr ⟨h.gga.2, fun _ _ ⟨_, hg, _⟩ => by cases hg⟩)
theorem bad_grad {m : ℕ} {gs tail gtail : List ℕ} (h : Obj s l (DENSITY ||| GRADIENT)) (hg : gs ≠ m :: gtail) :
    BadEnergyArgs s (zeros (m :: tail)) (some (zeros gs)) tail gtail :=
  Or.inr (Or.inr ⟨h.gga.2, fun n hn ⟨_, hg', hs⟩ => by cases hg'; cases hn; exact hg hs⟩)
theorem no_grad' {tail gtail htail : List ℕ} (h : Obj s l (DENSITY ||| GRADIENT)) : BadPotentialArgs s d none hh tail gtail htail :=
  Or.inr (Or.inr ⟨h.gga.2, fun _ _ ⟨_, _, hg, _⟩ => by cases hg⟩)
theorem no_hess {tail gtail htail : List ℕ} (h : Obj s l (DENSITY ||| GRADIENT)) : BadPotentialArgs s d g none tail gtail htail :=
  Or.inr (Or.inr ⟨h.gga.2, fun _ _ ⟨_, _, _, hg, _⟩ => by cases hg⟩)
theorem bad_grad' {m : ℕ} {gs tail gtail htail : List ℕ} (h : Obj s l (DENSITY ||| GRADIENT)) (hg : gs ≠ m :: gtail) :
    BadPotentialArgs s (zeros (m :: tail)) (some (zeros gs)) hh tail gtail htail :=
  Or.inr (Or.inr ⟨h.gga.2, fun n hn ⟨_, _, hg', _, hs, _⟩ => by cases hg'; cases hn; exact hg hs⟩)
theorem bad_hess {m : ℕ} {hs tail gtail htail : List ℕ} (h : Obj s l (DENSITY ||| GRADIENT)) (hg : hs ≠ m :: htail) :
    BadPotentialArgs s (zeros (m :: tail)) g (some (zeros hs)) tail gtail htail :=
  Or.inr (Or.inr ⟨h.gga.2, fun n hn ⟨_, _, _, hg', _, hs⟩ => by cases hg'; cases hn; exact hg hs⟩)

end

/-- **C67, `test_raises_energy_n`.** -/
theorem C67_raises_energy_n : testRaisesEnergyN codeKernel junk u = Outcome.ok (.ok ()) := by
  obtain ⟨s, h0, hs⟩ := lda_functional
  obtain ⟨t, h1, ht⟩ := pbe_functional
  obtain ⟨s, e0, hs⟩ := energyN_lda (junk 0) (u 0) hs (d := zeros [10]) (n := 10) rfl (by norm_num)
  obtain ⟨s, e1, -⟩ := raise_energyN hs (junk 1) (u 1) (d := zeros [10, 2]) (g := none) (bad_shape (by simp))
  obtain ⟨t, e2, ht⟩ := energyN_gga (junk 2) (u 2) ht (d := zeros [10]) (n := 10) rfl (g := zeros [10, 3]) rfl (by norm_num)
  obtain ⟨t, e3, ht⟩ := raise_energyN ht (junk 3) (u 3) (d := zeros [10]) (no_grad ht)
  obtain ⟨t, e4, ht⟩ := raise_energyN ht (junk 4) (u 4) (bad_grad ht (m := 10) (gs := [10]) (by simp))
  obtain ⟨t, e5, ht⟩ := raise_energyN ht (junk 5) (u 5) (bad_grad ht (m := 10) (gs := [10, 4]) (by simp))
  obtain ⟨t, e6, ht⟩ := raise_energyN ht (junk 6) (u 6) (bad_grad ht (m := 10) (gs := [20, 3]) (by simp))
  unfold testRaisesEnergyN
  rw [PyTest.next h0, PyTest.next h1, PyTest.next (PyTest.call_run e0)]
  dsimp only
  rw [PyTest.next (PyTest.raises_run e1), PyTest.next (PyTest.call_run e2)]
  dsimp only
  rw [PyTest.next (PyTest.raises_run e3), PyTest.next (PyTest.raises_run e4), PyTest.next (PyTest.raises_run e5), PyTest.next (PyTest.raises_run e6)]
  rfl

/-- **C67, `test_raises_energy_ab`.** -/
theorem C67_raises_energy_ab : testRaisesEnergyAB codeKernel junk u = Outcome.ok (.ok ()) := by
  obtain ⟨s, h0, hs⟩ := lda_functional
  obtain ⟨t, h1, ht⟩ := pbe_functional
  obtain ⟨s, e0, hs⟩ := energyAB_lda (junk 0) (u 0) hs (d := zeros [10, 2]) (n := 10) rfl (by norm_num)
  obtain ⟨s, e1, hs⟩ := raise_energyAB hs (junk 1) (u 1) (d := zeros [10]) (g := none) (bad_shape (by simp))
  obtain ⟨s, e2, -⟩ := raise_energyAB hs (junk 2) (u 2) (d := zeros [10, 4]) (g := none) (bad_shape (by simp))
  obtain ⟨t, e3, ht⟩ := energyAB_gga (junk 3) (u 3) ht (d := zeros [10, 2]) (n := 10) rfl (g := zeros [10, 3, 2]) rfl (by norm_num)
  obtain ⟨t, e4, ht⟩ := raise_energyAB ht (junk 4) (u 4) (d := zeros [10, 2]) (no_grad ht)
  obtain ⟨t, e5, ht⟩ := raise_energyAB ht (junk 5) (u 5) (bad_grad ht (m := 10) (gs := [10, 3]) (by simp))
  obtain ⟨t, e6, ht⟩ := raise_energyAB ht (junk 6) (u 6) (bad_grad ht (m := 10) (gs := [10, 4, 2]) (by simp))
  obtain ⟨t, e7, ht⟩ := raise_energyAB ht (junk 7) (u 7) (bad_grad ht (m := 10) (gs := [20, 3, 2]) (by simp))
  unfold testRaisesEnergyAB
  rw [PyTest.next h0, PyTest.next h1, PyTest.next (PyTest.call_run e0)]
  dsimp only
  rw [PyTest.next (PyTest.raises_run e1), PyTest.next (PyTest.raises_run e2), PyTest.next (PyTest.call_run e3)]
  dsimp only
  rw [PyTest.next (PyTest.raises_run e4), PyTest.next (PyTest.raises_run e5), PyTest.next (PyTest.raises_run e6), PyTest.next (PyTest.raises_run e7)]
  rfl

/-- **C67, `test_raises_potential_n`.** -/
theorem C67_raises_potential_n : testRaisesPotentialN codeKernel junk u = Outcome.ok (.ok ()) := by
  obtain ⟨s, h0, hs⟩ := lda_functional
  obtain ⟨t, h1, ht⟩ := pbe_functional
  obtain ⟨x0, s, e0, hs, -⟩ := potentialN_lda (junk 0) (u 0) hs (d := zeros [10]) (n := 10) rfl (by norm_num)
  obtain ⟨s, e1, -⟩ := raise_potentialN hs (junk 1) (u 1) (d := zeros [10, 2]) (g := none) (hh := none) (bad_shape' (by simp))
  obtain ⟨x2, t, e2, ht, -⟩ := potentialN_gga (junk 2) (u 2) ht (d := zeros [10]) (n := 10) rfl (g := zeros [10, 3]) (hh := zeros [10, 6]) rfl rfl (by norm_num)
    (fun i k => (pyDensN2 10 (zeros [10]) (zeros [10, 3]) (zeros [10, 6])).elem [i, k]) fun _ _ _ _ => rfl
  obtain ⟨t, e3, ht⟩ := raise_potentialN ht (junk 3) (u 3) (d := zeros [10]) (hh := none) (no_grad' ht)
  obtain ⟨t, e4, ht⟩ := raise_potentialN ht (junk 4) (u 4) (d := zeros [10]) (g := some (zeros [10, 3])) (no_hess ht)
  obtain ⟨t, e5, ht⟩ := raise_potentialN ht (junk 5) (u 5) (hh := some (zeros [10, 6])) (bad_grad' ht (m := 10) (gs := [10]) (by simp))
  obtain ⟨t, e6, ht⟩ := raise_potentialN ht (junk 6) (u 6) (hh := some (zeros [10, 6])) (bad_grad' ht (m := 10) (gs := [10, 4]) (by simp))
  obtain ⟨t, e7, ht⟩ := raise_potentialN ht (junk 7) (u 7) (hh := some (zeros [10, 6])) (bad_grad' ht (m := 10) (gs := [20, 3]) (by simp))
  obtain ⟨t, e8, ht⟩ := raise_potentialN ht (junk 8) (u 8) (g := some (zeros [10, 3])) (bad_hess ht (m := 10) (hs := [10]) (by simp))
  obtain ⟨t, e9, ht⟩ := raise_potentialN ht (junk 9) (u 9) (g := some (zeros [10, 3])) (bad_hess ht (m := 10) (hs := [10, 3]) (by simp))
  obtain ⟨t, e10, ht⟩ := raise_potentialN ht (junk 10) (u 10) (g := some (zeros [10, 3])) (bad_hess ht (m := 10) (hs := [20, 6]) (by simp))
  unfold testRaisesPotentialN
  rw [PyTest.next h0, PyTest.next h1, PyTest.next (PyTest.call_run e0)]
  dsimp only
  rw [PyTest.next (PyTest.raises_run e1), PyTest.next (PyTest.call_run e2)]
  dsimp only
  rw [PyTest.next (PyTest.raises_run e3), PyTest.next (PyTest.raises_run e4), PyTest.next (PyTest.raises_run e5), PyTest.next (PyTest.raises_run e6),
    PyTest.next (PyTest.raises_run e7), PyTest.next (PyTest.raises_run e8), PyTest.next (PyTest.raises_run e9), PyTest.next (PyTest.raises_run e10)]
  rfl

/-- **C67, `test_raises_potential_ab`.** -/
theorem C67_raises_potential_ab (hj : junk 3 ≠ none) : testRaisesPotentialAB codeKernel junk u = Outcome.ok (.ok ()) := by
  obtain ⟨j, hj⟩ := Option.ne_none_iff_exists'.1 hj
  obtain ⟨s, h0, hs⟩ := lda_functional
  obtain ⟨t, h1, ht⟩ := pbe_functional
  obtain ⟨x0, s, e0, hs, -⟩ := potentialAB_lda (junk 0) (u 0) hs (d := zeros [10, 2]) (n := 10) rfl (by norm_num)
  obtain ⟨s, e1, hs⟩ := raise_potentialAB hs (junk 1) (u 1) (d := zeros [10]) (g := none) (hh := none) (bad_shape' (by simp))
  obtain ⟨s, e2, -⟩ := raise_potentialAB hs (junk 2) (u 2) (d := zeros [10, 4]) (g := none) (hh := none) (bad_shape' (by simp))
  obtain ⟨x3, t, e3, ht, -⟩ := potentialAB_gga (u 3) j ht (d := zeros [10, 2]) (n := 10) rfl (g := zeros [10, 3, 2]) (hh := zeros [10, 6, 2]) rfl rfl (by norm_num)
    (fun i k => (pyDensAB2 10 (zeros [10, 2]) (zeros [10, 3, 2]) (zeros [10, 6, 2])).elem [i, k]) fun _ _ _ _ => rfl
  obtain ⟨t, e4, ht⟩ := raise_potentialAB ht (junk 4) (u 4) (d := zeros [10, 2]) (hh := none) (no_grad' ht)
  obtain ⟨t, e5, ht⟩ := raise_potentialAB ht (junk 5) (u 5) (d := zeros [10, 2]) (g := some (zeros [10, 3, 2])) (no_hess ht)
  obtain ⟨t, e6, ht⟩ := raise_potentialAB ht (junk 6) (u 6) (hh := some (zeros [10, 6, 2])) (bad_grad' ht (m := 10) (gs := [10, 3]) (by simp))
  obtain ⟨t, e7, ht⟩ := raise_potentialAB ht (junk 7) (u 7) (hh := some (zeros [10, 6, 2])) (bad_grad' ht (m := 10) (gs := [10, 4, 2]) (by simp))
  obtain ⟨t, e8, ht⟩ := raise_potentialAB ht (junk 8) (u 8) (hh := some (zeros [10, 6, 2])) (bad_grad' ht (m := 10) (gs := [20, 3, 2]) (by simp))
  obtain ⟨t, e9, ht⟩ := raise_potentialAB ht (junk 9) (u 9) (g := some (zeros [10, 3, 2])) (bad_hess ht (m := 10) (hs := [10, 6]) (by simp))
  obtain ⟨t, e10, ht⟩ := raise_potentialAB ht (junk 10) (u 10) (g := some (zeros [10, 3, 2])) (bad_hess ht (m := 10) (hs := [10, 3, 2]) (by simp))
  obtain ⟨t, e11, ht⟩ := raise_potentialAB ht (junk 11) (u 11) (g := some (zeros [10, 3, 2])) (bad_hess ht (m := 10) (hs := [20, 6, 2]) (by simp))
  unfold testRaisesPotentialAB
  rw [hj, PyTest.next h0, PyTest.next h1, PyTest.next (PyTest.call_run e0)]
  dsimp only
  rw [PyTest.next (PyTest.raises_run e1), PyTest.next (PyTest.raises_run e2), PyTest.next (PyTest.call_run e3)]
  dsimp only
  rw [PyTest.next (PyTest.raises_run e4), PyTest.next (PyTest.raises_run e5), PyTest.next (PyTest.raises_run e6), PyTest.next (PyTest.raises_run e7),
    PyTest.next (PyTest.raises_run e8), PyTest.next (PyTest.raises_run e9), PyTest.next (PyTest.raises_run e10), PyTest.next (PyTest.raises_run e11)]
  rfl

/-- **C67, undefined behaviour** of `test_raises_potential_ab`. -/
theorem C67_raises_potential_ab_undefined (hj : junk 3 = none) : testRaisesPotentialAB codeKernel junk u = Outcome.ub := by
  obtain ⟨s, h0, hs⟩ := lda_functional
  obtain ⟨t, h1, ht⟩ := pbe_functional
  obtain ⟨x0, s, e0, hs, -⟩ := potentialAB_lda (junk 0) (u 0) hs (d := zeros [10, 2]) (n := 10) rfl (by norm_num)
  obtain ⟨s, e1, hs⟩ := raise_potentialAB hs (junk 1) (u 1) (d := zeros [10]) (g := none) (hh := none) (bad_shape' (by simp))
  obtain ⟨s, e2, -⟩ := raise_potentialAB hs (junk 2) (u 2) (d := zeros [10, 4]) (g := none) (hh := none) (bad_shape' (by simp))
  unfold testRaisesPotentialAB
  rw [hj, PyTest.next h0, PyTest.next h1, PyTest.next (PyTest.call_run e0)]
  dsimp only
  rw [PyTest.next (PyTest.raises_run e1), PyTest.next (PyTest.raises_run e2)]
  exact next_undefined (potentialAB_undefined (u 3) ht (n := 10) (by norm_num) (by norm_num) rfl rfl rfl)

/-- Storage that happens to hold zeros, and storage that may not be read. -/
example : testPbePotentialOpen codeKernel realNumpy (fun _ => some fun N _ => CT.const N 0) (fun _ _ => 7) = Outcome.ok (.ok ()) ∧
    testPbePotentialOpen codeKernel realNumpy (fun _ => none) (fun _ _ => 7) = Outcome.ub :=
  ⟨C67_pbe_potential_open _ _ (by simp), C67_pbe_potential_open_undefined _ _ rfl⟩

/-- A wrong reference value is noticed: `0.5` instead of the energy of `test_lda_old`. -/
example : allclose realNumpy [-0.8101513] [0.5] = Outcome.ok (.error .assertion) := by
  unfold allclose PyTest.check
  refine if_neg ?_
  simp only [realNumpy, lit, XCFun.Lit.lit]
  norm_num [abs_of_nonneg, abs_of_neg]

end XCFun.Props
