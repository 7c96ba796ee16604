/-
C47: the Python class `Functional`.

The methods return, for every grid point, the energy (and the potentials) of the values given for that point, in the order
documented in the docstrings; they raise exactly in the documented cases.  Two departures are proved: the array returned by
`eval_potential_n` has three columns instead of two, the third never written, and the plain `xcfun_eval` on a one-dimensional
density returns `len(density)` rows of which only the first is written.
-/
import Verif.Proofs.Python
import Verif.Props.Settings

namespace XCFun.Props
open XCFun Spec
open scoped ContDiff

/-- Input of one point, closed shell: `n, n_x, n_y, n_z` from `density[i]`, `densgrad[i, :]`. -/
def pointN (density : NdArray ℝ) (grad : Option (NdArray ℝ)) (i : ℕ) : ℕ → ℝ
  | 0 => density.elem [i]
  | 1 => (grad.map fun g => g.elem [i, 0]).getD 0
  | 2 => (grad.map fun g => g.elem [i, 1]).getD 0
  | 3 => (grad.map fun g => g.elem [i, 2]).getD 0
  | _ => 0

/-- Input of one point, both spins: `a, b, a_x, a_y, a_z, b_x, b_y, b_z` from `density[i, σ]`, `densgrad[i, :, σ]`. -/
def pointAB (density : NdArray ℝ) (grad : Option (NdArray ℝ)) (i : ℕ) : ℕ → ℝ
  | 0 => density.elem [i, 0]
  | 1 => density.elem [i, 1]
  | 2 => (grad.map fun g => g.elem [i, 0, 0]).getD 0
  | 3 => (grad.map fun g => g.elem [i, 1, 0]).getD 0
  | 4 => (grad.map fun g => g.elem [i, 2, 0]).getD 0
  | 5 => (grad.map fun g => g.elem [i, 0, 1]).getD 0
  | 6 => (grad.map fun g => g.elem [i, 1, 1]).getD 0
  | 7 => (grad.map fun g => g.elem [i, 2, 1]).getD 0
  | _ => 0

section
variable {V : Type} [Add V] [Mul V] [Lit V]

theorem depends_bits : ∀ f ∈ funs, f.depends.testBit 2 = true ∨ f.depends.testBit 3 = true ∨ f.depends < 16 := by
  decide +kernel

theorem metagga_needs {h : List (Call V)} {s : State V} (hr : run State.init h = .ok s) :
    isMetagga s = true ↔ Needs s 2 ∨ Needs s 3 := by
  rw [needs_iff (run_wf init_wf hr), needs_iff (run_wf init_wf hr), isMetagga, and_twelve_ne_zero]

theorem gga_needs {h : List (Call V)} {s : State V} (hr : run State.init h = .ok s) :
    isGga s = true ↔ Needs s 1 := by
  rw [needs_iff (run_wf init_wf hr), isGga, and_two_ne_zero]

/-- The setups made by the class succeed. -/
theorem py_setup {h : List (Call V)} {s : State V} (hr : run State.init h = .ok s) (hM : isMetagga s = false) {v : Vars}
    {m o : ℤ} (h0 : Carries v 0) (h1 : isGga s = true → Carries v 1) (ho : OrderOk m o)
    (hp : m = POTENTIAL → isGga s = true → HessianVars v) :
    evalSetup s v.code m o = .ok (0, { s with mode := m, vars := some v, order := o }) ∧
      pyEvalSetup s v m o = .ok (.ok (), { s with mode := m, vars := some v, order := o }) := by
  have hm : ¬ (Needs s 2 ∨ Needs s 3) := by rw [← metagga_needs hr, hM]; simp
  have key : Sufficient s v := by
    rintro k ⟨i, hi, f, hf, hk⟩
    have hlt : k < 4 := by
      by_contra hc
      have h16 : f.depends < 16 := by
        rcases depends_bits f (List.mem_of_getElem? hf) with hb | hb | hb
        · exact absurd (Or.inl ⟨i, hi, f, hf, hb⟩) hm
        · exact absurd (Or.inr ⟨i, hi, f, hf, hb⟩) hm
        · exact hb
      have : f.depends < 2 ^ k := lt_of_lt_of_le h16
        (Nat.pow_le_pow_right (n := 2) (by norm_num) (i := 4) (by omega))
      rw [Nat.testBit_lt_two_pow this] at hk
      cases hk
    interval_cases k
    · exact h0
    · exact h1 ((gga_needs hr).2 ⟨i, hi, f, hf, hk⟩)
    · exact absurd (Or.inl ⟨i, hi, f, hf, hk⟩) hm
    · exact absurd (Or.inr ⟨i, hi, f, hf, hk⟩) hm
  obtain ⟨rc, s', he, hz, -, -, -, -, -, hok⟩ := C09_decision_table h s hr v m o
  have : rc = 0 := hz.2 ⟨key, ho, fun hm' => ⟨fun h => hm (Or.inl h), fun h => hm (Or.inr h),
    fun h => hp hm' ((gga_needs hr).2 h)⟩⟩
  subst this
  rw [hok rfl] at he
  exact ⟨he, by simp [pyEvalSetup, he]⟩

end

theorem outlen0 {s : State ℝ} {v : Vars} (hvs : s.vars = some v) (hm : s.mode = PARTIAL_DERIVATIVES) (ho : s.order = 0) :
    outputLength s = .ok ((1 : ℕ) : ℤ) := by
  have h1 : ¬ (PARTIAL_DERIVATIVES = MODE_UNSET) := by decide
  have h2 : ¬ ((0 : ℤ) = -1) := by decide
  simp only [outputLength, hm, h1, hvs, ho, h2, if_false, if_true]
  exact outlen_eq v (k := 0) (by decide) (0 : ℝ) (fun _ => 0) (fun _ _ => 0) (fun _ _ _ => 0)

theorem outlenPot {s : State ℝ} {v : Vars} (hvs : s.vars = some v) (hm : s.mode = POTENTIAL) (ho : s.order = 1)
    (hv : v ≠ .A ∧ v ≠ .A_2ND_TAYLOR) : outputLength s = .ok ((3 : ℕ) : ℤ) := by
  have h1 : ¬ (POTENTIAL = MODE_UNSET) := by decide
  have h2 : ¬ ((1 : ℤ) = -1) := by decide
  have h3 : ¬ (POTENTIAL = PARTIAL_DERIVATIVES) := by decide
  simp only [outputLength, hm, h1, hvs, ho, h2, h3, hv, if_false, if_true, or_self]
  rfl

/-- Energies: setup and evaluation of `n` rows. -/
theorem py_energy {h : List (Call ℝ)} {s : State ℝ} (hr : run State.init h = .ok s) (hM : isMetagga s = false) {v : Vars}
    (h0 : Carries v 0) (h1 : isGga s = true → Carries v 1) (hv : ¬ Unsupported v) (junk : Junk ℝ) (uninit : ℕ → ℝ)
    {a : NdArray ℝ} {n : ℕ} (ha : a.shape = [n, v.len]) (hn : n * v.len < 2147483648) (p : ℕ → ℕ → ℝ)
    (hp : ∀ i < n, ∀ k < v.len, a.elem [i, k] = p i k) :
    firstColumn (pySetupEval codeKernel junk uninit s v PARTIAL_DERIVATIVES 0 true a) =
      .ok (.ok ((List.range n).map fun i => energyAt s v (p i)),
        { s with mode := PARTIAL_DERIVATIVES, vars := some v, order := 0 }) := by
  obtain ⟨-, e1⟩ := py_setup hr hM (m := PARTIAL_DERIVATIVES) (o := 0) h0 h1 (by simp [OrderOk])
    (fun hc => absurd hc (by decide))
  have hsup : DV.reads v ≠ none := by rw [ne_eq, ← unsupported_iff]; exact hv
  have hle : n * 1 ≤ n * v.len := Nat.mul_le_mul_left _ (len_pos v)
  set s' : State ℝ := { s with mode := PARTIAL_DERIVATIVES, vars := some v, order := 0 } with hs'
  have hlen : outputLength s' = .ok ((1 : ℕ) : ℤ) := outlen0 rfl rfl rfl
  obtain ⟨data, e2, e3, e4⟩ := pyEval_two (K := codeKernel) (junk := junk) (uninit := uninit) (s := s') (v := v) rfl hlen ha
    hn (by omega) (by omega) (fun i => [energyAt s v (p i)]) (fun _ _ => le_refl _) (fun i hi rest out ho => by
      have := C15_order_of_derivatives s' v rfl rfl 0 rfl (by decide) hsup (NdArray.row a i) rest out junk 1 hlen ho
      rw [this]
      have e : (List.range v.len).map (NdArray.row a i) = (List.range v.len).map (p i) :=
        List.map_congr_left fun k hk => hp i hi k (by simpa using hk)
      have := C15_order_of_derivatives s' v rfl rfl 0 rfl (by decide) hsup (p i) rest out junk 1 hlen ho
      rw [← e] at this
      rw [← C15_order_of_derivatives s' v rfl rfl 0 rfl (by decide) hsup (NdArray.row a i) rest out junk 1 hlen ho, this]
      rfl)
  unfold firstColumn pySetupEval
  rw [e1]
  simp only [Outcome.ok_bind, if_true, e2, Outcome.pure_eq]
  rw [column0_eq (fun i => energyAt s v (p i))]
  · rfl
  · intro i hi
    have := e4 i hi 0 (by omega)
    simpa using this

/-- **C47, `eval_energy_n`.** For an object without meta-GGA functionals, a density of shape `(n,)` and, if a GGA is active, a gradient of
shape `(n, 3)`: the method returns the `n` energies of the points.  Nothing in the array is left unwritten (whatever `uninit`), and of
the object only the setup changes.  (`n * 4` must fit in an `int`: the index arithmetic of `xcfun_eval_vec`.) -/
theorem C47_energy_n (h : List (Call ℝ)) (s : State ℝ) (hr : run State.init h = .ok s) (hM : isMetagga s = false)
    (junk : Junk ℝ) (uninit : ℕ → ℝ) (density : NdArray ℝ) (n : ℕ) (hd : density.shape = [n]) (grad : Option (NdArray ℝ))
    (hg : isGga s = true → ∃ g, grad = some g ∧ g.shape = [n, 3]) (hn : n * 4 < 2147483648) :
    ∃ s', evalEnergyN codeKernel junk uninit s density grad = .ok (.ok
        ((List.range n).map fun i => energyAt s (if isGga s then .N_NX_NY_NZ else .N) (pointN density grad i)), s') ∧
      s'.settings = s.settings ∧ s'.active = s.active ∧ s'.depends = s.depends := by
  unfold evalEnergyN
  rw [hd]
  simp only [hM, Bool.false_eq_true, if_false]
  by_cases hgg : isGga s = true
  · obtain ⟨g, rfl, hgs⟩ := hg hgg
    simp only [hgg, if_true, hgs, decide_true]
    rw [py_energy hr hM (v := .N_NX_NY_NZ) ⟨_, rfl, rfl⟩ (fun _ => ⟨_, rfl, rfl⟩) (by decide) junk uninit
      (a := pyDensN n density (some g)) (n := n) rfl hn (pointN density (some g)) (fun i _ k hk => by
        have hk : k < 4 := hk
        interval_cases k <;> rfl)]
    exact ⟨_, rfl, rfl, rfl, rfl⟩
  · have hgf : isGga s = false := by simpa using hgg
    simp only [hgf, Bool.false_eq_true, if_false]
    rw [py_energy hr hM (v := .N) ⟨_, rfl, rfl⟩ (fun hc => absurd hc hgg) (by decide) junk uninit
      (a := pyDensN n density none) (n := n) rfl (by rw [show Vars.len .N = 1 by decide]; omega) (pointN density grad) (fun i _ k hk => by
        have hk : k < 1 := hk
        interval_cases k; rfl)]
    exact ⟨_, rfl, rfl, rfl, rfl⟩

/-- **C47, `eval_energy_ab`.** The same for spin densities of shape `(n, 2)` and gradients of shape `(n, 3, 2)`. -/
theorem C47_energy_ab (h : List (Call ℝ)) (s : State ℝ) (hr : run State.init h = .ok s) (hM : isMetagga s = false)
    (junk : Junk ℝ) (uninit : ℕ → ℝ) (density : NdArray ℝ) (n : ℕ) (hd : density.shape = [n, 2]) (grad : Option (NdArray ℝ))
    (hg : isGga s = true → ∃ g, grad = some g ∧ g.shape = [n, 3, 2]) (hn : n * 8 < 2147483648) :
    ∃ s', evalEnergyAB codeKernel junk uninit s density grad = .ok (.ok
        ((List.range n).map fun i =>
          energyAt s (if isGga s then .A_B_AX_AY_AZ_BX_BY_BZ else .A_B) (pointAB density grad i)), s') ∧
      s'.settings = s.settings ∧ s'.active = s.active ∧ s'.depends = s.depends := by
  unfold evalEnergyAB
  rw [hd]
  simp only [hM, Bool.false_eq_true, if_false]
  by_cases hgg : isGga s = true
  · obtain ⟨g, rfl, hgs⟩ := hg hgg
    simp only [hgg, if_true, hgs, decide_true]
    rw [py_energy hr hM (v := .A_B_AX_AY_AZ_BX_BY_BZ) ⟨_, rfl, rfl⟩ (fun _ => ⟨_, rfl, rfl⟩) (by decide) junk uninit
      (a := pyDensAB n density g) (n := n) rfl hn (pointAB density (some g)) (fun i _ k hk => by
        have hk : k < 8 := hk
        interval_cases k <;> rfl)]
    exact ⟨_, rfl, rfl, rfl, rfl⟩
  · have hgf : isGga s = false := by simpa using hgg
    simp only [hgf, Bool.false_eq_true, if_false]
    rw [py_energy hr hM (v := .A_B) ⟨_, rfl, rfl⟩ (fun hc => absurd hc hgg) (by decide) junk uninit
      (a := density) (n := n) hd (by rw [show Vars.len .A_B = 2 by decide]; omega) (pointAB density grad) (fun i _ k hk => by
        have hk : k < 2 := hk
        interval_cases k <;> rfl)]
    exact ⟨_, rfl, rfl, rfl, rfl⟩

/-- Exception of `eval_energy_n` / `eval_energy_ab` as documented: wrong number of axes, meta-GGA, or a gradient that a GGA needs is
missing or has the wrong shape. -/
def BadEnergyArgs (s : State ℝ) (density : NdArray ℝ) (grad : Option (NdArray ℝ)) (tail gtail : List ℕ) : Prop :=
  (¬ ∃ n, density.shape = n :: tail) ∨ isMetagga s = true ∨
    (isGga s = true ∧ ∀ n, density.shape = n :: tail → ¬ ∃ g, grad = some g ∧ g.shape = n :: gtail)

/-- **C47, exceptions of `eval_energy_n`.** In the documented cases an `XCFunException` is raised; the object keeps its functionals,
weights and parameters (its setup may have changed: the shape of the gradient is checked after the setup). -/
theorem C47_energy_n_raises (h : List (Call ℝ)) (s : State ℝ) (hr : run State.init h = .ok s)
    (junk : Junk ℝ) (uninit : ℕ → ℝ) (density : NdArray ℝ) (grad : Option (NdArray ℝ))
    (hb : BadEnergyArgs s density grad [] [3]) :
    ∃ s', evalEnergyN codeKernel junk uninit s density grad = .ok (.error .xcfunException, s') ∧
      s'.settings = s.settings ∧ s'.active = s.active ∧ s'.depends = s.depends := by
  unfold evalEnergyN
  split
  · rename_i n hd
    by_cases hM : isMetagga s = true
    · simp only [hM, if_true]; exact ⟨_, rfl, rfl, rfl, rfl⟩
    · have hMf : isMetagga s = false := by simpa using hM
      rcases hb with hb | hb | ⟨hg, hb⟩
      · exact absurd ⟨n, hd⟩ hb
      · exact absurd hb hM
      · simp only [hMf, Bool.false_eq_true, if_false, hg, if_true]
        cases grad with
        | none => exact ⟨_, rfl, rfl, rfl, rfl⟩
        | some g =>
          have hns : ¬ (g.shape = [n, 3]) := fun hc => hb n hd ⟨g, rfl, hc⟩
          obtain ⟨-, e⟩ := py_setup hr hMf (v := .N_NX_NY_NZ) (m := PARTIAL_DERIVATIVES) (o := 0) ⟨_, rfl, rfl⟩
            (fun _ => ⟨_, rfl, rfl⟩) (by simp [OrderOk]) (fun hc => absurd hc (by decide))
          simp only [firstColumn, pySetupEval, e, Outcome.ok_bind, hns, decide_false, Bool.false_eq_true, if_false]
          exact ⟨_, rfl, rfl, rfl, rfl⟩
  · exact ⟨_, rfl, rfl, rfl, rfl⟩

/-- **C47, exceptions of `eval_energy_ab`.** -/
theorem C47_energy_ab_raises (h : List (Call ℝ)) (s : State ℝ) (hr : run State.init h = .ok s)
    (junk : Junk ℝ) (uninit : ℕ → ℝ) (density : NdArray ℝ) (grad : Option (NdArray ℝ))
    (hb : BadEnergyArgs s density grad [2] [3, 2]) :
    ∃ s', evalEnergyAB codeKernel junk uninit s density grad = .ok (.error .xcfunException, s') ∧
      s'.settings = s.settings ∧ s'.active = s.active ∧ s'.depends = s.depends := by
  unfold evalEnergyAB
  split
  · rename_i n hd
    by_cases hM : isMetagga s = true
    · simp only [hM, if_true]; exact ⟨_, rfl, rfl, rfl, rfl⟩
    · have hMf : isMetagga s = false := by simpa using hM
      rcases hb with hb | hb | ⟨hg, hb⟩
      · exact absurd ⟨n, hd⟩ hb
      · exact absurd hb hM
      · simp only [hMf, Bool.false_eq_true, if_false, hg, if_true]
        cases grad with
        | none => exact ⟨_, rfl, rfl, rfl, rfl⟩
        | some g =>
          have hns : ¬ (g.shape = [n, 3, 2]) := fun hc => hb n hd ⟨g, rfl, hc⟩
          obtain ⟨-, e⟩ := py_setup hr hMf (v := .A_B_AX_AY_AZ_BX_BY_BZ) (m := PARTIAL_DERIVATIVES) (o := 0) ⟨_, rfl, rfl⟩
            (fun _ => ⟨_, rfl, rfl⟩) (by simp [OrderOk]) (fun hc => absurd hc (by decide))
          simp only [firstColumn, pySetupEval, e, Outcome.ok_bind, hns, decide_false, Bool.false_eq_true, if_false]
          exact ⟨_, rfl, rfl, rfl, rfl⟩
  · exact ⟨_, rfl, rfl, rfl, rfl⟩

/-- Potentials: setup and evaluation of `n` rows. -/
theorem py_potential {h : List (Call ℝ)} {s : State ℝ} (hr : run State.init h = .ok s) (hM : isMetagga s = false) {v : Vars}
    (h0 : Carries v 0) (h1 : isGga s = true → Carries v 1) (hH : isGga s = true → HessianVars v)
    (hvA : v ≠ .A ∧ v ≠ .A_2ND_TAYLOR) (junk : Junk ℝ) (uninit : ℕ → ℝ)
    {a : NdArray ℝ} {n : ℕ} (ha : a.shape = [n, v.len]) (hn : n * v.len < 2147483648) (hn3 : n * 3 < 2147483648)
    (p : ℕ → ℕ → ℝ) (hp : ∀ i < n, ∀ k < v.len, a.elem [i, k] = p i k) (res : ℕ → List ℝ) (hres : ∀ i < n, (res i).length ≤ 3)
    (he : evalSetup s v.code POTENTIAL 1 = .ok (0, { s with mode := POTENTIAL, vars := some v, order := 1 }) →
      ∀ i < n, ∀ rest out, 3 ≤ out.length →
      xcfunEval codeKernel junk { s with mode := POTENTIAL, vars := some v, order := 1 }
        ((List.range v.len).map (p i) ++ rest) out = .ok (res i ++ out.drop (res i).length)) :
    ∃ data, pySetupEval codeKernel junk uninit s v POTENTIAL 1 true a =
      .ok (.ok ⟨n, 3, data⟩, { s with mode := POTENTIAL, vars := some v, order := 1 }) ∧ data.length = n * 3 ∧
      ∀ i < n, ∀ j < 3, data[i * 3 + j]? = if j < (res i).length then (res i)[j]? else some (uninit (i * 3 + j)) := by
  obtain ⟨e0, e1⟩ := py_setup hr hM (m := POTENTIAL) (o := 1) h0 h1 (by simp [OrderOk])
    (fun _ hc => hH hc)
  have hle : n * 1 ≤ n * v.len := Nat.mul_le_mul_left _ (len_pos v)
  set s' : State ℝ := { s with mode := POTENTIAL, vars := some v, order := 1 } with hs'
  have hlen : outputLength s' = .ok ((3 : ℕ) : ℤ) := outlenPot rfl rfl rfl hvA
  obtain ⟨data, e2, e3, e4⟩ := pyEval_two (K := codeKernel) (junk := junk) (uninit := uninit) (s := s') (v := v) rfl hlen ha
    hn hn3 (by omega) res hres (fun i hi rest out ho => by
      have e : (List.range v.len).map (NdArray.row a i) = (List.range v.len).map (p i) :=
        List.map_congr_left fun k hk => hp i hi k (by simpa using hk)
      rw [e]
      exact he e0 i hi rest out ho)
  refine ⟨data, ?_, e3, e4⟩
  unfold pySetupEval
  rw [e1]
  simp only [Outcome.ok_bind, if_true, e2, Outcome.pure_eq]

/-- **C47, `eval_potential_n`, LDA.** The array has `n` rows and *three* columns (the docstring promises two): energy density, its
derivative with respect to the density, and a column that is never written and holds whatever the allocation contained. -/
theorem C47_potential_n_lda (h : List (Call ℝ)) (s : State ℝ) (hr : run State.init h = .ok s) (hM : isMetagga s = false)
    (hG : isGga s = false) (junk : Junk ℝ) (uninit : ℕ → ℝ) (density : NdArray ℝ) (n : ℕ) (hd : density.shape = [n])
    (grad hess : Option (NdArray ℝ)) (hn : n * 3 < 2147483648)
    (hx : ∀ i < n, RegularAt s .N (pointN density none i)) :
    ∃ data s', evalPotentialN codeKernel junk uninit s density grad hess = .ok (.ok ⟨n, 3, data⟩, s') ∧ data.length = n * 3 ∧
      (∀ i < n, data[i * 3]? = some (energyAt s .N (pointN density none i)) ∧
        data[i * 3 + 1]? = some (pderiv 0 (energyAt s .N) (pointN density none i)) ∧
        data[i * 3 + 2]? = some (uninit (i * 3 + 2))) ∧
      s'.settings = s.settings ∧ s'.active = s.active ∧ s'.depends = s.depends := by
  have hb : s.depends.testBit 1 = false := by
    have := (and_two_ne_zero s.depends).not.1 (by simpa [isGga] using hG)
    simpa using this
  have hl : Vars.len .N = 1 := by decide
  obtain ⟨data, e1, e2, e3⟩ := py_potential hr hM (v := .N) ⟨_, rfl, rfl⟩ (fun hc => by rw [hG] at hc; cases hc)
    (fun hc => by rw [hG] at hc; cases hc) (by decide) junk uninit (a := pyDensN n density none) (n := n) rfl
    (by rw [hl]; omega) hn (pointN density none) (fun i _ k hk => by
        have hk : k < 1 := hk
        interval_cases k; rfl)
    (fun i => [energyAt s .N (pointN density none i), pderiv 0 (energyAt s .N) (pointN density none i)])
    (fun _ _ => by simp) (fun _ i hi rest out ho => by
      rw [C19_lda_potential_exact { s with mode := POTENTIAL, vars := some .N, order := 1 } (Or.inr rfl) rfl rfl hb _
        (hx i hi) rest out junk (by rw [hl]; omega), hl]
      rfl)
  refine ⟨data, { s with mode := POTENTIAL, vars := some .N, order := 1 }, ?_, e2, fun i hi => ⟨?_, ?_, ?_⟩, rfl, rfl, rfl⟩
  · unfold evalPotentialN
    rw [hd]
    simp only [hM, hG, Bool.false_eq_true, if_false]
    exact e1
  · simpa using e3 i hi 0 (by omega)
  · simpa using e3 i hi 1 (by omega)
  · simpa using e3 i hi 2 (by omega)

/-- **C47, `eval_potential_n`, GGA.** With the density, gradient and second derivatives (xx, xy, xz, yy, yz, zz) of a smooth field at the
points `r i`: energy density, functional derivative of the field, and a third column that is never written.  (REVTPSSX, id 44, is
excluded as in C20.) -/
theorem C47_potential_n_gga (h : List (Call ℝ)) (s : State ℝ) (hr : run State.init h = .ok s) (hM : isMetagga s = false)
    (hG : isGga s = true) (h44 : 44 ∉ s.active) (junk : Junk ℝ) (uninit : ℕ → ℝ) (density g hh : NdArray ℝ) (n : ℕ)
    (hd : density.shape = [n]) (hgs : g.shape = [n, 3]) (hhs : hh.shape = [n, 6]) (hn : n * 10 < 2147483648)
    (ρ : Space → ℝ) (r : ℕ → Space) (hρ : ∀ i < n, ContDiffAt ℝ ∞ ρ (r i))
    (hd' : ∀ i < n, density.elem [i] = ρ (r i)) (hg' : ∀ i < n, ∀ k < 3, g.elem [i, k] = expansion ρ (r i) (1 + k))
    (hh' : ∀ i < n, ∀ k < 6, hh.elem [i, k] = expansion ρ (r i) (4 + k))
    (hx : ∀ i < n, RegularAt s .N_2ND_TAYLOR (expansion ρ (r i))) :
    ∃ data s', evalPotentialN codeKernel junk uninit s density (some g) (some hh) = .ok (.ok ⟨n, 3, data⟩, s') ∧
      data.length = n * 3 ∧
      (∀ i < n, data[i * 3]? = some (energyAt s .N_2ND_TAYLOR (expansion ρ (r i))) ∧
        data[i * 3 + 1]? = some (functionalDerivative (energyAt s .N_2ND_TAYLOR) (expansion ρ) 0 (r i)) ∧
        data[i * 3 + 2]? = some (uninit (i * 3 + 2))) ∧
      s'.settings = s.settings ∧ s'.active = s.active ∧ s'.depends = s.depends := by
  have hl : Vars.len .N_2ND_TAYLOR = 10 := by decide
  obtain ⟨data, e1, e2, e3⟩ := py_potential hr hM (v := .N_2ND_TAYLOR) ⟨_, rfl, rfl⟩ (fun _ => ⟨_, rfl, rfl⟩)
    (fun _ => by simp [HessianVars]) (by decide) junk uninit (a := pyDensN2 n density g hh) (n := n) rfl
    (by rw [hl]; omega) (by omega) (fun i => expansion ρ (r i)) (fun i hi k hk => by
        have hk : k < 10 := hk
        have h3 := hg' i hi
        have h6 := hh' i hi
        interval_cases k
        · exact hd' i hi
        · exact h3 0 (by omega)
        · exact h3 1 (by omega)
        · exact h3 2 (by omega)
        · exact h6 0 (by omega)
        · exact h6 1 (by omega)
        · exact h6 2 (by omega)
        · exact h6 3 (by omega)
        · exact h6 4 (by omega)
        · exact h6 5 (by omega))
    (fun i => [energyAt s .N_2ND_TAYLOR (expansion ρ (r i)),
      functionalDerivative (energyAt s .N_2ND_TAYLOR) (expansion ρ) 0 (r i)])
    (fun _ _ => by simp) (fun hset i hi rest out ho =>
      C20_restricted_potential h s _ hr 1 hset h44 ρ (r i) (hρ i hi) (hx i hi) rest out junk (by omega))
  refine ⟨data, { s with mode := POTENTIAL, vars := some .N_2ND_TAYLOR, order := 1 }, ?_, e2, fun i hi => ⟨?_, ?_, ?_⟩, rfl, rfl, rfl⟩
  · unfold evalPotentialN
    rw [hd]
    simp only [hM, hG, Bool.false_eq_true, if_false, if_true, hgs, hhs, and_self, decide_true]
    exact e1
  · simpa using e3 i hi 0 (by omega)
  · simpa using e3 i hi 1 (by omega)
  · simpa using e3 i hi 2 (by omega)

/-- **C47, `eval_potential_ab`, LDA.** `n` rows of energy density, derivative with respect to the density of each spin; everything is
written. -/
theorem C47_potential_ab_lda (h : List (Call ℝ)) (s : State ℝ) (hr : run State.init h = .ok s) (hM : isMetagga s = false)
    (hG : isGga s = false) (junk : Junk ℝ) (uninit : ℕ → ℝ) (density : NdArray ℝ) (n : ℕ) (hd : density.shape = [n, 2])
    (grad hess : Option (NdArray ℝ)) (hn : n * 3 < 2147483648)
    (hx : ∀ i < n, RegularAt s .A_B (pointAB density none i)) :
    ∃ data s', evalPotentialAB codeKernel junk uninit s density grad hess = .ok (.ok ⟨n, 3, data⟩, s') ∧ data.length = n * 3 ∧
      (∀ i < n, data[i * 3]? = some (energyAt s .A_B (pointAB density none i)) ∧
        data[i * 3 + 1]? = some (pderiv 0 (energyAt s .A_B) (pointAB density none i)) ∧
        data[i * 3 + 2]? = some (pderiv 1 (energyAt s .A_B) (pointAB density none i))) ∧
      s'.settings = s.settings ∧ s'.active = s.active ∧ s'.depends = s.depends := by
  have hb : s.depends.testBit 1 = false := by
    have := (and_two_ne_zero s.depends).not.1 (by simpa [isGga] using hG)
    simpa using this
  have hl : Vars.len .A_B = 2 := by decide
  obtain ⟨data, e1, e2, e3⟩ := py_potential hr hM (v := .A_B) ⟨_, rfl, rfl⟩ (fun hc => by rw [hG] at hc; cases hc)
    (fun hc => by rw [hG] at hc; cases hc) (by decide) junk uninit (a := density) (n := n) hd
    (by rw [hl]; omega) hn (pointAB density none) (fun i _ k hk => by
        have hk : k < 2 := hk
        interval_cases k <;> rfl)
    (fun i => [energyAt s .A_B (pointAB density none i), pderiv 0 (energyAt s .A_B) (pointAB density none i),
      pderiv 1 (energyAt s .A_B) (pointAB density none i)])
    (fun _ _ => by simp) (fun _ i hi rest out ho => by
      rw [C19_lda_potential_exact { s with mode := POTENTIAL, vars := some .A_B, order := 1 } (Or.inl rfl) rfl rfl hb _
        (hx i hi) rest out junk (by rw [hl]; omega), hl]
      rfl)
  refine ⟨data, { s with mode := POTENTIAL, vars := some .A_B, order := 1 }, ?_, e2, fun i hi => ⟨?_, ?_, ?_⟩, rfl, rfl, rfl⟩
  · unfold evalPotentialAB
    rw [hd]
    simp only [hM, hG, Bool.false_eq_true, if_false]
    exact e1
  · simpa using e3 i hi 0 (by omega)
  · simpa using e3 i hi 1 (by omega)
  · simpa using e3 i hi 2 (by omega)

/-- **C47, `eval_potential_ab`, GGA.** With the expansions of two smooth spin density fields at the points `r i`: energy density and both
functional derivatives; everything is written. -/
theorem C47_potential_ab_gga (h : List (Call ℝ)) (s : State ℝ) (hr : run State.init h = .ok s) (hM : isMetagga s = false)
    (hG : isGga s = true) (j : (N : ℕ) → ℕ → CT ℝ N) (uninit : ℕ → ℝ) (density g hh : NdArray ℝ) (n : ℕ)
    (hd : density.shape = [n, 2]) (hgs : g.shape = [n, 3, 2]) (hhs : hh.shape = [n, 6, 2]) (hn : n * 20 < 2147483648)
    (a b : Space → ℝ) (r : ℕ → Space) (ha : ∀ i < n, ContDiffAt ℝ ∞ a (r i)) (hb : ∀ i < n, ContDiffAt ℝ ∞ b (r i))
    (hd' : ∀ i < n, density.elem [i, 0] = a (r i) ∧ density.elem [i, 1] = b (r i))
    (hg' : ∀ i < n, ∀ k < 3, g.elem [i, k, 0] = expansion a (r i) (1 + k) ∧ g.elem [i, k, 1] = expansion b (r i) (1 + k))
    (hh' : ∀ i < n, ∀ k < 6, hh.elem [i, k, 0] = expansion a (r i) (4 + k) ∧ hh.elem [i, k, 1] = expansion b (r i) (4 + k))
    (hx : ∀ i < n, RegularAt s .A_B_2ND_TAYLOR (expansion2 a b (r i))) :
    ∃ data s', evalPotentialAB codeKernel (some j) uninit s density (some g) (some hh) = .ok (.ok ⟨n, 3, data⟩, s') ∧
      data.length = n * 3 ∧
      (∀ i < n, data[i * 3]? = some (energyAt s .A_B_2ND_TAYLOR (expansion2 a b (r i))) ∧
        data[i * 3 + 1]? = some (functionalDerivative (energyAt s .A_B_2ND_TAYLOR) (expansion2 a b) 0 (r i)) ∧
        data[i * 3 + 2]? = some (functionalDerivative (energyAt s .A_B_2ND_TAYLOR) (expansion2 a b) 10 (r i))) ∧
      s'.settings = s.settings ∧ s'.active = s.active ∧ s'.depends = s.depends := by
  have hl : Vars.len .A_B_2ND_TAYLOR = 20 := by decide
  obtain ⟨data, e1, e2, e3⟩ := py_potential hr hM (v := .A_B_2ND_TAYLOR) ⟨_, rfl, rfl⟩ (fun _ => ⟨_, rfl, rfl⟩)
    (fun _ => by simp [HessianVars]) (by decide) (some j) uninit (a := pyDensAB2 n density g hh) (n := n) rfl
    (by rw [hl]; omega) (by omega) (fun i => expansion2 a b (r i)) (fun i hi k hk => by
        have hk : k < 20 := hk
        obtain ⟨d0, d1⟩ := hd' i hi
        have h3 := hg' i hi
        have h6 := hh' i hi
        interval_cases k
        · exact d0
        · exact (h3 0 (by omega)).1
        · exact (h3 1 (by omega)).1
        · exact (h3 2 (by omega)).1
        · exact (h6 0 (by omega)).1
        · exact (h6 1 (by omega)).1
        · exact (h6 2 (by omega)).1
        · exact (h6 3 (by omega)).1
        · exact (h6 4 (by omega)).1
        · exact (h6 5 (by omega)).1
        · exact d1
        · exact (h3 0 (by omega)).2
        · exact (h3 1 (by omega)).2
        · exact (h3 2 (by omega)).2
        · exact (h6 0 (by omega)).2
        · exact (h6 1 (by omega)).2
        · exact (h6 2 (by omega)).2
        · exact (h6 3 (by omega)).2
        · exact (h6 4 (by omega)).2
        · exact (h6 5 (by omega)).2)
    (fun i => [energyAt s .A_B_2ND_TAYLOR (expansion2 a b (r i)),
      functionalDerivative (energyAt s .A_B_2ND_TAYLOR) (expansion2 a b) 0 (r i),
      functionalDerivative (energyAt s .A_B_2ND_TAYLOR) (expansion2 a b) 10 (r i)])
    (fun _ _ => by simp) (fun hset i hi rest out ho =>
      C20_unrestricted_potential h s _ hr 1 hset a b (r i) (ha i hi) (hb i hi) (hx i hi) rest out j (by omega))
  refine ⟨data, { s with mode := POTENTIAL, vars := some .A_B_2ND_TAYLOR, order := 1 }, ?_, e2, fun i hi => ⟨?_, ?_, ?_⟩, rfl, rfl, rfl⟩
  · unfold evalPotentialAB
    rw [hd]
    simp only [hM, hG, Bool.false_eq_true, if_false, if_true, hgs, hhs, and_self, decide_true]
    exact e1
  · simpa using e3 i hi 0 (by omega)
  · simpa using e3 i hi 1 (by omega)
  · simpa using e3 i hi 2 (by omega)

/-- Exceptions of the potential methods: as for the energies, with the second derivatives. -/
def BadPotentialArgs (s : State ℝ) (density : NdArray ℝ) (grad hess : Option (NdArray ℝ)) (tail gtail htail : List ℕ) : Prop :=
  (¬ ∃ n, density.shape = n :: tail) ∨ isMetagga s = true ∨
    (isGga s = true ∧ ∀ n, density.shape = n :: tail →
      ¬ ∃ g h, grad = some g ∧ hess = some h ∧ g.shape = n :: gtail ∧ h.shape = n :: htail)

/-- **C47, exceptions of `eval_potential_n`.** -/
theorem C47_potential_n_raises (h : List (Call ℝ)) (s : State ℝ) (hr : run State.init h = .ok s)
    (junk : Junk ℝ) (uninit : ℕ → ℝ) (density : NdArray ℝ) (grad hess : Option (NdArray ℝ))
    (hb : BadPotentialArgs s density grad hess [] [3] [6]) :
    ∃ s', evalPotentialN codeKernel junk uninit s density grad hess = .ok (.error .xcfunException, s') ∧
      s'.settings = s.settings ∧ s'.active = s.active ∧ s'.depends = s.depends := by
  unfold evalPotentialN
  split
  · rename_i n hd
    by_cases hM : isMetagga s = true
    · simp only [hM, if_true]; exact ⟨_, rfl, rfl, rfl, rfl⟩
    · have hMf : isMetagga s = false := by simpa using hM
      rcases hb with hb | hb | ⟨hg, hb⟩
      · exact absurd ⟨n, hd⟩ hb
      · exact absurd hb hM
      · simp only [hMf, Bool.false_eq_true, if_false, hg, if_true]
        cases grad with
        | none => exact ⟨_, rfl, rfl, rfl, rfl⟩
        | some g =>
          cases hess with
          | none => exact ⟨_, rfl, rfl, rfl, rfl⟩
          | some hh =>
            have hns : ¬ (g.shape = [n, 3] ∧ hh.shape = [n, 6]) := fun hc => hb n hd ⟨g, hh, rfl, rfl, hc⟩
            obtain ⟨-, e⟩ := py_setup hr hMf (v := .N_2ND_TAYLOR) (m := POTENTIAL) (o := 1) ⟨_, rfl, rfl⟩
              (fun _ => ⟨_, rfl, rfl⟩) (by simp [OrderOk]) (fun _ _ => by simp [HessianVars])
            simp only [pySetupEval, e, Outcome.ok_bind, hns, decide_false, Bool.false_eq_true, if_false]
            exact ⟨_, rfl, rfl, rfl, rfl⟩
  · exact ⟨_, rfl, rfl, rfl, rfl⟩

/-- **C47, exceptions of `eval_potential_ab`.** -/
theorem C47_potential_ab_raises (h : List (Call ℝ)) (s : State ℝ) (hr : run State.init h = .ok s)
    (junk : Junk ℝ) (uninit : ℕ → ℝ) (density : NdArray ℝ) (grad hess : Option (NdArray ℝ))
    (hb : BadPotentialArgs s density grad hess [2] [3, 2] [6, 2]) :
    ∃ s', evalPotentialAB codeKernel junk uninit s density grad hess = .ok (.error .xcfunException, s') ∧
      s'.settings = s.settings ∧ s'.active = s.active ∧ s'.depends = s.depends := by
  unfold evalPotentialAB
  split
  · rename_i n hd
    by_cases hM : isMetagga s = true
    · simp only [hM, if_true]; exact ⟨_, rfl, rfl, rfl, rfl⟩
    · have hMf : isMetagga s = false := by simpa using hM
      rcases hb with hb | hb | ⟨hg, hb⟩
      · exact absurd ⟨n, hd⟩ hb
      · exact absurd hb hM
      · simp only [hMf, Bool.false_eq_true, if_false, hg, if_true]
        cases grad with
        | none => exact ⟨_, rfl, rfl, rfl, rfl⟩
        | some g =>
          cases hess with
          | none => exact ⟨_, rfl, rfl, rfl, rfl⟩
          | some hh =>
            have hns : ¬ (g.shape = [n, 3, 2] ∧ hh.shape = [n, 6, 2]) := fun hc => hb n hd ⟨g, hh, rfl, rfl, hc⟩
            obtain ⟨-, e⟩ := py_setup hr hMf (v := .A_B_2ND_TAYLOR) (m := POTENTIAL) (o := 1) ⟨_, rfl, rfl⟩
              (fun _ => ⟨_, rfl, rfl⟩) (by simp [OrderOk]) (fun _ _ => by simp [HessianVars])
            simp only [pySetupEval, e, Outcome.ok_bind, hns, decide_false, Bool.false_eq_true, if_false]
            exact ⟨_, rfl, rfl, rfl, rfl⟩
  · exact ⟨_, rfl, rfl, rfl, rfl⟩

/-! ### Construction -/

section
variable {V : Type} [Add V] [Mul V] [Lit V]

theorem pyInit_go : ∀ (l : List (String × V)) (s : State V), s.WF →
    ((∀ p ∈ l, IsKnown p.1) → ∃ s', pyInit.go s l = .ok (.ok s') ∧ run s (l.map fun p => .set p.1 p.2) = .ok s') ∧
      ((∃ p ∈ l, ¬ IsKnown p.1) → pyInit.go s l = .ok (.error .xcfunException))
  | [], s, _ => ⟨fun _ => ⟨s, rfl, rfl⟩, fun ⟨_, hp, _⟩ => by cases hp⟩
  | (name, w) :: l, s, hs => by
    have e := xcfunSet_eq hs name w
    have hw : (pureSet s name w).WF := step_wf (c := .set name w) hs (by simp [Call.step, e])
    obtain ⟨h1, h2⟩ := pyInit_go l (pureSet s name w) hw
    by_cases hk : IsKnown name
    · simp only [hk, if_true] at e
      refine ⟨fun h => ?_, fun ⟨p, hp, hn⟩ => ?_⟩
      · obtain ⟨s', e1, e2⟩ := h1 fun p hp => h p (List.mem_cons_of_mem _ hp)
        exact ⟨s', by simp [pyInit.go, e, e1], by simp [run, Call.step, e, e2]⟩
      · have : ∃ p ∈ l, ¬ IsKnown p.1 := by
          rcases List.mem_cons.1 hp with rfl | hp
          · exact absurd hk hn
          · exact ⟨p, hp, hn⟩
        simp [pyInit.go, e, h2 this]
    · simp only [hk, if_false] at e
      refine ⟨fun h => absurd (h _ List.mem_cons_self) hk, fun _ => ?_⟩
      simp [pyInit.go, e]

/-- **C47, construction.** `Functional(funcdict)` succeeds exactly when every name is known, and then holds the object obtained by
setting the entries in the order of the dictionary; otherwise it raises. -/
theorem C47_init (l : List (String × V)) :
    ((∀ p ∈ l, IsKnown p.1) → ∃ s, pyInit l = .ok (.ok s) ∧ run State.init (l.map fun p => .set p.1 p.2) = .ok s) ∧
      ((∃ p ∈ l, ¬ IsKnown p.1) → pyInit l = .ok (.error .xcfunException)) :=
  pyInit_go l State.init init_wf

/-- **C47, `type`.** 2 when some active functional needs a Laplacian or kinetic energy, else 1 when some needs the gradient, else 0. -/
theorem C47_type (h : List (Call V)) (s : State V) (hr : run State.init h = .ok s) :
    (pyType s = 2 ↔ Needs s 2 ∨ Needs s 3) ∧ (pyType s = 1 ↔ Needs s 1 ∧ ¬ (Needs s 2 ∨ Needs s 3)) ∧
      (pyType s = 0 ↔ ¬ Needs s 1 ∧ ¬ (Needs s 2 ∨ Needs s 3)) := by
  rw [← metagga_needs hr, ← gga_needs hr]
  unfold pyType
  cases isMetagga s <;> cases isGga s <;> simp

end

/-! ### The plain binding `xcfun_eval` -/

/-- **C47, one-dimensional density.** `xcfun_eval(fun, density)` on a single point of the right length returns an array with as many rows
as the point has components.  Only the first row is written; the others hold whatever the allocation contained. -/
theorem C47_one_dimensional (s : State ℝ) {v : Vars} (hv : ¬ Unsupported v) (hvs : s.vars = some v)
    (hm : s.mode = PARTIAL_DERIVATIVES) (ho : s.order = 0) (junk : Junk ℝ) (uninit : ℕ → ℝ) (a : NdArray ℝ)
    (ha : a.shape = [v.len]) :
    pyEval codeKernel junk uninit s a = .ok (.ok ⟨v.len, 1,
      energyAt s v (fun k => a.elem [k]) :: (List.range (v.len - 1)).map fun k => uninit (k + 1)⟩) := by
  have hsup : DV.reads v ≠ none := by rw [ne_eq, ← unsupported_iff]; exact hv
  have hlen := outlen0 hvs hm ho
  have hi : inputLength s = .ok (v.len : ℤ) := by simp [inputLength, hvs]
  obtain ⟨m, hvl⟩ : ∃ m, v.len = m + 1 := ⟨v.len - 1, by have := len_pos v; omega⟩
  have := C15_order_of_derivatives s v hvs hm 0 ho (by decide) hsup (fun k => a.elem [k]) []
    ((List.range (v.len * 1)).map uninit) junk 1 hlen (by rw [hvl]; simp)
  rw [List.append_nil] at this
  unfold pyEval
  rw [hi, hlen, ha, flat_one ha]
  simp only [Outcome.ok_bind, List.getLast_singleton, ne_eq, not_true_eq_false, if_false, Int.toNat_natCast, this]
  rw [hvl]
  simp [layout, List.range_succ_eq_map, Function.comp_def]

/-- **C47, no axes.** A scalar (zero-dimensional) argument is undefined behaviour: `density.shape(-1)` reads before the shape. -/
theorem C47_no_axes (s : State ℝ) {v : Vars} (hvs : s.vars = some v) {len : ℤ} (hl : outputLength s = .ok len) (junk : Junk ℝ)
    (uninit : ℕ → ℝ) (a : NdArray ℝ) (ha : a.shape = []) : pyEval codeKernel junk uninit s a = .ub := by
  unfold pyEval
  simp [inputLength, hvs, hl, ha]

/-- **C47, contracted mode.** From Python the contracted mode cannot be evaluated: `xcfun_output_length` ends the process. -/
theorem C47_contracted (s : State ℝ) {v : Vars} (hvs : s.vars = some v) (hm : s.mode = CONTRACTED) (junk : Junk ℝ)
    (uninit : ℕ → ℝ) (a : NdArray ℝ) : pyEval codeKernel junk uninit s a = .die := by
  have h : outputLength s = .die := by
    have h1 : ¬ (CONTRACTED = MODE_UNSET) := by decide
    have h2 : ¬ (CONTRACTED = PARTIAL_DERIVATIVES) := by decide
    have h3 : ¬ (CONTRACTED = POTENTIAL) := by decide
    simp [outputLength, hm, hvs, h1, h2, h3]
  unfold pyEval
  simp [inputLength, hvs, h]

/-- **C47, argument check.** On an object that is set up, an array whose last axis does not have the length of the input, or with more
than two axes, raises; nothing is evaluated. -/
theorem C47_wrong_shape (s : State ℝ) {v : Vars} (hvs : s.vars = some v) {len : ℤ} (hl : outputLength s = .ok len) (junk : Junk ℝ)
    (uninit : ℕ → ℝ) (a : NdArray ℝ) (ha : a.shape ≠ []) (hbad : a.shape.getLast ha ≠ v.len ∨ 2 < a.shape.length) :
    pyEval codeKernel junk uninit s a = .ok (.error .invalidArgument) := by
  unfold pyEval
  simp only [inputLength, hvs, hl, Outcome.ok_bind]
  split
  · rename_i hs; exact absurd hs ha
  · rename_i nr rest hs
    simp only [hs] at hbad
    by_cases hc : (((nr :: rest).getLast (List.cons_ne_nil _ _) : ℕ) : ℤ) ≠ v.len
    · rw [if_pos hc]
    · rw [if_neg hc]
      have hc' : (nr :: rest).getLast (List.cons_ne_nil _ _) = v.len := by simpa using hc
      rcases hbad with hb | hb
      · exact absurd hc' hb
      · match rest, hb with
        | _ :: _ :: _, _ => rfl

theorem forLoop_body {σ : Type} {f : ℕ → σ → Outcome σ} : ∀ {cnt lo : ℕ} {r out : σ}, forLoop f cnt lo r = .ok out →
    ∀ i, lo ≤ i → i < lo + cnt → ∃ r' o, f i r' = .ok o
  | 0, lo, r, out, _, i, h1, h2 => by omega
  | cnt + 1, lo, r, out, h, i, h1, h2 => by
    obtain ⟨r1, e1, e2⟩ := Outcome.bind_eq_ok.1 h
    by_cases hi : i = lo
    · subst hi; exact ⟨_, _, e1⟩
    · exact forLoop_body e2 i (by omega) (by omega)

/-- **C47, large grids.** When the offset of the last point does not fit in an `int`, the call has no defined result: the index
arithmetic of `xcfun_eval_vec` overflows. -/
theorem C47_overflow (s : State ℝ) {v : Vars} (hvs : s.vars = some v) {M : ℕ} (hl : outputLength s = .ok (M : ℤ)) (junk : Junk ℝ)
    (uninit : ℕ → ℝ) (a : NdArray ℝ) {n : ℕ} (ha : a.shape = [n, v.len]) (hn : n < 2147483648)
    (hbig : 2147483648 ≤ (n - 1) * v.len ∨ 2147483648 ≤ (n - 1) * M) (r : Except PyExc (PyArray ℝ)) :
    pyEval codeKernel junk uninit s a ≠ .ok r := by
  have hi : inputLength s = .ok (v.len : ℤ) := by simp [inputLength, hvs]
  intro hc
  unfold pyEval at hc
  rw [hi, hl, ha] at hc
  simp only [Outcome.ok_bind, List.getLast_cons_cons, List.getLast_singleton, ne_eq, not_true_eq_false, if_false] at hc
  obtain ⟨o, e1, -⟩ := Outcome.bind_eq_ok.1 hc
  unfold xcfunEvalVec at e1
  rw [toInt_of_lt hn, Int.toNat_natCast] at e1
  have hpos : 1 ≤ n := by
    rcases Nat.eq_zero_or_pos n with rfl | h
    · simp at hbig
    · exact h
  obtain ⟨r', o', e2⟩ := forLoop_body e1 (n - 1) (by omega) (by omega)
  simp only at e2
  split at e2
  · rename_i hcond
    have a1 : (((n - 1 : ℕ) : ℤ) * v.len) = (((n - 1) * v.len : ℕ) : ℤ) := by push_cast; rfl
    have a2 : (((n - 1 : ℕ) : ℤ) * (M : ℤ)) = (((n - 1) * M : ℕ) : ℤ) := by push_cast; rfl
    rw [a1, a2] at hcond
    obtain ⟨c1, c2, -⟩ := hcond
    unfold inInt at c1 c2
    omega
  · cases e2

/-! ### Cases -/

/-- Two points, closed shell. -/
noncomputable def twoPoints : NdArray ℝ := ⟨[2], fun is => is.headD 0 + 1⟩

/-- Two points, both spins: densities 1, 2 and 3, 4. -/
noncomputable def twoSpinPoints : NdArray ℝ := ⟨[2, 2], fun is => 2 * is.headD 0 + (is.tail.headD 0) + 1⟩

/-- Slater exchange is regular on closed-shell input above twice the threshold. -/
theorem slater_regular_n (s : State ℝ) (hs : s.active = [0]) (x : ℕ → ℝ) (ha : 1e-14 < x 0) : RegularAt s .N x := by
  intro id hid
  rw [hs] at hid
  simp only [List.mem_singleton] at hid
  subst hid
  have e : fullExpr s.settings .N 0 = Fun.slaterx.subst ((DV.caseN {}).finish.field s.settings) := rfl
  have p0 : (0 : ℝ) < x 0 := lt_trans (by norm_num) ha
  have h0 : ¬ x 0 < 1e-14 := not_lt.2 ha.le
  rw [e]
  refine Expr.Reg_subst (p := fun f => f == .a_43 || f == .b_43) (fun i hi => ?_) _ rfl ?_
  · cases i <;> try cases hi
    all_goals simp [DV.field, DV.finish, DV.caseN, ha, h0, p0]
    all_goals norm_num
  · simp [Fun.slaterx, Fun.d, DV.field, DV.finish, DV.caseN]

/-- `Functional({'slaterx': 1})`: energies and potentials of two points. -/
example (junk : Junk ℝ) (uninit : ℕ → ℝ) : ∃ s : State ℝ, pyInit [("slaterx", (1 : ℝ))] = .ok (.ok s) ∧ pyType s = 0 ∧
    (∃ s', evalEnergyN codeKernel junk uninit s twoPoints none =
      .ok (.ok [energyAt s .N (pointN twoPoints none 0), energyAt s .N (pointN twoPoints none 1)], s')) ∧
    (∃ s', evalEnergyAB codeKernel junk uninit s twoSpinPoints none =
      .ok (.ok [energyAt s .A_B (pointAB twoSpinPoints none 0), energyAt s .A_B (pointAB twoSpinPoints none 1)], s')) ∧
    (∃ e p e' p' s', evalPotentialN codeKernel junk uninit s twoPoints none none =
      .ok (.ok ⟨2, 3, [e, p, uninit 2, e', p', uninit 5]⟩, s')) ∧
    (∃ data s', evalPotentialAB codeKernel junk uninit s twoSpinPoints none none = .ok (.ok ⟨2, 3, data⟩, s') ∧
      data[5]? = some (pderiv 1 (energyAt s .A_B) (pointAB twoSpinPoints none 1))) := by
  obtain ⟨s, e1, e2⟩ := (C47_init [("slaterx", (1 : ℝ))]).1 (by decide +kernel)
  obtain ⟨s', e3⟩ : ∃ s' : State ℝ, run State.init [.set "slaterx" (1 : ℝ)] = .ok s' ∧ s'.active = [0] ∧ s'.depends = 1 :=
    ⟨_, rfl, rfl, rfl⟩
  have hss : s = s' := by rw [List.map_cons, List.map_nil, e3.1] at e2; cases e2; rfl
  subst hss
  obtain ⟨-, ha, hd⟩ := e3
  have hM : isMetagga s = false := by rw [isMetagga, hd]; decide
  have hG : isGga s = false := by rw [isGga, hd]; decide
  refine ⟨s, e1, by simp [pyType, hM, hG], ?_, ?_, ?_, ?_⟩
  · obtain ⟨s', h1, -⟩ := C47_energy_n _ s e2 hM junk uninit twoPoints 2 rfl none (by simp [hG]) (by norm_num)
    exact ⟨s', by simpa [hG, List.range_succ] using h1⟩
  · obtain ⟨s', h1, -⟩ := C47_energy_ab _ s e2 hM junk uninit twoSpinPoints 2 rfl none (by simp [hG]) (by norm_num)
    exact ⟨s', by simpa [hG, List.range_succ] using h1⟩
  · obtain ⟨data, s', h1, h2, h3, -⟩ := C47_potential_n_lda _ s e2 hM hG junk uninit twoPoints 2 rfl none none (by norm_num)
      (fun i hi => slater_regular_n s ha _ (by
        show (1e-14 : ℝ) < (i : ℝ) + 1
        have : (0 : ℝ) ≤ i := Nat.cast_nonneg i
        have : (1e-14 : ℝ) < 1 := by norm_num
        linarith))
    match data, h2 with
    | [a, b, c, d, e, f], _ =>
      have q := h3 0 (by omega)
      have q' := h3 1 (by omega)
      simp at q q'
      refine ⟨a, b, d, e, s', ?_⟩
      rw [h1, q.2.2, q'.2.2]
  · obtain ⟨data, s', h1, h2, h3, -⟩ := C47_potential_ab_lda _ s e2 hM hG junk uninit twoSpinPoints 2 rfl none none
      (by norm_num) (fun i hi => C16_slater_regular s ha _ (by
        show (1e-14 : ℝ) < 2 * (i : ℝ) + (0 : ℕ) + 1
        have : (0 : ℝ) ≤ i := Nat.cast_nonneg i
        have : (1e-14 : ℝ) < 1 := by norm_num
        push_cast; linarith) (by
        show (1e-14 : ℝ) < 2 * (i : ℝ) + (1 : ℕ) + 1
        have : (0 : ℝ) ≤ i := Nat.cast_nonneg i
        have : (1e-14 : ℝ) < 1 := by norm_num
        push_cast; linarith))
    exact ⟨data, s', h1, (h3 1 (by omega)).2.2⟩

/-- The same object gives different arrays for different contents of fresh memory: the claim that `eval_potential_n` returns a
determinate `(n, 2)` array is false. -/
theorem C47_potential_n_indeterminate : ∃ (s : State ℝ) (u u' : ℕ → ℝ), pyInit [("slaterx", (1 : ℝ))] = .ok (.ok s) ∧
    evalPotentialN codeKernel none u s twoPoints none none ≠ evalPotentialN codeKernel none u' s twoPoints none none := by
  obtain ⟨s, e1, e2⟩ := (C47_init [("slaterx", (1 : ℝ))]).1 (by decide +kernel)
  obtain ⟨s', e3⟩ : ∃ s' : State ℝ, run State.init [.set "slaterx" (1 : ℝ)] = .ok s' ∧ s'.active = [0] ∧ s'.depends = 1 :=
    ⟨_, rfl, rfl, rfl⟩
  have hss : s = s' := by rw [List.map_cons, List.map_nil, e3.1] at e2; cases e2; rfl
  subst hss
  obtain ⟨-, ha, hd⟩ := e3
  have hM : isMetagga s = false := by rw [isMetagga, hd]; decide
  have hG : isGga s = false := by rw [isGga, hd]; decide
  have key := fun u => C47_potential_n_lda _ s e2 hM hG none u twoPoints 2 rfl none none (by norm_num)
      (fun i hi => slater_regular_n s ha _ (by
        show (1e-14 : ℝ) < (i : ℝ) + 1
        have : (0 : ℝ) ≤ i := Nat.cast_nonneg i
        have : (1e-14 : ℝ) < 1 := by norm_num
        linarith))
  refine ⟨s, fun _ => 0, fun _ => 1, e1, fun hc => ?_⟩
  obtain ⟨d1, s1, a1, -, b1, -⟩ := key fun _ => 0
  obtain ⟨d2, s2, a2, -, b2, -⟩ := key fun _ => 1
  rw [a1, a2] at hc
  simp only [Outcome.ok.injEq, Prod.mk.injEq, Except.ok.injEq, PyArray.mk.injEq, true_and] at hc
  have q1 := (b1 0 (by omega)).2.2
  have q2 := (b2 0 (by omega)).2.2
  rw [hc.1, q2] at q1
  simp at q1

/-- A GGA without the gradient, or with a gradient of the wrong shape, raises. -/
example (junk : Junk ℝ) (uninit : ℕ → ℝ) : ∃ s : State ℝ, run State.init [.set "pbex" (1 : ℝ)] = .ok s ∧
    (∃ s', evalEnergyN codeKernel junk uninit s twoPoints none = .ok (.error .xcfunException, s')) ∧
    (∃ s', evalEnergyN codeKernel junk uninit s twoPoints (some ⟨[3, 2], fun _ => 0⟩) = .ok (.error .xcfunException, s')) ∧
    ∃ s', evalPotentialAB codeKernel junk uninit s twoPoints none none = .ok (.error .xcfunException, s') := by
  obtain ⟨s, hr, hd⟩ : ∃ s : State ℝ, run State.init [.set "pbex" (1 : ℝ)] = .ok s ∧ s.depends = 3 := ⟨_, rfl, rfl⟩
  have hG : isGga s = true := by rw [isGga, hd]; decide
  refine ⟨s, hr, ?_, ?_, ?_⟩
  · obtain ⟨s', h, -⟩ := C47_energy_n_raises _ s hr junk uninit twoPoints none (Or.inr (Or.inr ⟨hG, by simp⟩))
    exact ⟨s', h⟩
  · obtain ⟨s', h, -⟩ := C47_energy_n_raises _ s hr junk uninit twoPoints (some ⟨[3, 2], fun _ => 0⟩)
      (Or.inr (Or.inr ⟨hG, by simp [twoPoints]⟩))
    exact ⟨s', h⟩
  · obtain ⟨s', h, -⟩ := C47_potential_ab_raises _ s hr junk uninit twoPoints none none (Or.inl (by simp [twoPoints]))
    exact ⟨s', h⟩

/-- The von Weizsäcker functional of a smooth field at two points: functional derivatives, and an unwritten column. -/
example (junk : Junk ℝ) (uninit : ℕ → ℝ) (ρ : Space → ℝ) (hρ : ContDiff ℝ ∞ ρ) (h0 : ∀ r, 1e-14 < ρ r) (r : ℕ → Space) :
    ∃ (s : State ℝ) (data : List ℝ) (s' : State ℝ), run State.init [.set "vwk" (1 : ℝ)] = .ok s ∧
      evalPotentialN codeKernel junk uninit s ⟨[2], fun is => ρ (r (is.headD 0))⟩
        (some ⟨[2, 3], fun is => expansion ρ (r (is.headD 0)) (1 + is.tail.headD 0)⟩)
        (some ⟨[2, 6], fun is => expansion ρ (r (is.headD 0)) (4 + is.tail.headD 0)⟩) = .ok (.ok ⟨2, 3, data⟩, s') ∧
      data[4]? = some (functionalDerivative (energyAt s .N_2ND_TAYLOR) (expansion ρ) 0 (r 1)) ∧ data[5]? = some (uninit 5) := by
  obtain ⟨s, hr, ha, hd⟩ : ∃ s : State ℝ, run State.init [.set "vwk" (1 : ℝ)] = .ok s ∧ s.active = [59] ∧ s.depends = 3 :=
    ⟨_, rfl, rfl, rfl⟩
  have hM : isMetagga s = false := by rw [isMetagga, hd]; decide
  have hG : isGga s = true := by rw [isGga, hd]; decide
  obtain ⟨data, s', h1, -, h2, -⟩ := C47_potential_n_gga _ s hr hM hG (by rw [ha]; simp) junk uninit
    ⟨[2], fun is => ρ (r (is.headD 0))⟩ ⟨[2, 3], fun is => expansion ρ (r (is.headD 0)) (1 + is.tail.headD 0)⟩
    ⟨[2, 6], fun is => expansion ρ (r (is.headD 0)) (4 + is.tail.headD 0)⟩ 2 rfl rfl rfl (by norm_num) ρ r
    (fun i _ => hρ.contDiffAt) (fun _ _ => rfl) (fun _ _ _ _ => rfl) (fun _ _ _ _ => rfl) (fun i _ id hid => by
      rw [ha] at hid
      obtain rfl : id = 59 := by simpa using hid
      exact vwk_regular _ (h0 (r i)))
  exact ⟨s, data, s', hr, h1, (h2 1 (by omega)).2.1, (h2 1 (by omega)).2.2⟩

/-- Slater exchange set up for both spins: one point as a one-dimensional array returns two rows, a scalar is undefined, three numbers
raise, and 2^30 + 1 points overflow. -/
example (junk : Junk ℝ) (uninit : ℕ → ℝ) : ∃ s : State ℝ,
    run State.init [.set "slaterx" (1 : ℝ), .evalSetup Vars.A_B.code PARTIAL_DERIVATIVES 0] = .ok s ∧
    (∃ e, pyEval codeKernel junk uninit s ⟨[2], fun is => is.headD 0 + 1⟩ = .ok (.ok ⟨2, 1, [e, uninit 1]⟩)) ∧
    pyEval codeKernel junk uninit s ⟨[], fun _ => 1⟩ = .ub ∧
    pyEval codeKernel junk uninit s ⟨[3], fun _ => 1⟩ = .ok (.error .invalidArgument) ∧
    ∀ r, pyEval codeKernel junk uninit s ⟨[1073741825, 2], fun _ => 1⟩ ≠ .ok r := by
  obtain ⟨s, hr, hv, hm, ho⟩ : ∃ s : State ℝ,
      run State.init [.set "slaterx" (1 : ℝ), .evalSetup Vars.A_B.code PARTIAL_DERIVATIVES 0] = .ok s ∧
        s.vars = some .A_B ∧ s.mode = PARTIAL_DERIVATIVES ∧ s.order = 0 := ⟨_, rfl, rfl, rfl, rfl⟩
  refine ⟨s, hr, ⟨_, C47_one_dimensional s (by decide) hv hm ho junk uninit _ rfl⟩,
    C47_no_axes s hv (outlen0 hv hm ho) junk uninit _ rfl,
    C47_wrong_shape s hv (outlen0 hv hm ho) junk uninit _ (by simp) (Or.inl (by decide +kernel)), fun r => ?_⟩
  exact C47_overflow s hv (outlen0 hv hm ho) junk uninit _ (n := 1073741825) rfl (by norm_num)
    (Or.inl (by rw [show Vars.len .A_B = 2 by decide])) r

end XCFun.Props
