/-
The tests of the Python module: running them statement by statement, and the numbers they compare.
-/
import Verif.Model.PyTests
import Verif.Proofs.PotentialNum
import Verif.Proofs.ProgramsRun
import Verif.Props.Python

namespace XCFun
open Spec Props Num

/-- numpy with exact arithmetic. -/
noncomputable def realNumpy : Numpy ℝ := ⟨Real.sin, Real.cos, fun x => |x|, fun x y => decide (x ≤ y)⟩

/-! ## Statements -/

namespace PyTest
section
variable {V α β : Type}

theorem next {m : PyTest α} {f : α → PyTest β} {a : α} (h : m = Outcome.ok (.ok a)) : (m >>= f) = f a := by
  subst h; rfl

theorem call_run {m : Outcome (Except PyExc α × State V)} {a : α} {s : State V} (h : m = .ok (.ok a, s)) : call m = Outcome.ok (.ok (a, s)) := by
  subst h; rfl

theorem raises_run {m : Outcome (Except PyExc α × State V)} {s : State V} (h : m = .ok (.error .xcfunException, s)) : raises m = Outcome.ok (.ok s) := by
  subst h; rfl

end
end PyTest

theorem column_run {V : Type} {n : ℕ} {data : List V} {j : ℕ} (hj : j < 3) (e : ℕ → V) (h : ∀ i < n, data[i * 3 + j]? = some (e i)) :
    column ⟨n, 3, data⟩ j = Outcome.ok (.ok ((List.range n).map e)) := by
  unfold column
  refine (if_pos hj).trans ?_
  have : ∀ l : List ℕ, (∀ i ∈ l, data[i * 3 + j]? = some (e i)) →
      l.mapM (fun i => rdBuf data (i * 3 + j)) = .ok (l.map e) := by
    intro l
    induction l with
    | nil => intro _; rfl
    | cons i l ih =>
      intro hl
      rw [List.mapM_cons, ih fun i hi => hl i (List.mem_cons_of_mem _ hi)]
      simp only [rdBuf, hl i List.mem_cons_self]
      rfl
  show Outcome.bind ((List.range n).mapM fun i => rdBuf data (i * 3 + j)) _ = _
  rw [this _ fun i hi => h i (by simpa using hi)]
  rfl

theorem item_run {V : Type} {n : ℕ} {data : List V} {i j : ℕ} (hi : i < n) (hj : j < 3) {x : V} (h : data[i * 3 + j]? = some x) :
    item ⟨n, 3, data⟩ i j = Outcome.ok (.ok x) := by
  unfold item
  refine (if_pos ⟨hi, hj⟩).trans ?_
  show Outcome.bind (rdBuf data (i * 3 + j)) _ = _
  simp only [rdBuf, h]
  rfl

/-! ## Comparisons -/

/-- Are the first `n` numbers of `f` close to those of `g`? -/
noncomputable def closeN (f g : ℕ → Q) (n : ℕ) : Bool := Nat.rec true (fun i ih => Bool.rec false ih (relQ (f i) (g i))) n

theorem closeN_get {f g : ℕ → Q} {n : ℕ} (h : closeN f g n = true) : ∀ i < n, relQ (f i) (g i) = true := by
  induction n with
  | zero => intro i hi; omega
  | succ n ih =>
    intro i hi
    change Bool.rec false (closeN f g n) (relQ (f n) (g n)) = true at h
    cases hr : relQ (f n) (g n) with
    | false => rw [hr] at h; cases h
    | true =>
      rw [hr] at h
      rcases Nat.lt_succ_iff_lt_or_eq.1 hi with hi | rfl
      · exact ih h i hi
      · exact hr

theorem allclose_map {n : ℕ} {x y : ℕ → ℝ} (h : ∀ i < n, |x i - y i| ≤ 1e-7 * |y i|) :
    allclose realNumpy ((List.range n).map x) ((List.range n).map y) = Outcome.ok (.ok ()) := by
  unfold allclose PyTest.check
  refine if_pos ?_
  · rw [List.zip_map', Bool.and_eq_true]
    refine ⟨by simp, ?_⟩
    rw [List.all_map, List.all_eq_true]
    intro i hi
    have := h i (by simpa using hi)
    have e : (lit 1 7 : ℝ) = 1e-7 := by simp only [lit, XCFun.Lit.lit]; norm_num
    simpa [realNumpy, e] using this

theorem allclose_run {n : ℕ} {x y : ℕ → ℝ} {f g : ℕ → Q} (hx : ∀ i < n, Near (f i) (x i)) (hy : ∀ i < n, Near (g i) (y i)) (h : closeN f g n = true) :
    allclose realNumpy ((List.range n).map x) ((List.range n).map y) = Outcome.ok (.ok ()) :=
  allclose_map fun i hi => relQ_le (hx i hi) (hy i hi) (closeN_get h i hi)

/-- The reference values. -/
noncomputable def refQ (l : List ℤ) (i : ℕ) : Q := ofDec (l.getD i 0, 8)

theorem ref8_eq (l : List ℤ) : (ref8 l : List ℝ) = (List.range l.length).map fun i => lit (l.getD i 0) 8 := by
  unfold ref8
  apply List.ext_getElem
  · simp
  · intro i h1 _
    have : i < l.length := by simpa using h1
    simp [this]

theorem allclose_ref {n : ℕ} {x : ℕ → ℝ} {f : ℕ → Q} {l : List ℤ} (hl : l.length = n) (hx : ∀ i < n, Near (f i) (x i)) (h : closeN f (refQ l) n = true) :
    allclose realNumpy ((List.range n).map x) (ref8 l) = Outcome.ok (.ok ()) := by
  rw [ref8_eq, hl]
  exact allclose_run hx (fun i _ => near_ofDec _) h

/-! ## Objects -/

/-- A reachable object that holds the functionals `l`. -/
structure Obj (s : State ℝ) (l : List (Dec × IE Field)) (dep : ℕ) : Prop where
  reached : ∃ h, run State.init h = .ok s
  terms : Terms s l
  depends : s.depends = dep

theorem reach_setup {s : State ℝ} (hr : ∃ h, run State.init h = .ok s) {v : Vars} {m o : ℤ} {r : ℤ × State ℝ} (he : evalSetup s v.code m o = .ok r) :
    ∃ h, run State.init h = .ok r.2 := by
  obtain ⟨h, hr⟩ := hr
  refine ⟨h ++ [.evalSetup v.code m o], ?_⟩
  rw [run_append, hr]
  simp only [Outcome.ok_bind, run, Call.step, he]
  rfl

theorem reach_eval {s : State ℝ} (hr : ∃ h, run State.init h = .ok s) {K : Kernel ℝ} {junk : Junk ℝ} {u : ℕ → ℝ} {v : Vars} {m o : ℤ} {b : Bool} {a : NdArray ℝ}
    {r : Except PyExc (PyArray ℝ)} {s' : State ℝ} (h : pySetupEval K junk u s v m o b a = .ok (r, s')) : ∃ h, run State.init h = .ok s' := by
  unfold pySetupEval pyEvalSetup at h
  cases he : evalSetup s v.code m o with
  | ok q =>
    have hq := reach_setup hr he
    rw [he] at h
    simp only [Outcome.ok_bind, Outcome.pure_eq] at h
    split at h
    · cases h; exact hq
    · split at h
      · cases hp : pyEval K junk u q.2 a with
        | ok y => rw [hp] at h; cases h; exact hq
        | die => rw [hp] at h; cases h
        | ub => rw [hp] at h; cases h
        | diverge => rw [hp] at h; cases h
      · cases h; exact hq
  | die => rw [he] at h; cases h
  | ub => rw [he] at h; cases h
  | diverge => rw [he] at h; cases h

theorem reach_first {s : State ℝ} (hr : ∃ h, run State.init h = .ok s) {K : Kernel ℝ} {junk : Junk ℝ} {u : ℕ → ℝ} {v : Vars} {m o : ℤ} {b : Bool} {a : NdArray ℝ}
    {r : Except PyExc (List ℝ)} {s' : State ℝ} (h : firstColumn (pySetupEval K junk u s v m o b a) = .ok (r, s')) : ∃ h, run State.init h = .ok s' := by
  unfold firstColumn at h
  cases he : pySetupEval K junk u s v m o b a with
  | ok q =>
    obtain ⟨q, t⟩ := q
    have hq := reach_eval hr he
    rw [he] at h
    cases q with
    | error e => cases h; exact hq
    | ok y =>
      simp only [Outcome.ok_bind] at h
      cases hp : column0 y with
      | ok y => rw [hp] at h; cases h; exact hq
      | die => rw [hp] at h; cases h
      | ub => rw [hp] at h; cases h
      | diverge => rw [hp] at h; cases h
  | die => rw [he] at h; cases h
  | ub => rw [he] at h; cases h
  | diverge => rw [he] at h; cases h

section
variable {s s' : State ℝ} {K : Kernel ℝ} {junk : Junk ℝ} {u : ℕ → ℝ} {d : NdArray ℝ} {g hh : Option (NdArray ℝ)}

theorem reach_energyN (hr : ∃ h, run State.init h = .ok s) {r} (h : evalEnergyN K junk u s d g = .ok (r, s')) : ∃ h, run State.init h = .ok s' := by
  unfold evalEnergyN at h
  repeat' split at h
  all_goals first | (cases h; exact hr) | exact reach_first hr h

theorem reach_energyAB (hr : ∃ h, run State.init h = .ok s) {r} (h : evalEnergyAB K junk u s d g = .ok (r, s')) : ∃ h, run State.init h = .ok s' := by
  unfold evalEnergyAB at h
  repeat' split at h
  all_goals first | (cases h; exact hr) | exact reach_first hr h

theorem reach_potentialN (hr : ∃ h, run State.init h = .ok s) {r} (h : evalPotentialN K junk u s d g hh = .ok (r, s')) : ∃ h, run State.init h = .ok s' := by
  unfold evalPotentialN at h
  repeat' split at h
  all_goals first | (cases h; exact hr) | exact reach_eval hr h

theorem reach_potentialAB (hr : ∃ h, run State.init h = .ok s) {r} (h : evalPotentialAB K junk u s d g hh = .ok (r, s')) : ∃ h, run State.init h = .ok s' := by
  unfold evalPotentialAB at h
  repeat' split at h
  all_goals first | (cases h; exact hr) | exact reach_eval hr h

theorem Obj.of {l : List (Dec × IE Field)} {dep : ℕ} (h : Obj s l dep) (hr : ∃ h, run State.init h = .ok s')
    (hs : s'.settings = s.settings ∧ s'.active = s.active ∧ s'.depends = s.depends) : Obj s' l dep := by
  refine ⟨hr, ?_, hs.2.2.trans h.3⟩
  unfold Terms
  rw [hs.1, hs.2.1]
  exact h.2

end

/-- `LDA` -/
noncomputable def ldaTerms : List (Dec × IE Field) := [((1, 0), Fun.slaterx.code), ((1, 0), Fun.vwn5c.code)]

theorem lda_functional : ∃ s : State ℝ, functional "LDA" = Outcome.ok (.ok s) ∧ Obj s ldaTerms DENSITY := by
  have e : (lit 0 0 + lit 1 0 * lit 1 0 : ℝ) = lit 1 0 := by simp [lit, XCFun.Lit.lit]
  obtain ⟨s, h0, h1, h2, h3, h4, h5⟩ : ∃ s : State ℝ, functional "LDA" = Outcome.ok (.ok s) ∧ run State.init [.set "LDA" (lit 1 0)] = .ok s ∧ s.active = [0, 3] ∧
    s.settings 0 = lit 0 0 + lit 1 0 * lit 1 0 ∧ s.settings 3 = lit 0 0 + lit 1 0 * lit 1 0 ∧ s.depends = DENSITY := ⟨_, rfl, rfl, rfl, rfl, rfl, rfl⟩
  refine ⟨s, h0, ⟨_, h1⟩, ?_, h5⟩
  unfold Terms
  rw [h2]
  exact .cons ⟨h3.trans e, by rw [Fun.slaterx.code_den]; rfl⟩ (.cons ⟨h4.trans e, by rw [Fun.vwn5c.code_den]; rfl⟩ .nil)

theorem pbe_functional : ∃ s : State ℝ, functional "PBE" = Outcome.ok (.ok s) ∧ Obj s pbeTerms (DENSITY ||| GRADIENT) := by
  have e : (lit 0 0 + lit 1 0 * lit 1 0 : ℝ) = lit 1 0 := by simp [lit, XCFun.Lit.lit]
  obtain ⟨s, h0, h1, h2, h3, h4, h5⟩ : ∃ s : State ℝ, functional "PBE" = Outcome.ok (.ok s) ∧ run State.init [.set "PBE" (lit 1 0)] = .ok s ∧ s.active = [5, 4] ∧
    s.settings 5 = lit 0 0 + lit 1 0 * lit 1 0 ∧ s.settings 4 = lit 0 0 + lit 1 0 * lit 1 0 ∧ s.depends = DENSITY ||| GRADIENT := ⟨_, rfl, rfl, rfl, rfl, rfl, rfl⟩
  refine ⟨s, h0, ⟨_, h1⟩, ?_, h5⟩
  unfold Terms
  rw [h2]
  exact .cons ⟨h3.trans e, by rw [Fun.pbex.code_den]; rfl⟩ (.cons ⟨h4.trans e, by rw [Fun.pbec.code_den]; rfl⟩ .nil)

/-! ## Methods -/

section
variable {s : State ℝ} {l : List (Dec × IE Field)} (junk : Junk ℝ) (u : ℕ → ℝ) {d : NdArray ℝ} {n : ℕ}

theorem Obj.lda (h : Obj s l DENSITY) : isMetagga s = false ∧ isGga s = false := by
  rw [isMetagga, isGga, h.3]; decide

theorem Obj.gga (h : Obj s l (DENSITY ||| GRADIENT)) : isMetagga s = false ∧ isGga s = true := by
  rw [isMetagga, isGga, h.3]; decide

theorem energyN_lda (h : Obj s l DENSITY) (hd : d.shape = [n]) (hn : n * 4 < 2147483648) :
    ∃ s', evalEnergyN codeKernel junk u s d none = .ok (.ok ((List.range n).map fun i => energyAt s .N (pointN d none i)), s') ∧ Obj s' l DENSITY := by
  obtain ⟨k, hr⟩ := h.1
  obtain ⟨s', e, hs⟩ := C47_energy_n k s hr h.lda.1 junk u d n hd none (fun hc => by rw [h.lda.2] at hc; cases hc) hn
  rw [h.lda.2] at e
  exact ⟨s', e, h.of (reach_energyN h.1 e) hs⟩

theorem energyAB_lda (h : Obj s l DENSITY) (hd : d.shape = [n, 2]) (hn : n * 8 < 2147483648) :
    ∃ s', evalEnergyAB codeKernel junk u s d none = .ok (.ok ((List.range n).map fun i => energyAt s .A_B (pointAB d none i)), s') ∧ Obj s' l DENSITY := by
  obtain ⟨k, hr⟩ := h.1
  obtain ⟨s', e, hs⟩ := C47_energy_ab k s hr h.lda.1 junk u d n hd none (fun hc => by rw [h.lda.2] at hc; cases hc) hn
  rw [h.lda.2] at e
  exact ⟨s', e, h.of (reach_energyAB h.1 e) hs⟩

theorem energyN_gga (h : Obj s l (DENSITY ||| GRADIENT)) (hd : d.shape = [n]) {g : NdArray ℝ} (hg : g.shape = [n, 3]) (hn : n * 4 < 2147483648) :
    ∃ s', evalEnergyN codeKernel junk u s d (some g) = .ok (.ok ((List.range n).map fun i => energyAt s .N_NX_NY_NZ (pointN d (some g) i)), s') ∧
      Obj s' l (DENSITY ||| GRADIENT) := by
  obtain ⟨k, hr⟩ := h.1
  obtain ⟨s', e, hs⟩ := C47_energy_n k s hr h.gga.1 junk u d n hd (some g) (fun _ => ⟨g, rfl, hg⟩) hn
  rw [h.gga.2] at e
  exact ⟨s', e, h.of (reach_energyN h.1 e) hs⟩

theorem energyAB_gga (h : Obj s l (DENSITY ||| GRADIENT)) (hd : d.shape = [n, 2]) {g : NdArray ℝ} (hg : g.shape = [n, 3, 2]) (hn : n * 8 < 2147483648) :
    ∃ s', evalEnergyAB codeKernel junk u s d (some g) = .ok (.ok ((List.range n).map fun i => energyAt s .A_B_AX_AY_AZ_BX_BY_BZ (pointAB d (some g) i)), s') ∧
      Obj s' l (DENSITY ||| GRADIENT) := by
  obtain ⟨k, hr⟩ := h.1
  obtain ⟨s', e, hs⟩ := C47_energy_ab k s hr h.gga.1 junk u d n hd (some g) (fun _ => ⟨g, rfl, hg⟩) hn
  rw [h.gga.2] at e
  exact ⟨s', e, h.of (reach_energyAB h.1 e) hs⟩

theorem potentialN_lda (h : Obj s l DENSITY) (hd : d.shape = [n]) (hn : n * 3 < 2147483648) :
    ∃ data s', evalPotentialN codeKernel junk u s d none none = .ok (.ok ⟨n, 3, data⟩, s') ∧ Obj s' l DENSITY ∧
      ∀ i < n, data[i * 3 + 0]? = some (energyAt s .N (pointN d none i)) ∧ data[i * 3 + 1]? = some (D1 s .N (pointN d none i) 0) := by
  obtain ⟨k, hr⟩ := h.1
  have hl : Vars.len .N = 1 := by decide
  have hG := h.lda.2
  obtain ⟨data, e1, e2, e3⟩ := py_potential hr h.lda.1 (v := .N) ⟨_, rfl, rfl⟩ (fun hc => by rw [hG] at hc; cases hc)
    (fun hc => by rw [hG] at hc; cases hc) (by decide) junk u (a := pyDensN n d none) (n := n) rfl
    (by rw [hl]; omega) hn (pointN d none) (fun i _ k hk => by
        have hk : k < 1 := hk
        interval_cases k; rfl)
    (fun i => potLda s .N (pointN d none i)) (fun _ _ => by simp [potLda, hl])
    (fun _ i _ rest out ho => eval_potLda (s := { s with mode := POTENTIAL, vars := some .N, order := 1 }) (Or.inr rfl) rfl rfl
      (by show s.depends &&& GRADIENT = 0; rw [h.3]; decide) _ rest out junk ho)
  have e : evalPotentialN codeKernel junk u s d none none = .ok (.ok ⟨n, 3, data⟩, { s with mode := POTENTIAL, vars := some .N, order := 1 }) := by
    unfold evalPotentialN
    rw [hd]
    simp only [h.lda.1, hG, Bool.false_eq_true, if_false]
    exact e1
  refine ⟨data, _, e, h.of (reach_potentialN h.1 e) ⟨rfl, rfl, rfl⟩, fun i hi => ⟨?_, ?_⟩⟩
  · simpa [potLda, hl] using e3 i hi 0 (by omega)
  · simpa [potLda, hl] using e3 i hi 1 (by omega)

theorem potentialAB_lda (h : Obj s l DENSITY) (hd : d.shape = [n, 2]) (hn : n * 3 < 2147483648) :
    ∃ data s', evalPotentialAB codeKernel junk u s d none none = .ok (.ok ⟨n, 3, data⟩, s') ∧ Obj s' l DENSITY ∧
      ∀ i < n, data[i * 3 + 0]? = some (energyAt s .A_B (pointAB d none i)) ∧ data[i * 3 + 1]? = some (D1 s .A_B (pointAB d none i) 0) ∧
        data[i * 3 + 2]? = some (D1 s .A_B (pointAB d none i) 1) := by
  obtain ⟨k, hr⟩ := h.1
  have hl : Vars.len .A_B = 2 := by decide
  have hG := h.lda.2
  obtain ⟨data, e1, e2, e3⟩ := py_potential hr h.lda.1 (v := .A_B) ⟨_, rfl, rfl⟩ (fun hc => by rw [hG] at hc; cases hc)
    (fun hc => by rw [hG] at hc; cases hc) (by decide) junk u (a := d) (n := n) hd
    (by rw [hl]; omega) hn (pointAB d none) (fun i _ k hk => by
        have hk : k < 2 := hk
        interval_cases k <;> rfl)
    (fun i => potLda s .A_B (pointAB d none i)) (fun _ _ => by simp [potLda, hl])
    (fun _ i _ rest out ho => eval_potLda (s := { s with mode := POTENTIAL, vars := some .A_B, order := 1 }) (Or.inl rfl) rfl rfl
      (by show s.depends &&& GRADIENT = 0; rw [h.3]; decide) _ rest out junk ho)
  have e : evalPotentialAB codeKernel junk u s d none none = .ok (.ok ⟨n, 3, data⟩, { s with mode := POTENTIAL, vars := some .A_B, order := 1 }) := by
    unfold evalPotentialAB
    rw [hd]
    simp only [h.lda.1, hG, Bool.false_eq_true, if_false]
    exact e1
  refine ⟨data, _, e, h.of (reach_potentialAB h.1 e) ⟨rfl, rfl, rfl⟩, fun i hi => ⟨?_, ?_, ?_⟩⟩
  · simpa [potLda, hl, List.range_succ] using e3 i hi 0 (by omega)
  · simpa [potLda, hl, List.range_succ] using e3 i hi 1 (by omega)
  · simpa [potLda, hl, List.range_succ] using e3 i hi 2 (by omega)

theorem potentialN_gga (h : Obj s l (DENSITY ||| GRADIENT)) (hd : d.shape = [n]) {g hh : NdArray ℝ} (hg : g.shape = [n, 3]) (hhs : hh.shape = [n, 6])
    (hn : n * 10 < 2147483648) (p : ℕ → ℕ → ℝ) (hp : ∀ i < n, ∀ k < 10, (pyDensN2 n d g hh).elem [i, k] = p i k) :
    ∃ data s', evalPotentialN codeKernel junk u s d (some g) (some hh) = .ok (.ok ⟨n, 3, data⟩, s') ∧ Obj s' l (DENSITY ||| GRADIENT) ∧
      ∀ i < n, data[i * 3 + 0]? = some (energyAt s .N_2ND_TAYLOR (p i)) ∧
        data[i * 3 + 1]? = some (D1 s .N_2ND_TAYLOR (p i) 0 - (ggaN codeKernel s .N_2ND_TAYLOR (p i)).get 3) := by
  obtain ⟨k, hr⟩ := h.1
  have hl : Vars.len .N_2ND_TAYLOR = 10 := by decide
  have hG := h.gga.2
  obtain ⟨data, e1, e2, e3⟩ := py_potential hr h.gga.1 (v := .N_2ND_TAYLOR) ⟨_, rfl, rfl⟩ (fun _ => ⟨_, rfl, rfl⟩)
    (fun _ => by simp [HessianVars]) (by decide) junk u (a := pyDensN2 n d g hh) (n := n) rfl
    (by rw [hl]; omega) (by omega) p (by rw [hl]; exact hp)
    (fun i => potN s (p i)) (fun _ _ => by simp [potN])
    (fun _ i _ rest out ho => eval_potN (s := { s with mode := POTENTIAL, vars := some .N_2ND_TAYLOR, order := 1 }) rfl rfl
      (by show s.depends &&& GRADIENT ≠ 0; rw [h.3]; decide) _ rest out junk ho)
  have e : evalPotentialN codeKernel junk u s d (some g) (some hh) = .ok (.ok ⟨n, 3, data⟩, { s with mode := POTENTIAL, vars := some .N_2ND_TAYLOR, order := 1 }) := by
    unfold evalPotentialN
    rw [hd]
    simp only [h.gga.1, hG, Bool.false_eq_true, if_false, if_true, hg, hhs, and_self, decide_true]
    exact e1
  refine ⟨data, _, e, h.of (reach_potentialN h.1 e) ⟨rfl, rfl, rfl⟩, fun i hi => ⟨?_, ?_⟩⟩
  · simpa [potN] using e3 i hi 0 (by omega)
  · simpa [potN] using e3 i hi 1 (by omega)

theorem potentialAB_gga (j : (N : ℕ) → ℕ → CT ℝ N) (h : Obj s l (DENSITY ||| GRADIENT)) (hd : d.shape = [n, 2]) {g hh : NdArray ℝ} (hg : g.shape = [n, 3, 2])
    (hhs : hh.shape = [n, 6, 2]) (hn : n * 20 < 2147483648) (p : ℕ → ℕ → ℝ) (hp : ∀ i < n, ∀ k < 20, (pyDensAB2 n d g hh).elem [i, k] = p i k) :
    ∃ data s', evalPotentialAB codeKernel (some j) u s d (some g) (some hh) = .ok (.ok ⟨n, 3, data⟩, s') ∧ Obj s' l (DENSITY ||| GRADIENT) ∧
      ∀ i < n, data[i * 3 + 0]? = some (energyAt s .A_B_2ND_TAYLOR (p i)) ∧
        data[i * 3 + 1]? = some (D1 s .A_B_2ND_TAYLOR (p i) 0 - (ggaAB codeKernel s .A_B_2ND_TAYLOR (p i) (j 2) 0).get 3) ∧
        data[i * 3 + 2]? = some (D1 s .A_B_2ND_TAYLOR (p i) 10 - (ggaAB codeKernel s .A_B_2ND_TAYLOR (p i) (j 2) 1).get 3) := by
  obtain ⟨k, hr⟩ := h.1
  have hl : Vars.len .A_B_2ND_TAYLOR = 20 := by decide
  have hG := h.gga.2
  obtain ⟨data, e1, e2, e3⟩ := py_potential hr h.gga.1 (v := .A_B_2ND_TAYLOR) ⟨_, rfl, rfl⟩ (fun _ => ⟨_, rfl, rfl⟩)
    (fun _ => by simp [HessianVars]) (by decide) (some j) u (a := pyDensAB2 n d g hh) (n := n) rfl
    (by rw [hl]; omega) (by omega) p (by rw [hl]; exact hp)
    (fun i => potAB s (j 2) (p i)) (fun _ _ => by simp [potAB])
    (fun _ i _ rest out ho => eval_potAB (s := { s with mode := POTENTIAL, vars := some .A_B_2ND_TAYLOR, order := 1 }) rfl rfl
      (by show s.depends &&& GRADIENT ≠ 0; rw [h.3]; decide) _ rest out j ho)
  have e : evalPotentialAB codeKernel (some j) u s d (some g) (some hh) =
      .ok (.ok ⟨n, 3, data⟩, { s with mode := POTENTIAL, vars := some .A_B_2ND_TAYLOR, order := 1 }) := by
    unfold evalPotentialAB
    rw [hd]
    simp only [h.gga.1, hG, Bool.false_eq_true, if_false, if_true, hg, hhs, and_self, decide_true]
    exact e1
  refine ⟨data, _, e, h.of (reach_potentialAB h.1 e) ⟨rfl, rfl, rfl⟩, fun i hi => ⟨?_, ?_, ?_⟩⟩
  · simpa [potAB] using e3 i hi 0 (by omega)
  · simpa [potAB] using e3 i hi 1 (by omega)
  · simpa [potAB] using e3 i hi 2 (by omega)

end

/-! ## Data -/

noncomputable def densQ (i : ℕ) : Q := ofDec (1 + 5 * i, 1)
noncomputable def spinQ (i : ℕ) : Q := (ofDec (1, 1)).mul (densQ i).sin
noncomputable def gradQ (i k : ℕ) : Q :=
  Nat.casesOn k ((ofDec (2, 1)).mul (densQ i).cos) fun k => Nat.casesOn k ((ofDec (3, 1)).mul (densQ i).sin) fun k =>
    Nat.casesOn k ((ofDec (1, 1)).mul ((densQ i).sin.mul (densQ i).sin)) fun _ => .z
noncomputable def hessQ (i k : ℕ) : Q :=
  Nat.casesOn k (ofDec (5, 1)) fun k => Nat.casesOn k ((ofDec (1, 1)).mul (densQ i)) fun k => Nat.casesOn k ((densQ i).cos.mul (densQ i).cos) fun k =>
    Nat.casesOn k (densQ i).sin fun k => Nat.casesOn k ((ofDec (6, 1)).mul ((densQ i).cos.mul (densQ i).cos)) fun k =>
      Nat.casesOn k ((ofDec (3, 1)).mul (densQ i).sin) fun _ => .z

theorem near_densQ (i : ℕ) : Near (densQ i) (densAt i : ℝ) := near_ofDec _
theorem near_spinQ (i : ℕ) : Near (spinQ i) (spinAt realNumpy i) := Q.near_mul (near_ofDec _) (Q.near_sin (near_densQ i))
theorem near_gradQ (i k : ℕ) : Near (gradQ i k) (gradAt realNumpy i k) := by
  have hs : Near (densQ i).sin (realNumpy.sin (densAt i)) := Q.near_sin (near_densQ i)
  have hc : Near (densQ i).cos (realNumpy.cos (densAt i)) := Q.near_cos (near_densQ i)
  match k with
  | 0 => exact Q.near_mul (near_ofDec _) hc
  | 1 => exact Q.near_mul (near_ofDec _) hs
  | 2 => exact Q.near_mul (near_ofDec _) (Q.near_mul hs hs)
  | _ + 3 => exact near_z.2 rfl
theorem near_hessQ (i k : ℕ) : Near (hessQ i k) (hessAt realNumpy i k) := by
  have hs : Near (densQ i).sin (realNumpy.sin (densAt i)) := Q.near_sin (near_densQ i)
  have hc : Near (densQ i).cos (realNumpy.cos (densAt i)) := Q.near_cos (near_densQ i)
  match k with
  | 0 => exact near_ofDec (5, 1)
  | 1 => exact Q.near_mul (near_ofDec _) (near_densQ i)
  | 2 => exact Q.near_mul hc hc
  | 3 => exact hs
  | 4 => exact Q.near_mul (near_ofDec _) (Q.near_mul hc hc)
  | 5 => exact Q.near_mul (near_ofDec _) hs
  | _ + 6 => exact near_z.2 rfl

/-! The values at a point: of one density, of two densities with factors for the derivatives. -/

noncomputable def rowNQ (i : ℕ) : List Q := [densQ i, gradQ i 0, gradQ i 1, gradQ i 2]
noncomputable def rowN2Q (i : ℕ) : List Q :=
  [densQ i, gradQ i 0, gradQ i 1, gradQ i 2, hessQ i 0, hessQ i 1, hessQ i 2, hessQ i 3, hessQ i 4, hessQ i 5]
noncomputable def rowABQ (a b : ℕ → Q) (ca cb : Dec) (i : ℕ) : List Q :=
  [a i, b i, (ofDec ca).mul (gradQ i 0), (ofDec ca).mul (gradQ i 1), (ofDec ca).mul (gradQ i 2), (ofDec cb).mul (gradQ i 0), (ofDec cb).mul (gradQ i 1),
    (ofDec cb).mul (gradQ i 2)]
noncomputable def rowSpinQ (a : ℕ → Q) (c h : Dec) (i : ℕ) : List Q :=
  [a i, (ofDec c).mul (gradQ i 0), (ofDec c).mul (gradQ i 1), (ofDec c).mul (gradQ i 2), (ofDec h).mul (hessQ i 0), (ofDec h).mul (hessQ i 1),
    (ofDec h).mul (hessQ i 2), (ofDec h).mul (hessQ i 3), (ofDec h).mul (hessQ i 4), (ofDec h).mul (hessQ i 5)]
noncomputable def rowAB2Q (a b : ℕ → Q) (ca cb ha hb : Dec) (i : ℕ) : List Q := rowSpinQ a ca ha i ++ rowSpinQ b cb hb i

noncomputable def rowNR (i : ℕ) : List ℝ := [densAt i, gradAt realNumpy i 0, gradAt realNumpy i 1, gradAt realNumpy i 2]
noncomputable def rowN2R (i : ℕ) : List ℝ :=
  [densAt i, gradAt realNumpy i 0, gradAt realNumpy i 1, gradAt realNumpy i 2, hessAt realNumpy i 0, hessAt realNumpy i 1, hessAt realNumpy i 2,
    hessAt realNumpy i 3, hessAt realNumpy i 4, hessAt realNumpy i 5]
noncomputable def rowABR (a b : ℕ → ℝ) (ca cb : Dec) (i : ℕ) : List ℝ :=
  [a i, b i, lit ca.1 ca.2 * gradAt realNumpy i 0, lit ca.1 ca.2 * gradAt realNumpy i 1, lit ca.1 ca.2 * gradAt realNumpy i 2,
    lit cb.1 cb.2 * gradAt realNumpy i 0, lit cb.1 cb.2 * gradAt realNumpy i 1, lit cb.1 cb.2 * gradAt realNumpy i 2]
noncomputable def rowSpinR (a : ℕ → ℝ) (c h : Dec) (i : ℕ) : List ℝ :=
  [a i, lit c.1 c.2 * gradAt realNumpy i 0, lit c.1 c.2 * gradAt realNumpy i 1, lit c.1 c.2 * gradAt realNumpy i 2, lit h.1 h.2 * hessAt realNumpy i 0,
    lit h.1 h.2 * hessAt realNumpy i 1, lit h.1 h.2 * hessAt realNumpy i 2, lit h.1 h.2 * hessAt realNumpy i 3, lit h.1 h.2 * hessAt realNumpy i 4,
    lit h.1 h.2 * hessAt realNumpy i 5]
noncomputable def rowAB2R (a b : ℕ → ℝ) (ca cb ha hb : Dec) (i : ℕ) : List ℝ := rowSpinR a ca ha i ++ rowSpinR b cb hb i

theorem near_rowN (i : ℕ) : List.Forall₂ Near (rowNQ i) (rowNR i) :=
  .cons (near_densQ i) (.cons (near_gradQ i 0) (.cons (near_gradQ i 1) (.cons (near_gradQ i 2) .nil)))

theorem near_rowN2 (i : ℕ) : List.Forall₂ Near (rowN2Q i) (rowN2R i) :=
  .cons (near_densQ i) (.cons (near_gradQ i 0) (.cons (near_gradQ i 1) (.cons (near_gradQ i 2) (.cons (near_hessQ i 0) (.cons (near_hessQ i 1)
    (.cons (near_hessQ i 2) (.cons (near_hessQ i 3) (.cons (near_hessQ i 4) (.cons (near_hessQ i 5) .nil)))))))))

section
variable {a b : ℕ → Q} {x y : ℕ → ℝ} {i : ℕ}

theorem near_rowAB (ha : Near (a i) (x i)) (hb : Near (b i) (y i)) (ca cb : Dec) : List.Forall₂ Near (rowABQ a b ca cb i) (rowABR x y ca cb i) :=
  .cons ha (.cons hb (.cons (Q.near_mul (near_ofDec _) (near_gradQ i 0)) (.cons (Q.near_mul (near_ofDec _) (near_gradQ i 1))
    (.cons (Q.near_mul (near_ofDec _) (near_gradQ i 2)) (.cons (Q.near_mul (near_ofDec _) (near_gradQ i 0))
      (.cons (Q.near_mul (near_ofDec _) (near_gradQ i 1)) (.cons (Q.near_mul (near_ofDec _) (near_gradQ i 2)) .nil)))))))

theorem near_rowSpin (ha : Near (a i) (x i)) (c h : Dec) : List.Forall₂ Near (rowSpinQ a c h i) (rowSpinR x c h i) :=
  .cons ha (.cons (Q.near_mul (near_ofDec _) (near_gradQ i 0)) (.cons (Q.near_mul (near_ofDec _) (near_gradQ i 1))
    (.cons (Q.near_mul (near_ofDec _) (near_gradQ i 2)) (.cons (Q.near_mul (near_ofDec _) (near_hessQ i 0))
      (.cons (Q.near_mul (near_ofDec _) (near_hessQ i 1)) (.cons (Q.near_mul (near_ofDec _) (near_hessQ i 2))
        (.cons (Q.near_mul (near_ofDec _) (near_hessQ i 3)) (.cons (Q.near_mul (near_ofDec _) (near_hessQ i 4))
          (.cons (Q.near_mul (near_ofDec _) (near_hessQ i 5)) .nil)))))))))

theorem near_rowAB2 (ha : Near (a i) (x i)) (hb : Near (b i) (y i)) (ca cb h h' : Dec) :
    List.Forall₂ Near (rowAB2Q a b ca cb h h' i) (rowAB2R x y ca cb h h' i) := List.rel_append (near_rowSpin ha ca h) (near_rowSpin hb cb h')

end

/-! Densities of the spins. -/

noncomputable def halfQ (i : ℕ) : Q := (ofDec (5, 1)).mul (densQ i)
noncomputable def openAQ (i : ℕ) : Q := (halfQ i).add (spinQ i)
noncomputable def openBQ (i : ℕ) : Q := (halfQ i).sub (spinQ i)
noncomputable def open2AQ (i : ℕ) : Q := (densQ i).add (spinQ i)
noncomputable def open2BQ (i : ℕ) : Q := (densQ i).sub (spinQ i)

noncomputable def halfR (i : ℕ) : ℝ := lit 5 1 * densAt i
noncomputable def openAR (i : ℕ) : ℝ := lit 5 1 * densAt i + spinAt realNumpy i
noncomputable def openBR (i : ℕ) : ℝ := lit 5 1 * densAt i - spinAt realNumpy i
noncomputable def open2AR (i : ℕ) : ℝ := densAt i + spinAt realNumpy i
noncomputable def open2BR (i : ℕ) : ℝ := densAt i - spinAt realNumpy i

theorem near_half (i : ℕ) : Near (halfQ i) (halfR i) := Q.near_mul (near_ofDec _) (near_densQ i)
theorem near_openA (i : ℕ) : Near (openAQ i) (openAR i) := Q.near_add (near_half i) (near_spinQ i)
theorem near_openB (i : ℕ) : Near (openBQ i) (openBR i) := Q.near_sub (near_half i) (near_spinQ i)
theorem near_open2A (i : ℕ) : Near (open2AQ i) (open2AR i) := Q.near_add (near_densQ i) (near_spinQ i)
theorem near_open2B (i : ℕ) : Near (open2BQ i) (open2BR i) := Q.near_sub (near_densQ i) (near_spinQ i)

end XCFun
