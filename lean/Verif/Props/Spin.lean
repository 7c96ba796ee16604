/-
C36: exchanging alpha and beta.
-/
import Verif.Proofs.SpinEval

namespace XCFun.Props
open XCFun Spec

/-- **C36, functionals.** Each of the 78 functionals gives the same result, on expansions of every order and for all
values of the density variables and parameters, when alpha and beta quantities are exchanged (`flipField`). -/
theorem C36_functional {id : ℕ} {e : Expr Field} (h : Fun.energy id = some e) {N : ℕ} (g : Field → CT ℝ N) :
    e.evalCT (flipField g) = e.evalCT g := Fun.energy_flip h g

example (g : Field → CT ℝ 2) : Fun.pw92c.evalCT (flipField g) = Fun.pw92c.evalCT g := C36_functional (id := 28) rfl g

/-- **C36, energy.** For every object, every variable set with density variables (`A` and `A_GAA` have only one spin) and
expansions of every order, the energy does not change when the inputs of the two spins are exchanged. -/
theorem C36_energy (s : State ℝ) {v : Vars} (hv : ¬ Unsupported v) (hA : v ≠ .A ∧ v ≠ .A_GAA) {N : ℕ} (ρ : ℕ → CT ℝ N) :
    energyOn s v (flipInputs v ρ) = energyOn s v ρ := energyOn_flip s hv hA ρ

example (s : State ℝ) : energyOn s .A_B_GAA_GAB_GBB (fun i => CT.const 0 ([2, 1, 5, 4, 3].getD i (0 : ℝ))) =
    energyOn s .A_B_GAA_GAB_GBB (fun i => CT.const 0 ([1, 2, 3, 4, 5].getD i 0)) := by
  rw [← C36_energy s (v := .A_B_GAA_GAB_GBB) (by decide) (by decide)]
  congr 1
  funext i
  match i with
  | 0 | 1 | 2 | 3 | 4 => rfl
  | i + 5 =>
    have : flipIndex .A_B_GAA_GAB_GBB (i + 5) = i + 5 := by simp [flipIndex, spinPairs]
    simp only [flipInputs, this, flipsSign]
    rfl

/-- **C36, contracted mode.** All orders: the output does not change when the (perturbed) inputs are exchanged. -/
theorem C36_contracted (s : State ℝ) {v : Vars} (hv : ¬ Unsupported v) (hA : v ≠ .A ∧ v ≠ .A_GAA) {N : ℕ} (hN : N ≤ 6)
    (ρ : ℕ → CT ℝ N) (junk : Junk ℝ) {output : List ℝ} (ho : 2 ^ N ≤ output.length) :
    xcfunEval codeKernel junk (contractedAt s v N) (packed v N (flipInputs v ρ)) output =
      xcfunEval codeKernel junk (contractedAt s v N) (packed v N ρ) output :=
  contracted_same s hv hv hN (C36_energy s hv hA ρ) junk ho

/-- Order 1: the densities `1 + 3 t` and `2 + 5 t` exchanged. -/
example (s : State ℝ) :
    packed .A_B 1 (fun i => CT.node (.leaf ([1, 2].getD i 0)) (.leaf ([3, 5].getD i 0))) = [1, 3, 2, 5] ∧
    packed .A_B 1 (flipInputs .A_B fun i => CT.node (.leaf ([1, 2].getD i 0)) (.leaf ([3, 5].getD i 0))) =
      [2, 5, 1, 3] ∧
    xcfunEval codeKernel none (contractedAt s .A_B 1) [2, 5, 1, 3] [0, 0] =
      xcfunEval codeKernel none (contractedAt s .A_B 1) [1, 3, 2, 5] [0, 0] := by
  have e1 : packed .A_B 1 (fun i => CT.node (.leaf ([1, 2].getD i (0 : ℝ))) (.leaf ([3, 5].getD i 0))) = [1, 3, 2, 5] := by
    rfl
  have e2 : packed .A_B 1 (flipInputs .A_B fun i => CT.node (.leaf ([1, 2].getD i (0 : ℝ))) (.leaf ([3, 5].getD i 0))) =
      [2, 5, 1, 3] := by
    rfl
  refine ⟨e1, e2, ?_⟩
  rw [← e1, ← e2]
  exact C36_contracted s (by decide) (by decide) (by decide) _ none (by decide)

/-- **C36, derivatives.** Partial-derivative mode, orders 0 to 3: let `P` be the output at `x` and `Q` the output with the
spins exchanged.  The energies agree, and the derivative of `Q` with respect to inputs `i, j, k` is the derivative of `P`
with respect to their mirror images, with a minus sign for each spin difference among them. -/
theorem C36_derivatives (s : State ℝ) {v : Vars} (hv : ¬ Unsupported v) (hA : v ≠ .A ∧ v ≠ .A_GAA)
    (hvs : s.vars = some v) (hm : s.mode = PARTIAL_DERIVATIVES) (k : ℕ) (ho : s.order = k) (hk : k ≤ 3) (x : ℕ → ℝ)
    (junk : Junk ℝ) (output : List ℝ) (hlen : outputLength s = .ok (output.length : ℤ)) :
    ∃ P Q : List ℝ,
      xcfunEval codeKernel junk s ((List.range v.len).map x) output = .ok P ∧
      xcfunEval codeKernel junk s ((List.range v.len).map (flipInputs v x)) output = .ok Q ∧
      P.length = output.length ∧ Q.length = output.length ∧ Q[0]? = P[0]? ∧
      (1 ≤ k → ∀ i < v.len, Q[1 + i]? = P[1 + flipIndex v i]?.map (flipSign v i * ·)) ∧
      (2 ≤ k → ∀ i < v.len, ∀ j < v.len, Q[pos2s v.len i j]? =
        P[pos2s v.len (flipIndex v i) (flipIndex v j)]?.map (flipSign v i * flipSign v j * ·)) ∧
      (3 ≤ k → ∀ i < v.len, ∀ j < v.len, ∀ l < v.len, Q[pos3s v.len i j l]? =
        P[pos3s v.len (flipIndex v i) (flipIndex v j) (flipIndex v l)]?.map
          (flipSign v i * flipSign v j * flipSign v l * ·)) := by
  have hsup : DV.reads v ≠ none := by rw [ne_eq, ← unsupported_iff]; exact hv
  have hP : ∀ y : ℕ → ℝ, xcfunEval codeKernel junk s ((List.range v.len).map y) output =
      .ok (layout v.len k (energyR s v y) (D1 s v y) (D2 s v y) (D3 s v y)) ∧
      (layout v.len k (energyR s v y) (D1 s v y) (D2 s v y) (D3 s v y)).length = output.length := by
    intro y
    have := C15_order_of_derivatives s v hvs hm k ho hk hsup y [] output junk _ hlen (le_refl _)
    rw [List.append_nil, List.drop_length, List.append_nil] at this
    simp only [← sumExpr_evalCT, ← energyR_eq] at this
    refine ⟨this, ?_⟩
    have hL : outputLength s = taylorlen v.len k := by
      have h1 : ¬ (PARTIAL_DERIVATIVES = MODE_UNSET) := by decide
      have h2 : ¬ ((k : ℤ) = -1) := by omega
      simp only [outputLength, hm, h1, hvs, ho, h2, if_false, if_true]
    have hl := outlen_eq v hk (energyR s v y) (D1 s v y) (D2 s v y) (D3 s v y)
    have := Outcome.ok.inj ((hL.symm.trans hlen).symm.trans hl)
    exact_mod_cast this.symm
  obtain ⟨p0, p1, -, -⟩ := C15_positions v.len k (energyR s v x) (D1 s v x) (D2 s v x) (D3 s v x)
  obtain ⟨q0, q1, -, -⟩ := C15_positions v.len k (energyR s v (flipInputs v x)) (D1 s v (flipInputs v x))
    (D2 s v (flipInputs v x)) (D3 s v (flipInputs v x))
  obtain ⟨p2, p3⟩ := layout_sym (n := v.len) (order := k) (e := energyR s v x) (d1 := D1 s v x)
    (D2_symm s v x) (D3_swap12 s v x) (D3_swap23 s v x)
  obtain ⟨q2, q3⟩ := layout_sym (n := v.len) (order := k) (e := energyR s v (flipInputs v x))
    (d1 := D1 s v (flipInputs v x))
    (D2_symm s v (flipInputs v x)) (D3_swap12 s v (flipInputs v x)) (D3_swap23 s v (flipInputs v x))
  have fl := flip_all s hv hA x
  refine ⟨_, _, (hP x).1, (hP (flipInputs v x)).1, (hP x).2, (hP _).2, ?_, ?_, ?_, ?_⟩
  · rw [p0, q0, energyR_flip s hv hA x]
  · intro h i hi
    rw [q1 h i hi, p1 h _ (flipIndex_lt hi), (fl i i i).1]; rfl
  · intro h i hi j hj
    rw [q2 h i hi j hj, p2 h _ (flipIndex_lt hi) _ (flipIndex_lt hj), (fl i j i).2.1]; rfl
  · intro h i hi j hj l hl
    rw [q3 h i hi j hj l hl, p3 h _ (flipIndex_lt hi) _ (flipIndex_lt hj) _ (flipIndex_lt hl), (fl i j l).2.2]; rfl

/-- PBE exchange, order 1: the two potentials change places. -/
example : ∃ s₀ s : State ℝ, run State.init [.set "pbex" 1] = .ok s₀ ∧
    evalSetup s₀ Vars.A_B_GAA_GAB_GBB.code PARTIAL_DERIVATIVES 1 = .ok (0, s) ∧ ∃ P Q : List ℝ,
    xcfunEval codeKernel none s [1, 2, 3, 4, 5] [0, 0, 0, 0, 0, 0] = .ok P ∧
    xcfunEval codeKernel none s [2, 1, 5, 4, 3] [0, 0, 0, 0, 0, 0] = .ok Q ∧
    Q[1]? = P[2]? ∧ Q[3]? = P[5]? ∧ Q[4]? = P[4]? := by
  obtain ⟨s₀, s, hr, hset⟩ : ∃ s₀ s : State ℝ, run State.init [.set "pbex" 1] = .ok s₀ ∧
    evalSetup s₀ Vars.A_B_GAA_GAB_GBB.code PARTIAL_DERIVATIVES 1 = .ok (0, s) := ⟨_, _, rfl, rfl⟩
  refine ⟨s₀, s, hr, hset, ?_⟩
  obtain ⟨e, -⟩ := setup_facts hr hset
  obtain ⟨P, Q, h1, h2, -, -, -, h3, -⟩ := C36_derivatives s (v := .A_B_GAA_GAB_GBB)
    (by decide) (by decide) (by rw [e]) (by rw [e]) 1 (by rw [e]; rfl) (by decide) (fun i => (i : ℝ) + 1) none
    [0, 0, 0, 0, 0, 0] (by rw [e]; rfl)
  have e1 : (List.range (Vars.len .A_B_GAA_GAB_GBB)).map (fun i : ℕ => (i : ℝ) + 1) = [1, 2, 3, 4, 5] := by
    show [((0 : ℕ) : ℝ) + 1, ((1 : ℕ) : ℝ) + 1, ((2 : ℕ) : ℝ) + 1, ((3 : ℕ) : ℝ) + 1, ((4 : ℕ) : ℝ) + 1] = _
    norm_num
  have e2 : (List.range (Vars.len .A_B_GAA_GAB_GBB)).map (flipInputs .A_B_GAA_GAB_GBB fun i : ℕ => (i : ℝ) + 1) =
      [2, 1, 5, 4, 3] := by
    show [((1 : ℕ) : ℝ) + 1, ((0 : ℕ) : ℝ) + 1, ((4 : ℕ) : ℝ) + 1, ((3 : ℕ) : ℝ) + 1, ((2 : ℕ) : ℝ) + 1] = _
    norm_num
  have m1 : (fun x : ℝ => flipSign .A_B_GAA_GAB_GBB 0 * x) = id := by funext x; exact one_mul x
  have m2 : (fun x : ℝ => flipSign .A_B_GAA_GAB_GBB 2 * x) = id := by funext x; exact one_mul x
  have m3 : (fun x : ℝ => flipSign .A_B_GAA_GAB_GBB 3 * x) = id := by funext x; exact one_mul x
  have a1 := h3 (by decide) 0 (by decide)
  have a2 := h3 (by decide) 2 (by decide)
  have a3 := h3 (by decide) 3 (by decide)
  rw [e1] at h1
  rw [e2] at h2
  rw [m1, Option.map_id] at a1
  rw [m2, Option.map_id] at a2
  rw [m3, Option.map_id] at a3
  exact ⟨P, Q, h1, h2, a1, a2, a3⟩

/-- **C36, potentials.** For the spin-resolved variable sets of the potential: exchanging the inputs exchanges the two
potentials and leaves the energy. -/
theorem C36_potential (h : List (Call ℝ)) (s₀ s : State ℝ) (hr : run State.init h = .ok s₀) {v : Vars}
    (hv : v = .A_B ∨ v = .A_B_2ND_TAYLOR) (o : ℤ) (hset : evalSetup s₀ v.code POTENTIAL o = .ok (0, s))
    (j : (N : ℕ) → ℕ → CT ℝ N) (x : ℕ → ℝ) (output : List ℝ) (ho : output.length = 3) :
    ∃ e va vb : ℝ,
      xcfunEval codeKernel (some j) s ((List.range v.len).map x) output = .ok [e, va, vb] ∧
      xcfunEval codeKernel (some j) s ((List.range v.len).map (flipInputs v x)) output = .ok [e, vb, va] := by
  obtain ⟨e, hwf, hord, hsuf, hpot⟩ := setup_facts hr hset
  have hcan : ¬ CannotEvaluate v POTENTIAL o := by
    rintro (hc | ⟨hc, -⟩ | ⟨-, hc, -⟩)
    · rcases hv with rfl | rfl <;> revert hc <;> decide
    · exact absurd hc (by decide)
    · exact hc rfl
  have hH : POTENTIAL = POTENTIAL → s.depends &&& GRADIENT ≠ 0 → HessianVars v := fun hV hg =>
    (hpot hV).2.2 ((needs_iff hwf 1).2 ((and_gradient _).1 hg))
  have hin : ∀ y : ℕ → ℝ, needIn v POTENTIAL o ≤ ((List.range v.len).map y).length := by
    intro y; rw [needIn, if_neg (by decide)]; simp
  have hout : needOut v POTENTIAL o ≤ output.length := by rw [ho]; exact le_refl 3
  have hj : ∀ y : ℕ → ℝ, xcfunEval codeKernel (some j) s ((List.range v.len).map y) output =
      xcfunEval codeKernel (some fun N _ => CT.const N 0) s ((List.range v.len).map y) output := fun y =>
    C46_contents_irrelevant h s₀ s hr v POTENTIAL o hset _ _ _ _ (hin y) hout
  have hget : ∀ y : ℕ → ℝ, ∀ l < v.len, ((List.range v.len).map y).getD l 0 = y l := by
    intro y l hl
    simp [List.getD, hl]
  obtain ⟨φs, hφ, -, -, hev⟩ := readout_core v POTENTIAL o hord hcan s.depends hH (fun N _ => CT.const N 0) _ (hin x)
  obtain ⟨ψs, hψ, -, -, hev'⟩ := readout_core v POTENTIAL o hord hcan s.depends hH (fun N _ => CT.const N 0) _
    (hin (flipInputs v x))
  obtain ⟨en, va, vb, h1, h2⟩ := readouts_potential_flip s hv o.toNat (fun hab => by
      by_contra hc; have := hH rfl hc; rw [hab] at this; revert this; unfold HessianVars; decide)
    (fun i => ((List.range v.len).map x).getD i 0) (fun i => ((List.range v.len).map (flipInputs v x)).getD i 0)
    (fun l hl => by
      show ((List.range v.len).map (flipInputs v x)).getD l 0 = _
      rw [hget _ l hl, flipInputs, flipInputs]
      show _ = if _ then -(((List.range v.len).map x).getD _ 0) else ((List.range v.len).map x).getD _ 0
      rw [hget _ _ (flipIndex_lt hl)])
  rw [← hφ] at h1
  rw [← hψ] at h2
  refine ⟨en, va, vb, ?_, ?_⟩
  · have hl : φs.length = 3 := by simpa using congrArg List.length h1
    rw [hj, hev s (by rw [e]) (by rw [e]) (by rw [e]) rfl output hout, h1, hl, List.drop_eq_nil_of_le (by omega),
      List.append_nil]
  · have hl : ψs.length = 3 := by simpa using congrArg List.length h2
    rw [hj, hev' s (by rw [e]) (by rw [e]) (by rw [e]) rfl output hout, h2, hl, List.drop_eq_nil_of_le (by omega),
      List.append_nil]

/-- VWN correlation. -/
example (j : (N : ℕ) → ℕ → CT ℝ N) : ∃ s₀ s : State ℝ, run State.init [.set "vwn5c" 1] = .ok s₀ ∧
    evalSetup s₀ Vars.A_B.code POTENTIAL 0 = .ok (0, s) ∧ ∃ e va vb : ℝ,
    xcfunEval codeKernel (some j) s [1, 3] [0, 0, 0] = .ok [e, va, vb] ∧
    xcfunEval codeKernel (some j) s [3, 1] [0, 0, 0] = .ok [e, vb, va] := by
  refine ⟨_, _, rfl, rfl, ?_⟩
  have := C36_potential [.set "vwn5c" 1] _ _ rfl (v := .A_B) (Or.inl rfl) 0 rfl j (fun i => if i = 0 then 1 else 3)
    [0, 0, 0] rfl
  exact this

end XCFun.Props
