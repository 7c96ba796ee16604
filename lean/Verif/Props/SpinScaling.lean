/-
C61: the spin scaling relation of exchange and kinetic energies.
-/
import Verif.Proofs.SpinScaling
import Verif.Props.Scaling

namespace XCFun.Props
open XCFun Spec

/-- **C61, functionals.** Let `g` be the density variables of a system, `ga` (`gb`) those of a system in which both spins
have the alpha (beta) quantities of `g`.  Each of the 38 functionals in `spinScaled`, on expansions of every order, is the
mean of its values at `ga` and `gb`. -/
theorem C61_functional {id : ℕ} (h : id ∈ spinScaled) {e : Expr Field} (he : Fun.energy id = some e) {N : ℕ}
    (g ga gb : Field → CT ℝ N)
    (hp : ∀ p ∈ spinFieldPairs, ga p.1 = g p.1 ∧ ga p.2 = g p.1 ∧ gb p.1 = g p.2 ∧ gb p.2 = g p.2)
    (hpar : ∀ i, ga (.param i) = g (.param i) ∧ gb (.param i) = g (.param i)) :
    e.evalCT g + e.evalCT g = e.evalCT ga + e.evalCT gb :=
  (Fun.sep_all id h e he).eq ⟨hp, hpar⟩

/-- The functionals are the exchange functionals and three of the five kinetic energy functionals. -/
example : spinScaled.map (fun i => ((funs.map (·.name)).getD i "")) =
    ["SLATERX", "PW86X", "PBEX", "BECKEX", "BECKECORRX", "BECKESRX", "BECKECAMX", "BRX",
     "LDAERFX", "OPTX", "OPTXCORR", "REVPBEX", "RPBEX", "KTX", "PW91X", "PW91K", "M05X",
     "M05X2X", "M06X", "M06X2X", "M06LX", "M06HFX", "TPSSX", "REVTPSSX", "SCANX", "RSCANX",
     "RPPSCANX", "R2SCANX", "R4SCANX", "BTK", "VWK", "B97X", "B97_1X", "B97_2X", "APBEX",
     "BLOCX", "PBEINTX", "PBESOLX"] := by decide


/-- **C61, energies.** For every object all of whose active functionals are in `spinScaled` (any weights and parameters) and
every spin-resolved set of variables, the energy returned is the mean of the energies returned for the two unpolarised
systems. -/
theorem C61_energy (s : State ℝ) {v : Vars} (hv : ¬ Unsupported v) (hr : SpinResolved v)
    (hs : ∀ id ∈ s.active, id ∈ spinScaled) (hvs : s.vars = some v) (hm : s.mode = PARTIAL_DERIVATIVES) (ho : s.order = 0)
    (x : ℕ → ℝ) (junk : Junk ℝ) (out : ℝ) :
    ∃ E Ea Eb : ℝ, xcfunEval codeKernel junk s ((List.range v.len).map x) [out] = .ok [E] ∧
      xcfunEval codeKernel junk s ((List.range v.len).map (bothSpins true v x)) [out] = .ok [Ea] ∧
      xcfunEval codeKernel junk s ((List.range v.len).map (bothSpins false v x)) [out] = .ok [Eb] ∧
      E = (Ea + Eb) / 2 := by
  refine ⟨_, _, _, eval_order0 s hv hvs hm ho x junk out, eval_order0 s hv hvs hm ho _ junk out,
    eval_order0 s hv hvs hm ho _ junk out, ?_⟩
  have h := energyOn_both s hv hr hs (fun i => CT.const 0 (x i))
  have e : ∀ up, bothSpins up v (fun i => CT.const 0 (x i)) = fun i => CT.const 0 (bothSpins up v x i) := by
    intro up
    funext i
    unfold bothSpins
    split
    · rfl
    · split <;> rfl
  simp only [e, ← sumExpr_evalCT, run0, energyR_eq] at h
  have h' : energyAt s v x + energyAt s v x = energyAt s v (bothSpins true v x) + energyAt s v (bothSpins false v x) :=
    CT.leaf.inj h
  linarith

/-- **C61, contracted mode.** The same for every entry of the output, orders up to 6: along a perturbation of the inputs,
each derivative is the mean of those of the two unpolarised systems perturbed accordingly. -/
theorem C61_contracted (s : State ℝ) {v : Vars} (hv : ¬ Unsupported v) (hr : SpinResolved v)
    (hs : ∀ id ∈ s.active, id ∈ spinScaled) {N : ℕ} (hN : N ≤ 6) (ρ : ℕ → CT ℝ N) (junk : Junk ℝ) {output : List ℝ}
    (ho : output.length = 2 ^ N) :
    ∃ P Pa Pb : ℕ → ℝ,
      xcfunEval codeKernel junk (contractedAt s v N) (packed v N ρ) output = .ok ((List.range (2 ^ N)).map P) ∧
      xcfunEval codeKernel junk (contractedAt s v N) (packed v N (bothSpins true v ρ)) output =
        .ok ((List.range (2 ^ N)).map Pa) ∧
      xcfunEval codeKernel junk (contractedAt s v N) (packed v N (bothSpins false v ρ)) output =
        .ok ((List.range (2 ^ N)).map Pb) ∧
      ∀ c < 2 ^ N, P c = (Pa c + Pb c) / 2 := by
  have hd : output.drop (2 ^ N) = [] := List.drop_eq_nil_of_le ho.le
  refine ⟨(energyOn s v ρ).get, (energyOn s v (bothSpins true v ρ)).get, (energyOn s v (bothSpins false v ρ)).get,
    ?_, ?_, ?_, fun c _ => ?_⟩
  iterate 3 rw [contracted_eval s hv hN _ junk ho.ge, hd, List.append_nil]
  have h := congrArg (fun t => t.get c) (energyOn_both s hv hr hs ρ)
  simp only [CT.get_add] at h
  linarith

/-- **C61, no mixed derivatives.** In partial-derivative mode, orders up to 3, every entry of the output that is a derivative
with respect to at least one alpha and one beta input is 0, and so is every derivative with respect to `gab` (input 3 of the
sets that have it). -/
theorem C61_no_mixed (s : State ℝ) {v : Vars} (hv : ¬ Unsupported v) (hr : SpinResolved v)
    (hs : ∀ id ∈ s.active, id ∈ spinScaled) (hvs : s.vars = some v) (hm : s.mode = PARTIAL_DERIVATIVES) (k : ℕ)
    (ho : s.order = k) (hk : k ≤ 3) (x : ℕ → ℝ) (junk : Junk ℝ) (output : List ℝ)
    (hlen : outputLength s = .ok (output.length : ℤ)) :
    ∃ P : List ℝ, xcfunEval codeKernel junk s ((List.range v.len).map x) output = .ok P ∧
      (∀ i < v.len, ∀ j < v.len, IsAlpha v i → IsBeta v j →
        (2 ≤ k → P[pos2s v.len i j]? = some 0) ∧
        (3 ≤ k → ∀ l < v.len, P[pos3s v.len i j l]? = some 0)) ∧
      (¬ IsAlpha v 3 ∧ ¬ IsBeta v 3 → 3 < v.len →
        (1 ≤ k → P[1 + 3]? = some 0) ∧ (2 ≤ k → ∀ j < v.len, P[pos2s v.len 3 j]? = some 0) ∧
        (3 ≤ k → ∀ j < v.len, ∀ l < v.len, P[pos3s v.len 3 j l]? = some 0)) := by
  have hsup : DV.reads v ≠ none := by rw [ne_eq, ← unsupported_iff]; exact hv
  have hP := C15_order_of_derivatives s v hvs hm k ho hk hsup x [] output junk _ hlen (le_refl _)
  rw [List.append_nil, List.drop_length, List.append_nil] at hP
  simp only [← sumExpr_evalCT, ← energyR_eq] at hP
  refine ⟨_, hP, ?_⟩
  obtain ⟨p0, p1, -, -⟩ := C15_positions v.len k (energyR s v x) (D1 s v x) (D2 s v x) (D3 s v x)
  obtain ⟨p2, p3⟩ := layout_sym (n := v.len) (order := k) (e := energyR s v x) (d1 := D1 s v x)
    (D2_symm s v x) (D3_swap12 s v x) (D3_swap23 s v x)
  refine ⟨fun i hi j hj ha hb => ⟨fun h2 => ?_, fun h3 l hl => ?_⟩, fun hg h3 => ⟨fun h1 => ?_, fun h2 j hj => ?_,
    fun h3' j hj l hl => ?_⟩⟩
  · rw [← mixed2 s hv hr hs x ha hb]
    exact p2 h2 i hi j hj
  · rw [← mixed3 s hv hr hs x l ha hb]
    exact p3 h3 i hi j hj l hl
  · rw [← (cross3 s hv hr hs x hg 0 0).1]
    exact p1 h1 3 h3
  · rw [← (cross3 s hv hr hs x hg j 0).2.1]
    exact p2 h2 3 h3 j hj
  · rw [← (cross3 s hv hr hs x hg j l).2.2]
    exact p3 h3' 3 h3 j hj l hl

/-- B3LYP's exchange part (Slater and Becke), second derivatives at densities (1, 2), gradient squares (3, 5), overlap 4. -/
example : ∃ s₀ s : State ℝ, run State.init [.set "slaterx" 0.8, .set "beckecorrx" 0.72] = .ok s₀ ∧
    evalSetup s₀ Vars.A_B_GAA_GAB_GBB.code PARTIAL_DERIVATIVES 2 = .ok (0, s) ∧ ∃ P : List ℝ,
    xcfunEval codeKernel none s [1, 2, 3, 4, 5] (List.replicate 21 0) = .ok P ∧
    P[pos2s 5 0 1]? = some 0 ∧ P[pos2s 5 2 4]? = some 0 ∧ P[4]? = some 0 ∧ pos2s 5 0 1 = 7 ∧ pos2s 5 2 4 = 17 := by
  obtain ⟨s₀, s, hr, hset⟩ : ∃ s₀ s : State ℝ, run State.init [.set "slaterx" 0.8, .set "beckecorrx" 0.72] = .ok s₀ ∧
    evalSetup s₀ Vars.A_B_GAA_GAB_GBB.code PARTIAL_DERIVATIVES 2 = .ok (0, s) := ⟨_, _, rfl, rfl⟩
  refine ⟨s₀, s, hr, hset, ?_⟩
  obtain ⟨e, -⟩ := setup_facts hr hset
  have hs : ∀ id ∈ s.active, id ∈ spinScaled := by
    have h0 : s₀.active = [0, 7] := by
      have := Outcome.ok.inj hr
      rw [← this]; rfl
    rw [e]
    show ∀ id ∈ s₀.active, id ∈ spinScaled
    rw [h0]
    decide
  obtain ⟨P, h, hm, hg⟩ := C61_no_mixed (v := .A_B_GAA_GAB_GBB) s (by decide) (by decide) hs (by rw [e]) (by rw [e]) 2
    (by rw [e]; rfl) (by decide) (fun i => (i : ℝ) + 1) none (List.replicate 21 0) (by rw [e]; rfl)
  refine ⟨P, ?_, (hm 0 (by decide) 1 (by decide) (by decide) (by decide)).1 (by decide),
    (hm 2 (by decide) 4 (by decide) (by decide) (by decide)).1 (by decide), (hg (by decide) (by decide)).1 (by decide),
    rfl, rfl⟩
  rw [← h]
  congr 1
  show _ = [((0 : ℕ) : ℝ) + 1, ((1 : ℕ) : ℝ) + 1, ((2 : ℕ) : ℝ) + 1, ((3 : ℕ) : ℝ) + 1, ((4 : ℕ) : ℝ) + 1]
  norm_num

/-- The three energies of `C61_energy` for PBE exchange with densities (1, 2), gradient squares (3, 5), overlap 4. -/
example : ∃ s₀ s : State ℝ, run State.init [.set "pbex" 1] = .ok s₀ ∧
    evalSetup s₀ Vars.A_B_GAA_GAB_GBB.code PARTIAL_DERIVATIVES 0 = .ok (0, s) ∧ ∃ E Ea Eb : ℝ,
    xcfunEval codeKernel none s [1, 2, 3, 4, 5] [0] = .ok [E] ∧
    xcfunEval codeKernel none s [1, 1, 3, 3, 3] [0] = .ok [Ea] ∧
    xcfunEval codeKernel none s [2, 2, 5, 5, 5] [0] = .ok [Eb] ∧ E = (Ea + Eb) / 2 := by
  refine ⟨_, _, rfl, rfl, ?_⟩
  exact C61_energy (v := .A_B_GAA_GAB_GBB) _ (by decide) (by decide)
    (show ∀ id ∈ [5], id ∈ spinScaled by decide) rfl rfl rfl (fun i => [1, 2, 3, 4, 5].getD i 0) none 0

/-- **C61 is false of TFK** (number 24): the Thomas-Fermi kinetic energy of the code depends on the total density only.
Densities 1/2 and 4. -/
theorem C61_tfk_negation (par : ℕ → ℝ) : let E := fun x => (fullExpr par .A_B 24).evalR x
    let x : ℕ → ℝ := fun i => [1 / 2, 4].getD i 0
    E x ≠ (E (bothSpins true .A_B x) + E (bothSpins false .A_B x)) / 2 := by
  intro E x
  have key : ∀ y : ℕ → ℝ, threshold ≤ y 0 → threshold ≤ y 1 → E y = Fun.CF * (y 0 + y 1) ^ (5 / 3 : ℝ) := by
    intro y h0 h1
    have e : fullExpr par .A_B 24 = Fun.tfk.subst ((DV.caseABAt 0 1 {}).finish.field par) := rfl
    show (fullExpr par .A_B 24).evalR y = _
    rw [e, Expr.evalR_subst']
    have hn : (if y 0 < 1e-14 then (1e-14 : ℝ) else y 0) + (if y 1 < 1e-14 then (1e-14 : ℝ) else y 1) = y 0 + y 1 := by
      unfold threshold at h0 h1
      rw [if_neg (by linarith), if_neg (by linarith)]
    show Fun.CF * ((if y 0 < 1e-14 then (1e-14 : ℝ) else y 0) + (if y 1 < 1e-14 then (1e-14 : ℝ) else y 1)) ^ (5 / 3 : ℝ) = _
    rw [hn]
  have t : threshold ≤ 1 / 2 ∧ threshold ≤ 4 := by unfold threshold; norm_num
  rw [key x t.1 t.2, key _ t.1 t.1, key _ t.2 t.2]
  show ¬ Fun.CF * ((1 / 2 : ℝ) + 4) ^ (5 / 3 : ℝ) =
    (Fun.CF * ((1 / 2 : ℝ) + 1 / 2) ^ (5 / 3 : ℝ) + Fun.CF * ((4 : ℝ) + 4) ^ (5 / 3 : ℝ)) / 2
  have hc : 0 < Fun.CF := by
    unfold Fun.CF Fun.PI2
    have := Real.pi_pos
    positivity
  have e1 : ((1 / 2 : ℝ) + 1 / 2) ^ (5 / 3 : ℝ) = 1 := by norm_num
  have e2 : ((4 : ℝ) + 4) ^ (5 / 3 : ℝ) = 32 := by
    rw [show (4 : ℝ) + 4 = 2 ^ (3 : ℝ) by norm_num, ← Real.rpow_mul (by norm_num)]
    norm_num
  have e3 : (((1 / 2 : ℝ) + 4) ^ (5 / 3 : ℝ)) ^ (3 : ℕ) = (9 / 2) ^ 5 := by
    rw [← Real.rpow_natCast, ← Real.rpow_mul (by norm_num)]
    norm_num
  intro h
  have h' : ((1 / 2 : ℝ) + 4) ^ (5 / 3 : ℝ) = 33 / 2 := by
    rw [e1, e2] at h
    refine mul_left_cancel₀ hc.ne' ?_
    rw [h]; ring
  rw [h'] at e3
  norm_num at e3

/-- **C61 is false of TW** (number 25).  Densities 1 and 1, gradient squares 1 and 0. -/
theorem C61_tw_negation (par : ℕ → ℝ) : let E := fun x => (fullExpr par .A_B_GAA_GAB_GBB 25).evalR x
    let x : ℕ → ℝ := fun i => [1, 1, 1, 0, 0].getD i 0
    E x ≠ (E (bothSpins true .A_B_GAA_GAB_GBB x) + E (bothSpins false .A_B_GAA_GAB_GBB x)) / 2 := by
  intro E x
  have key : ∀ y : ℕ → ℝ, y 0 = 1 → y 1 = 1 → E y = (y 2 + y 4) ^ (2 : ℝ) / 16 := by
    intro y h0 h1
    have e : fullExpr par .A_B_GAA_GAB_GBB 25 = Fun.tw.subst (((DV.caseABGrad {}).caseABAt 0 1).finish.field par) := rfl
    show (fullExpr par .A_B_GAA_GAB_GBB 25).evalR y = _
    rw [e, Expr.evalR_subst', Fun.tw, Expr.evalR_div]
    show (1 / 8 : ℝ) * (y 2 + y 4) ^ (2 : ℝ) /
      ((if y 0 < 1e-14 then (1e-14 : ℝ) else y 0) + (if y 1 < 1e-14 then (1e-14 : ℝ) else y 1)) = _
    rw [h0, h1]
    norm_num
    ring
  rw [key x rfl rfl, key _ rfl rfl, key _ rfl rfl]
  show ¬ ((1 : ℝ) + 0) ^ (2 : ℝ) / 16 = (((1 : ℝ) + 1) ^ (2 : ℝ) / 16 + ((0 : ℝ) + 0) ^ (2 : ℝ) / 16) / 2
  norm_num

end XCFun.Props
