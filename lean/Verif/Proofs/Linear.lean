/-
Every output of `xcfun_eval` is a linear functional of the weighted sum of the active functionals.
-/
import Verif.Props.Accepted

namespace XCFun
open Spec Props

/-- A formal energy: a function on expansions with any number of perturbations. -/
abbrev Formal := (N : ℕ) → (ℕ → CT ℝ N) → CT ℝ N

/-- Compatible with weighted sums. -/
def IsLinear (φ : Formal → ℝ) : Prop := ∀ (c₁ c₂ : ℝ) (T₁ T₂ : Formal),
  φ (fun N ρ => CT.const N c₁ * T₁ N ρ + CT.const N c₂ * T₂ N ρ) = c₁ * φ T₁ + c₂ * φ T₂

/-- One coefficient of one run. -/
def readCoef (N : ℕ) (ρ : ℕ → CT ℝ N) (c : ℕ) (T : Formal) : ℝ := (T N ρ).get c

theorem readCoef_linear (N : ℕ) (ρ : ℕ → CT ℝ N) (c : ℕ) : IsLinear (readCoef N ρ c) := by
  intro c₁ c₂ T₁ T₂
  simp only [readCoef, CT.get_add, CT.get_const_mul]

theorem IsLinear.sub3 {φ ψ₁ ψ₂ ψ₃ : Formal → ℝ} (h : IsLinear φ) (h₁ : IsLinear ψ₁) (h₂ : IsLinear ψ₂)
    (h₃ : IsLinear ψ₃) : IsLinear (fun T => φ T - (ψ₁ T + ψ₂ T + ψ₃ T)) := by
  intro c₁ c₂ T₁ T₂
  have e := h c₁ c₂ T₁ T₂
  have e₁ := h₁ c₁ c₂ T₁ T₂
  have e₂ := h₂ c₁ c₂ T₁ T₂
  have e₃ := h₃ c₁ c₂ T₁ T₂
  linear_combination e - e₁ - e₂ - e₃

/-- The formal energy of an object. -/
noncomputable def formal (s : State ℝ) (v : Vars) : Formal := fun _ ρ => energyOn s v ρ

theorem total_formal (s : State ℝ) (v : Vars) {N : ℕ} (ρ : ℕ → CT ℝ N) :
    total codeKernel s v 0 ρ = formal s v N ρ := (total_eq s v ρ).trans (sumExpr_evalCT s v ρ)

/-- What each output element of an evaluation reads off the formal energy: configuration `v`, `m`, order `k`,
dependencies `dep`; `x` are the inputs, `j2` the contents of the work array of the potential. -/
noncomputable def readouts (v : Vars) (m : ℤ) (k dep : ℕ) (j2 : ℕ → CT ℝ 2) (x : ℕ → ℝ) : List (Formal → ℝ) :=
  if m = PARTIAL_DERIVATIVES then
    layout v.len k (readCoef 0 (fun i => CT.const 0 (x i)) 0)
      (fun i => readCoef 1 (seed1 x (some i)) 1) (fun i j => readCoef 2 (seed2 x (some i) (some j)) 3)
      (fun i j l => readCoef 3 (seed3 x (some i) (some j) (some l)) 7)
  else if m = CONTRACTED then (List.range (2 ^ k)).map fun c => readCoef k (seedC k x) c
  else if dep &&& GRADIENT ≠ 0 then
    if v = .A_B_2ND_TAYLOR then
      let r := fun (q : ℕ) (d : ℕ × ℕ × ℕ × ℕ) (g : ℕ) => readCoef 2 (seedAB x j2 d (g + 10 * q)) 3
      [readCoef 1 (seed1 x (some 10)) 0,
        fun T => readCoef 1 (seed1 x (some 0)) 1 T - (r 0 dirX 1 T + r 0 dirY 2 T + r 0 dirZ 3 T),
        fun T => readCoef 1 (seed1 x (some 10)) 1 T - (r 1 dirX 1 T + r 1 dirY 2 T + r 1 dirZ 3 T)]
    else
      let r := fun (d : ℕ × ℕ × ℕ × ℕ) (g : ℕ) => readCoef 2 (seedN x d g) 3
      [readCoef 1 (seed1 x (some 0)) 0,
        fun T => readCoef 1 (seed1 x (some 0)) 1 T - (r dirX 1 T + r dirY 2 T + r dirZ 3 T)]
  else
    let npot := (potentialShape v.len).1
    let inpos := (potentialShape v.len).2
    readCoef 1 (seed1 x (some ((npot - 1) * inpos))) 0 ::
      (List.range npot).map fun i => readCoef 1 (seed1 x (some (i * inpos))) 1

theorem readout_core (v : Vars) (m o : ℤ) (hord : OrderOk m o) (hcan : ¬ CannotEvaluate v m o) (dep : ℕ)
    (hH : m = POTENTIAL → dep &&& GRADIENT ≠ 0 → HessianVars v) (j : (N : ℕ) → ℕ → CT ℝ N) (input : List ℝ)
    (hin : needIn v m o ≤ input.length) :
    ∃ φs : List (Formal → ℝ), φs = readouts v m o.toNat dep (j 2) (fun i => input.getD i 0) ∧
      (∀ φ ∈ φs, IsLinear φ) ∧ φs.length ≤ needOut v m o ∧
      ∀ s : State ℝ, s.vars = some v → s.mode = m → s.order = o → s.depends = dep →
        ∀ output, needOut v m o ≤ output.length →
          xcfunEval codeKernel (some j) s input output =
            .ok (φs.map (· (formal s v)) ++ output.drop φs.length) := by
  have hl := len_le v
  have hp := len_pos v
  obtain ⟨k, rfl⟩ : ∃ k : ℕ, o = k := ⟨o.toNat, by have := hord.1; omega⟩
  have hu : ¬ Unsupported v := fun h => hcan (Or.inl h)
  have hsup : DV.reads v ≠ none := by rw [ne_eq, ← unsupported_iff]; exact hu
  have hin' : v.len ≤ input.length := by
    unfold needIn at hin
    split at hin
    · exact (Nat.le_mul_of_pos_right _ (by positivity)).trans hin
    · exact hin
  have hget : ∀ n ≤ input.length, ∀ i < n, input[i]? = some (input.getD i 0) := fun n hn i hi => by
    simp [List.getD, List.getElem?_eq_getElem (show i < input.length by omega)]
  have hx := hget v.len hin'
  set x : ℕ → ℝ := fun i => input.getD i 0 with hxdef
  have hR : Ready codeKernel v input x := ⟨codeKernel_local, Option.ne_none_iff_exists'.mp hsup, hl, hx⟩
  by_cases hP : m = PARTIAL_DERIVATIVES
  · have hk3 : k ≤ 3 := by
      have := hord.2.2 hP
      have : k ≠ 4 := fun h => hcan (Or.inr (Or.inl ⟨hP, by rw [h]; rfl⟩))
      omega
    let φs : List (Formal → ℝ) := layout v.len k (readCoef 0 (fun i => CT.const 0 (x i)) 0)
      (fun i => readCoef 1 (seed1 x (some i)) 1) (fun i j => readCoef 2 (seed2 x (some i) (some j)) 3)
      (fun i j l => readCoef 3 (seed3 x (some i) (some j) (some l)) 7)
    have hlen : φs.length = needOut v m k := by
      simp only [needOut, hP, if_true, Int.toNat_natCast]
      rw [numMonomials_layout v hk3 (0 : ℝ) (fun _ => 0) (fun _ _ => 0) (fun _ _ _ => 0)]
      simp only [φs, layout, List.length_append, List.length_singleton]
      congr 1
      · congr 1
        · split <;> simp
        · split <;> simp
      · split <;> simp
    refine ⟨φs, by rw [readouts, if_pos hP, Int.toNat_natCast], ?_, hlen.le, ?_⟩
    · intro φ hφ
      simp only [φs, layout, List.mem_append, List.mem_singleton] at hφ
      rcases hφ with ((rfl | hφ) | hφ) | hφ
      · exact readCoef_linear _ _ _
      all_goals
        split at hφ
        · obtain ⟨i, -, rfl⟩ := List.mem_map.1 hφ
          exact readCoef_linear _ _ _
        · simp at hφ
    · intro s hv hm ho hd output hout
      have hφ : φs.map (· (formal s v)) = layout v.len k (energyR s v x) (D1 s v x) (D2 s v x) (D3 s v x) := by
        have e0 : readCoef 0 (fun i => CT.const 0 (x i)) 0 (formal s v) = energyR s v x := by
          rw [readCoef, formal, ← sumExpr_evalCT, run0]; rfl
        have e1 : ∀ i, readCoef 1 (seed1 x (some i)) 1 (formal s v) = D1 s v x i := fun i => by
          rw [readCoef, formal, ← sumExpr_evalCT]; rfl
        have e2 : ∀ i j, readCoef 2 (seed2 x (some i) (some j)) 3 (formal s v) = D2 s v x i j := fun i j => by
          rw [readCoef, formal, ← sumExpr_evalCT]; rfl
        have e3 : ∀ i j l, readCoef 3 (seed3 x (some i) (some j) (some l)) 7 (formal s v) = D3 s v x i j l :=
          fun i j l => by rw [readCoef, formal, ← sumExpr_evalCT]; rfl
        simp only [φs, layout, List.map_append, List.map_cons, List.map_nil, e0]
        congr 1
        · congr 1
          · split
            · simp [e1]
            · rfl
          · split
            · simp [e2]
            · rfl
        · split
          · simp [e3]
          · rfl
      have hlen' : (layout v.len k (energyR s v x) (D1 s v x) (D2 s v x) (D3 s v x)).length = needOut v m k := by
        rw [← hφ, List.length_map, hlen]
      rw [xcfunEval_partial hv (hm.trans hP) (by omega),
        evalPartial_layout (some j) hsup hx ho hk3 (by rw [hlen']; exact hout), splice_zero, hφ, hlen', hlen]
  by_cases hC : m = CONTRACTED
  · have hk6 : k ≤ 6 := by have := hord.2.1; omega
    have hy := hget (v.len * 2 ^ k) (by simpa [needIn, hC] using hin)
    have ho : needOut v m k = 2 ^ k := by
      have : ¬ (CONTRACTED = PARTIAL_DERIVATIVES) := by decide
      simp [needOut, hC, this]
    refine ⟨(List.range (2 ^ k)).map fun c => readCoef k (seedC k x) c,
      by rw [readouts, if_neg hP, if_pos hC, Int.toNat_natCast], ?_, by simp [ho], ?_⟩
    · intro φ hφ
      obtain ⟨i, -, rfl⟩ := List.mem_map.1 hφ
      exact readCoef_linear _ _ _
    · intro s hv hm ho' hd output hout
      obtain ⟨sl, hsl⟩ := Option.ne_none_iff_exists'.mp hsup
      rw [xcfunEval_contracted hv (hm.trans hC) ho' hk6,
        evalContractedN_ok codeKernel_local hsl hl hy (some j) s (by omega), splice_zero, total_formal]
      simp only [List.map_map, Function.comp_def, readCoef, List.length_map, List.length_range]
      rfl
  by_cases hV : m = POTENTIAL
  · have ho : needOut v m k = 3 := by
      simp [needOut, hV, show ¬ (POTENTIAL = PARTIAL_DERIVATIVES) by decide,
        show ¬ (POTENTIAL = CONTRACTED) by decide]
    have hnp : (potentialShape v.len).1 ≤ 2 := by unfold potentialShape; split <;> simp
    have hnp1 := npot_pos v.len
    have hlda := fun (s : State ℝ) (output : List ℝ) (hout : needOut v m k ≤ output.length) =>
      evalPotentialLda_ok hR hp (some j) s (output := output) (by omega)
    by_cases hg : dep &&& GRADIENT ≠ 0
    · rcases hH hV hg with rfl | rfl | rfl | rfl
      · exact absurd (by decide) hu
      · let r := fun (q : ℕ) (d : ℕ × ℕ × ℕ × ℕ) (g : ℕ) => readCoef 2 (seedAB x (j 2) d (g + 10 * q)) 3
        refine ⟨[readCoef 1 (seed1 x (some 10)) 0,
          fun T => readCoef 1 (seed1 x (some 0)) 1 T - (r 0 dirX 1 T + r 0 dirY 2 T + r 0 dirZ 3 T),
          fun T => readCoef 1 (seed1 x (some 10)) 1 T - (r 1 dirX 1 T + r 1 dirY 2 T + r 1 dirZ 3 T)],
          by rw [readouts, if_neg hP, if_neg hC, if_pos hg, if_pos rfl], ?_, by simp [ho], ?_⟩
        · intro φ hφ
          simp only [List.mem_cons, List.not_mem_nil, or_false] at hφ
          rcases hφ with rfl | rfl | rfl
          · exact readCoef_linear _ _ _
          · exact (readCoef_linear _ _ _).sub3 (readCoef_linear _ _ _) (readCoef_linear _ _ _) (readCoef_linear _ _ _)
          · exact (readCoef_linear _ _ _).sub3 (readCoef_linear _ _ _) (readCoef_linear _ _ _) (readCoef_linear _ _ _)
        · intro s hv hm ho' hd output hout
          have hne : ¬ (Vars.A_B_2ND_TAYLOR = .A_2ND_TAYLOR ∨ Vars.A_B_2ND_TAYLOR = .N_2ND_TAYLOR) := by simp
          have hres : resPot codeKernel s .A_B_2ND_TAYLOR x =
              [readCoef 1 (seed1 x (some 10)) 0 (formal s .A_B_2ND_TAYLOR),
                readCoef 1 (seed1 x (some 0)) 1 (formal s .A_B_2ND_TAYLOR),
                readCoef 1 (seed1 x (some 10)) 1 (formal s .A_B_2ND_TAYLOR)] := by
            simp only [resPot, total_formal]
            rfl
          have hgg : ∀ q, (ggaAB codeKernel s .A_B_2ND_TAYLOR x (j 2) q).get 3 =
              r q dirX 1 (formal s .A_B_2ND_TAYLOR) + r q dirY 2 (formal s .A_B_2ND_TAYLOR) +
                r q dirZ 3 (formal s .A_B_2ND_TAYLOR) := by
            intro q
            rw [ggaAB, total_add, total_add s _ (total codeKernel s _ 0 _)]
            simp only [CT.get_add, total_formal, r, readCoef]
          rw [xcfunEval_potential hv (hm.trans hV), evalPotential, hlda s _ hout, Outcome.ok_bind,
            if_pos (by rw [hd]; exact hg), if_neg hne, splice_zero, hres]
          rw [evalPotentialGgaAB_ok (e1 := readCoef 1 (seed1 x (some 0)) 1 (formal s .A_B_2ND_TAYLOR))
            (e2 := readCoef 1 (seed1 x (some 10)) 1 (formal s .A_B_2ND_TAYLOR)) hR (by decide) j s rfl rfl, hgg, hgg]
          rfl
      · let r := fun (d : ℕ × ℕ × ℕ × ℕ) (g : ℕ) => readCoef 2 (seedN x d g) 3
        refine ⟨[readCoef 1 (seed1 x (some 0)) 0,
          fun T => readCoef 1 (seed1 x (some 0)) 1 T - (r dirX 1 T + r dirY 2 T + r dirZ 3 T)],
          by rw [readouts, if_neg hP, if_neg hC, if_pos hg, if_neg (by decide)], ?_, by simp [ho], ?_⟩
        · intro φ hφ
          simp only [List.mem_cons, List.not_mem_nil, or_false] at hφ
          rcases hφ with rfl | rfl
          · exact readCoef_linear _ _ _
          · exact (readCoef_linear _ _ _).sub3 (readCoef_linear _ _ _) (readCoef_linear _ _ _) (readCoef_linear _ _ _)
        · intro s hv hm ho' hd output hout
          have heq : Vars.N_2ND_TAYLOR = .A_2ND_TAYLOR ∨ Vars.N_2ND_TAYLOR = .N_2ND_TAYLOR := by simp
          have hres : resPot codeKernel s .N_2ND_TAYLOR x =
              [readCoef 1 (seed1 x (some 0)) 0 (formal s .N_2ND_TAYLOR),
                readCoef 1 (seed1 x (some 0)) 1 (formal s .N_2ND_TAYLOR)] := by
            simp only [resPot, total_formal]
            rfl
          have hgg : (ggaN codeKernel s .N_2ND_TAYLOR x).get 3 =
              r dirX 1 (formal s .N_2ND_TAYLOR) + r dirY 2 (formal s .N_2ND_TAYLOR) +
                r dirZ 3 (formal s .N_2ND_TAYLOR) := by
            rw [ggaN, total_add, total_add s _ (total codeKernel s _ 0 _)]
            simp only [CT.get_add, total_formal, r, readCoef]
          rw [xcfunEval_potential hv (hm.trans hV), evalPotential, hlda s _ hout, Outcome.ok_bind,
            if_pos (by rw [hd]; exact hg), if_pos heq, splice_zero, hres]
          rw [evalPotentialGgaN_ok (e1 := readCoef 1 (seed1 x (some 0)) 1 (formal s .N_2ND_TAYLOR)) hR (by decide)
            (some j) s rfl, hgg]
          rfl
      · exact absurd (by decide) hu
    · let npot := (potentialShape v.len).1
      let inpos := (potentialShape v.len).2
      refine ⟨readCoef 1 (seed1 x (some ((npot - 1) * inpos))) 0 ::
        (List.range npot).map fun i => readCoef 1 (seed1 x (some (i * inpos))) 1,
        by rw [readouts, if_neg hP, if_neg hC, if_neg hg], ?_, ?_, ?_⟩
      · intro φ hφ
        rcases List.mem_cons.1 hφ with rfl | hφ
        · exact readCoef_linear _ _ _
        · obtain ⟨i, -, rfl⟩ := List.mem_map.1 hφ
          exact readCoef_linear _ _ _
      · rw [ho, List.length_cons, List.length_map, List.length_range]
        omega
      · intro s hv hm ho' hd output hout
        rw [xcfunEval_potential hv (hm.trans hV), evalPotential, hlda s _ hout, Outcome.ok_bind,
          if_neg (by rw [hd]; exact hg), splice_zero]
        simp [resPot, total_formal, readCoef, Function.comp_def, npot, inpos]
  · exact absurd (Or.inr (Or.inr ⟨hP, hV, hC⟩)) hcan

/-! ### Settings and the formal energy -/

/-- Functionals read only the parameters of an object, never the weights. -/
theorem fullExpr_settings {par par' : ℕ → ℝ} (h : ∀ p, 78 ≤ p → par p = par' p) (v : Vars) (id : ℕ) {N : ℕ}
    (ρ : ℕ → CT ℝ N) : (fullExpr par v id).evalCT ρ = (fullExpr par' v id).evalCT ρ := by
  rw [← codeFp_eq, ← codeFp_eq]
  unfold codeFp densvars
  cases DV.select v with
  | none => rfl
  | some w =>
    cases he : Fun.energy id with
    | none => rfl
    | some e =>
      dsimp only [Option.map_some]
      have h0 : checkAll (fun _ f => match f with
        | .param q => decide (78 ≤ q)
        | _ => true) 0 Fun.energies = [] := by decide +kernel
      have hu := checkAll_spec (p := fun _ f => match f with
        | .param q => decide (78 ≤ q)
        | _ => true) (i := 0) (k := id) he (by rw [h0]; simp)
      refine Expr.evalCT_congr (fun f hf => ?_) e hu
      cases f <;> try rfl
      rename_i q
      have hq : 78 ≤ q := by simpa using hf
      simp only [DV.field, h q hq]

/-- Evaluation sees an object only through its configuration and its formal energy. -/
theorem xcfunEval_formal {s t : State ℝ} (hv : s.vars = t.vars) (hm : s.mode = t.mode) (ho : s.order = t.order)
    (hd : s.mode ≠ POTENTIAL ∨ s.depends = t.depends) (hf : ∀ v, formal s v = formal t v) (junk : Junk ℝ)
    (input output : List ℝ) :
    xcfunEval codeKernel junk s input output = xcfunEval codeKernel junk t input output := by
  have h : ∀ v (N : ℕ) (m : Slots ℝ N) out, accumulate codeKernel s v m out = accumulate codeKernel t v m out := by
    intro v N m out
    unfold accumulate
    cases codeKernel.reads v with
    | none => rfl
    | some sl =>
      dsimp only
      have e : ∀ u : State ℝ, (u.active.foldl (fun out id =>
          out + CT.smul (u.settings id) (codeKernel.fp v u.settings id N fun i => (m i).vals)) out) =
          total codeKernel u v out fun i => (m i).vals := fun u => rfl
      rw [e s, e t, total_add s, total_add t, total_formal, total_formal, hf]
  have b1 : ∀ v, order1Body codeKernel s v = order1Body codeKernel t v := by
    intro v; funext; simp only [order1Body, h]
  have b2 : ∀ v, order2Body codeKernel s v = order2Body codeKernel t v := by
    intro v; funext; simp only [order2Body, h]
  have b3 : ∀ v, order3Body codeKernel s v = order3Body codeKernel t v := by
    intro v; funext; simp only [order3Body, h]
  have b4 : ∀ v, ggaSpinBody codeKernel s v = ggaSpinBody codeKernel t v := by
    intro v; funext; simp only [ggaSpinBody, h]
  have p1 : ∀ v, evalPartial codeKernel junk s v input output = evalPartial codeKernel junk t v input output := by
    intro v
    simp only [evalPartial, evalOrder0, evalOrder1, order1Last, evalOrder2, evalOrder3, h, b1, b2, b3, ho]
  have p2 : ∀ v, evalContracted codeKernel junk s v input output = evalContracted codeKernel junk t v input output := by
    intro v
    have : ∀ N, evalContractedN codeKernel junk s v input output N = evalContractedN codeKernel junk t v input output N := by
      intro N
      simp only [evalContractedN, h]
    simp only [evalContracted, this, ho]
  have p3 : s.depends = t.depends → ∀ v,
      evalPotential codeKernel junk s v input output = evalPotential codeKernel junk t v input output := by
    intro hd v
    simp only [evalPotential, evalPotentialLda, evalPotentialGgaN, evalPotentialGgaAB, h, b4, hd]
  unfold xcfunEval
  rw [hv, hm, ho]
  cases t.vars with
  | none => rfl
  | some v =>
    simp only [p1, p2]
    rcases hd with hd | hd
    · have hd' : t.mode ≠ POTENTIAL := hm ▸ hd
      simp only [if_neg hd']
    · simp only [p3 hd]

end XCFun
