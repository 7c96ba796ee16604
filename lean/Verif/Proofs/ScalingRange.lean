/-
Uniform scaling of the range-separated exchange functionals, and of BTK up to its constant 1e-24.
-/
import Verif.Proofs.ScalingEval

namespace XCFun
open Spec Expr

namespace Fun

/-- The range-separation parameter replaced by `c n^(1/3)`, which scales like an inverse length. -/
noncomputable def muVar (c : ℝ) (f : Field) : Expr Field :=
  if f = .param RANGESEP_MU then c * pow d.n (1 / 3) else .var f

theorem deg_mu (c : ℝ) : Deg (c * pow d.n (1 / 3)) 1 := by deg

theorem deg_sr {m : Expr Field} (hm : Deg m 1) : Deg (becke_sr m d.a d.gaa + becke_sr m d.b d.gbb) 4 := by
  unfold becke_sr
  repeat' (first | exact hm | deg_step)

theorem deg_cam {m : Expr Field} (hm : Deg m 1) (p q : ℕ) :
    Deg (becke_cam (getParam p) (getParam q) m d.a d.gaa + becke_cam (getParam p) (getParam q) m d.b d.gbb) 4 := by
  unfold becke_cam
  repeat' (first | exact hm | deg_step)

theorem deg_erfx_spin {m : Expr Field} (hm : Deg m 1) {f : Field} (hf : f = .a ∨ f = .b) : Deg (esrx_ldaerfspin (.var f) m) 4 := by
  unfold esrx_ldaerfspin
  dsimp only
  rcases hf with rfl | rfl <;>
  · refine Deg.iflt (k := 0) (m := 4) ?_ (Deg.lit _ rfl) ?_
      (Deg.iflt (k := 0) (m := 4) ?_ (Deg.lit _ rfl) ?_ (Deg.iflt (k := 0) (m := 4) ?_ (Deg.lit _ rfl) ?_ Deg.zero)) <;>
    · repeat' (first | exact hm | deg_step)

theorem deg_erfx {m : Expr Field} (hm : Deg m 1) : Deg (0.5 * (esrx_ldaerfspin d.a m + esrx_ldaerfspin d.b m)) 4 := by
  have h : Deg (esrx_ldaerfspin d.a m + esrx_ldaerfspin d.b m) 4 := (deg_erfx_spin hm (.inl rfl)).add (deg_erfx_spin hm (.inr rfl))
  refine ⟨fun hg hρ => ?_⟩
  rw [evalR_mul, evalR_mul, h.eq hg hρ, show (0.5 : Expr Field) = .lit 0.5 from rfl, evalR_lit, evalR_lit]
  ring

theorem scaleMu_eq {e : Expr Field} {k : ℝ} (h : ∀ c, Deg (e.subst (muVar c)) k) {g : ℝ} (hg : 0 < g) {ρ : Field → ℝ} (hρ : Pos ρ) :
    e.evalR (scaleMu g ρ) = g ^ k * e.evalR ρ := by
  set c := ρ (.param RANGESEP_MU) / ρ .n ^ (1 / 3 : ℝ) with hc
  have hn : 0 < ρ .n ^ (1 / 3 : ℝ) := Real.rpow_pos_of_pos hρ.n _
  have e0 : (fun f => (muVar c f).evalR ρ) = ρ := by
    funext f
    unfold muVar
    split
    · next hf =>
      subst hf
      rw [evalR_mul, evalR_pow, evalR_lit]
      show c * ρ .n ^ (1 / 3 : ℝ) = _
      rw [hc]; field_simp
    · rfl
  have e1 : (fun f => (muVar c f).evalR (scaleField g ρ)) = scaleMu g ρ := by
    funext f
    unfold muVar scaleMu
    split
    · next hf =>
      have := (deg_mu c).eq hg hρ
      rw [this, Real.rpow_one, hf]
      have := congrFun e0 (.param RANGESEP_MU)
      simp only [muVar, if_true] at this
      rw [this]
    · rfl
  have := (h c).eq hg hρ
  rwa [evalR_subst', evalR_subst', e0, e1] at this

theorem beckesrx_scaleMu (c : ℝ) : Deg (beckesrx.subst (muVar c)) 4 := deg_sr (deg_mu c)
theorem beckecamx_scaleMu (c : ℝ) : Deg (beckecamx.subst (muVar c)) 4 := deg_cam (deg_mu c) CAM_ALPHA CAM_BETA
theorem lda_erfx_scaleMu (c : ℝ) : Deg (lda_erfx.subst (muVar c)) 4 := deg_erfx (deg_mu c)

/-- Exchange functionals without range separation do not read the parameter. -/
theorem exchange_scaleMu {id : ℕ} (hid : id ∈ exchangeIds) {e : Expr Field} (he : Fun.energy id = some e) (c : ℝ) :
    e.subst (muVar c) = e := by
  simp only [exchangeIds, List.mem_cons, List.not_mem_nil, or_false] at hid
  rcases hid with rfl | rfl | rfl | rfl | rfl | rfl | rfl | rfl | rfl | rfl | rfl | rfl | rfl | rfl | rfl | rfl | rfl | rfl |
    rfl | rfl | rfl | rfl | rfl | rfl | rfl <;> cases he <;> rfl

/-! ### BTK -/

/-- One spin channel of BTK: density `N`, squared gradient `G`, with the constant `f`. -/
noncomputable def btkR (f N G : ℝ) : ℝ :=
  1.990328 * N ^ (5 / 3 : ℝ) * (f + G) ^ (0.5 * 0.3434125 : ℝ) / N ^ (4 / 3 * 0.3434125 : ℝ)

theorem btk_evalR (ρ : Field → ℝ) :
    btk.evalR ρ = 0.5 * (btkR 1e-24 (2 * ρ .a) (4 * ρ .gaa) + btkR 1e-24 (2 * ρ .b) (4 * ρ .gbb)) := by
  simp only [btk, btk_alpha, btkR, evalR_mul, evalR_add, evalR_div, evalR_pow, evalR_lit]
  rfl

theorem btkR_scale {g f N G : ℝ} (hg : 0 < g) (hf : 0 ≤ f) (hN : 0 < N) (hG : 0 ≤ G) :
    btkR f (g ^ 3 * N) (g ^ 8 * G) = g ^ 5 * btkR (f / g ^ 8) N G := by
  have e3 : g ^ 3 = g ^ (3 : ℝ) := by norm_cast
  have e8 : g ^ 8 = g ^ (8 : ℝ) := by norm_cast
  have e5 : g ^ 5 = g ^ (5 : ℝ) := by norm_cast
  have h8 : 0 < g ^ 8 := by positivity
  have h : f + g ^ 8 * G = g ^ 8 * (f / g ^ 8 + G) := by field_simp
  unfold btkR
  rw [h, Real.mul_rpow h8.le (by positivity), Real.mul_rpow (by positivity) hN.le, Real.mul_rpow (by positivity) hN.le, e3, e8, e5,
    ← Real.rpow_mul hg.le, ← Real.rpow_mul hg.le, ← Real.rpow_mul hg.le]
  have e : g ^ (8 * (0.5 * 0.3434125) : ℝ) = g ^ (3 * (4 / 3 * 0.3434125) : ℝ) := by norm_num
  have e' : g ^ (3 * (5 / 3) : ℝ) = g ^ (5 : ℝ) := by norm_num
  have hp : 0 < g ^ (3 * (4 / 3 * 0.3434125) : ℝ) := Real.rpow_pos_of_pos hg _
  rw [e, e']
  field_simp

theorem btkR_pos {f N G : ℝ} (hf : 0 < f) (hN : 0 < N) (hG : 0 ≤ G) : 0 < btkR f N G := by
  unfold btkR
  positivity

theorem btkR_mono {f f' N G : ℝ} (hf : 0 ≤ f) (h : f ≤ f') (hN : 0 < N) (hG : 0 ≤ G) : btkR f N G ≤ btkR f' N G := by
  unfold btkR
  gcongr

/-- With a smaller constant the value decreases at most in proportion to the quotient of the bases. -/
theorem btkR_lower {f f' N G t : ℝ} (h : f ≤ f') (hf' : 0 < f') (hN : 0 < N) (hG : 0 ≤ G)
    (ht0 : 0 ≤ t) (ht : t * (f' + G) ≤ f + G) : t * btkR f' N G ≤ btkR f N G := by
  have hb : 0 < f' + G := by linarith
  have ht1 : t ≤ 1 := by
    by_contra hc
    have := mul_lt_mul_of_pos_right (lt_of_not_ge hc) hb
    linarith
  have k : t * (f' + G) ^ (0.5 * 0.3434125 : ℝ) ≤ (f + G) ^ (0.5 * 0.3434125 : ℝ) := by
    calc t * (f' + G) ^ (0.5 * 0.3434125 : ℝ) ≤ t ^ (0.5 * 0.3434125 : ℝ) * (f' + G) ^ (0.5 * 0.3434125 : ℝ) := by
          gcongr
          exact Real.self_le_rpow_of_le_one ht0 ht1 (by norm_num)
      _ = (t * (f' + G)) ^ (0.5 * 0.3434125 : ℝ) := (Real.mul_rpow ht0 hb.le).symm
      _ ≤ _ := Real.rpow_le_rpow (by positivity) ht (by norm_num)
  unfold btkR
  have p1 : 0 < N ^ (5 / 3 : ℝ) := by positivity
  have p2 : 0 < N ^ (4 / 3 * 0.3434125 : ℝ) := by positivity
  rw [← mul_div_assoc]
  gcongr ?_ / _
  nlinarith [mul_le_mul_of_nonneg_left k p1.le]

/-- At zero gradient BTK does not scale with the fifth power. -/
theorem btk_not_scale : ∃ (g : ℝ) (ρ : Field → ℝ), 0 < g ∧ Pos ρ ∧ btk.evalR (scaleField g ρ) ≠ g ^ 5 * btk.evalR ρ := by
  refine ⟨2, fun f => match f with | .gaa | .gbb => 0 | _ => 1, by norm_num, ⟨by norm_num, by norm_num, by norm_num⟩, ?_⟩
  rw [btk_evalR, btk_evalR]
  have e1 : btkR 1e-24 (2 * 2 ^ (3 : ℤ)) 0 = 2 ^ 5 * btkR (1e-24 / 2 ^ 8) 2 0 := by
    rw [← btkR_scale (by norm_num) (by norm_num) (by norm_num) le_rfl]
    norm_num
  have hlt : btkR (1e-24 / 2 ^ 8) 2 0 < btkR 1e-24 2 0 := by
    unfold btkR
    have : ((1e-24 / 2 ^ 8 + 0 : ℝ)) ^ (0.5 * 0.3434125 : ℝ) < (1e-24 + 0 : ℝ) ^ (0.5 * 0.3434125 : ℝ) :=
      Real.rpow_lt_rpow (by norm_num) (by norm_num) (by norm_num)
    gcongr
  simp only [scaleField, fieldDeg, mul_one, mul_zero, e1]
  intro h
  nlinarith

end Fun

/-- The density variables other than the parameters do not depend on the settings. -/
theorem memberR_par (par par' : ℕ → ℝ) {v : Vars} (hv : ¬ Unsupported v) (x : ℕ → ℝ) :
    ∃ m : Field → ℝ, memberR par v x = (fun f => match f with | .param i => par i | f => m f) ∧
      memberR par' v x = (fun f => match f with | .param i => par' i | f => m f) := by
  have key : ∃ y : DV ℕ, ∀ par, densvars par v = some (y.finish.field par) := by
    cases v <;> first
      | exact ⟨_, fun _ => rfl⟩
      | exact absurd (by decide) hv
  obtain ⟨y, hy⟩ := key
  refine ⟨fun f => (y.finish.field par f).evalR x, ?_, ?_⟩ <;>
  · funext f
    rw [memberR_evalR (hy _)]
    cases f <;> rfl

/-- Range-separated exchange scales if the parameter is scaled like an inverse length. -/
theorem energyAt_scaleMu (s : State ℝ) {v : Vars} (hv : ¬ Unsupported v) (hA : v ≠ .A ∧ v ≠ .A_GAA) {g : ℝ} (hg : 0 < g)
    {x : ℕ → ℝ} (h : ∀ y ∈ densities (1 / 2) x v, threshold ≤ y)
    (h' : ∀ y ∈ densities (1 / 2) (scaleInputs v g x) v, threshold ≤ y) (hact : Fun.RANGESEP_MU ∉ s.active)
    (hk : ∀ id ∈ s.active, ∀ e, Fun.energy id = some e → ∀ c, Fun.Deg (e.subst (Fun.muVar c)) 4) :
    energyAt (scaleObject g s) v (scaleInputs v g x) = g ^ 4 * energyAt s v x := by
  have hm : memberR (scaleObject g s).settings v (scaleInputs v g x) = scaleMu g (memberR s.settings v x) := by
    obtain ⟨m, e1, e2⟩ := memberR_par s.settings (scaleObject g s).settings hv (scaleInputs v g x)
    have hs := memberR_scale s.settings hv hA hg h h'
    rw [e1] at hs
    rw [e2]
    funext f
    have hp := (memberR_derived s.settings hv x).2.2.2.2.2
    unfold scaleMu
    cases f with
    | param i =>
      dsimp only
      by_cases hi : i = Fun.RANGESEP_MU
      · subst hi
        rw [if_pos rfl, hp]
        simp [scaleObject]
      · rw [if_neg (by intro hc; cases hc; exact hi rfl)]
        have := congrFun hs (.param i)
        dsimp only at this
        rw [← this]
        exact Function.update_of_ne (f := s.settings) hi _
    | _ =>
      rw [if_neg (by intro hc; cases hc)]
      rw [← hs]
  rw [energyAt_members _ hv, energyAt_members s hv, ← List.sum_map_mul_left]
  refine congrArg List.sum (List.map_congr_left fun id hid => ?_)
  have hset : (scaleObject g s).settings id = s.settings id :=
    Function.update_of_ne (f := s.settings) (fun hc : id = Fun.RANGESEP_MU => hact (hc ▸ hid)) _
  rw [hset, hm]
  cases he : Fun.energy id with
  | none =>
    show _ * (0 : ℝ) = _ * (_ * (0 : ℝ))
    simp
  | some e =>
    rw [Option.getD_some, Fun.scaleMu_eq (hk id hid e he) hg (memberR_pos s.settings hv hA h)]
    norm_cast
    ring

end XCFun
