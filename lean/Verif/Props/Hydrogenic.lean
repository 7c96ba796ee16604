/-
**C80.** Densities of one orbital per spin, in particular of hydrogen-like atoms: Becke-Roussel exchange is the exact exchange energy density, Becke
exchange has the exact limit far from the nucleus, the von Weizsaecker energy is the kinetic energy, and the correlation of electrons of equal spin vanishes
in BRC and in the M05 and M06 functionals.
-/
import Verif.Proofs.Hydrogenic
import Verif.Props.Literature

namespace XCFun.Props
open XCFun Spec Lit Filter Topology

/-! ## The densities -/

/-- **C80, the exact energy.** `density1s a` is a density of one electron, `potential1s a` is its electrostatic potential `V`: it solves Poisson's equation
`V'' + 2 V'/r = (r V)''/r = -4 π n`, it is that of a unit charge at large distance and has no point charge at the centre. The exchange energy of one electron,
which cancels its Coulomb repulsion with itself, is `-(1/2) ∫ n V`, and equals `-5 Z/16` for nuclear charge `Z = a/2`. -/
theorem C80_potential {a : ℝ} (ha : 0 < a) :
    ∫ r in Set.Ioi 0, 4 * Real.pi * r ^ 2 * density1s a r = 1 ∧
      (∀ r, 0 < r → deriv (deriv fun r => r * potential1s a r) r = -4 * Real.pi * (r * density1s a r)) ∧
      Tendsto (fun r => r * potential1s a r) (𝓝[>] 0) (𝓝 0) ∧ Tendsto (fun r => r * potential1s a r) atTop (𝓝 1) ∧
      ∫ r in Set.Ioi 0, 4 * Real.pi * r ^ 2 * (density1s a r * potential1s a r / 2) = 5 / 16 * (a / 2) := by
  refine ⟨Hyd.integral_density ha, fun r hr => Hyd.poisson ha hr, Hyd.potential_near a, Hyd.potential_far ha, ?_⟩
  rw [Hyd.integral_exchange ha]
  ring

/-- For every distance there are density variables as the theorems below assume them. -/
example {a : ℝ} (ha : 0 < a) (r : ℝ) : ∃ n g l τ, OneOrbital (density1s a) r n g l τ := ⟨_, _, _, _, Hyd.of_closed ha r⟩

/-! ## Becke-Roussel exchange and correlation -/

/-- **C80, the hole.** The published Becke-Roussel energies for a 1s electron: the exchange hole is that of the orbital, its potential is minus the potential of the
electron, and there is no correlation of electrons of equal spin. -/
theorem C80_hole {a r n g l τ : ℝ} (ha : 0 < a) (hr : 0 < r) (h : OneOrbital (density1s a) r n g l τ) :
    holeX n g l (2 * τ) 0 = a * r ∧ holeB n (holeX n g l (2 * τ) 0) = r ∧ holeU n g l (2 * τ) 0 = -potential1s a r ∧ holeD n g (2 * τ) 0 = 0 := by
  refine ⟨Hyd.holeX_1s ha hr h, ?_, Hyd.holeU_1s ha hr h, Hyd.holeD_zero ha h⟩
  rw [Hyd.holeX_1s ha hr h, h.density, Hyd.holeB_1s ha hr]

/-- The input of `xcfun_eval` for the densities of the two spins; there are no currents. -/
def brInput (na nb gaa gab gbb la lb ta tb : ℝ) (i : ℕ) : ℝ := [na, nb, gaa, gab, gbb, la, lb, ta, tb, 0, 0].getD i 0

theorem br_eval (s : State ℝ) (hvs : s.vars = some .A_B_GAA_GAB_GBB_LAPA_LAPB_TAUA_TAUB_JPAA_JPBB) (hm : s.mode = PARTIAL_DERIVATIVES) (ho : s.order = 0)
    {id : ℕ} (hid : id = 10 ∨ id = 11 ∨ id = 12) (hact : s.active = [id])
    {a b r q na nb gaa gab gbb la lb ta tb : ℝ} (ha : 0 < a) (hb : 0 < b) (hr : 0 < r) (hq : 0 < q)
    (hA : OneOrbital (density1s a) r na gaa la ta) (hB : OneOrbital (density1s b) q nb gbb lb tb)
    (hna : threshold ≤ na) (hnb : threshold ≤ nb) {X : ℝ} (hXa : a * r ≤ X) (hXb : b * q ≤ X) (junk : Junk ℝ) (out : ℝ) :
    ∃ E, xcfunEval codeKernel junk s [na, nb, gaa, gab, gbb, la, lb, ta, tb, 0, 0] [out] = .ok [E] ∧
      ∃ P : List ℝ, P = (match id with
        | 10 => [-(na * potential1s a r / 2), -(nb * potential1s b q / 2)]
        | 11 => [brOpposite na nb (potential1s a r) (potential1s b q), 0, 0]
        | _ => [-(na * potential1s a r / 2), -(nb * potential1s b q / 2), brOpposite na nb (potential1s a r) (potential1s b q), 0, 0]) ∧
      |E - s.settings id * P.sum| ≤ |s.settings id| * ((Real.exp (1e-13 * (1 + X)) - 1) * (P.map fun p => |p|).sum) := by
  obtain ⟨xa, -, ua, da⟩ := C80_hole ha hr hA
  obtain ⟨xb, -, ub, db⟩ := C80_hole hb hq hB
  have ht : (0 : ℝ) < threshold := by norm_num [threshold]
  obtain ⟨E, hE, hbound⟩ := C58_eval s (v := .A_B_GAA_GAB_GBB_LAPA_LAPB_TAUA_TAUB_JPAA_JPBB)
    (x := brInput na nb gaa gab gbb la lb ta tb) (X := X) (by decide) (by decide) hvs hm ho
    (by
      intro y hy
      simp only [densities, densSlots, List.map_cons, List.map_nil, List.mem_cons, List.not_mem_nil, or_false] at hy
      rcases hy with rfl | rfl
      · exact hna
      · exact hnb)
    (by rw [hact]; simpa using hid) rfl (show 0 < na by linarith) (show 0 < nb by linarith) (show holeX na gaa la (2 * ta) 0 ≤ X by rw [xa]; exact hXa)
    (show holeX nb gbb lb (2 * tb) 0 ≤ X by rw [xb]; exact hXb) junk out
  refine ⟨E, hE, brParts (given (1 / 2) (brInput na nb gaa gab gbb la lb ta tb) .A_B_GAA_GAB_GBB_LAPA_LAPB_TAUA_TAUB_JPAA_JPBB) id, ?_, ?_⟩
  · have hX : [brExchange na (holeU na gaa la (2 * ta) 0), brExchange nb (holeU nb gbb lb (2 * tb) 0)] =
        [-(na * potential1s a r / 2), -(nb * potential1s b q / 2)] := by
      rw [ua, ub, brExchange, brExchange]
      congr 2
      · ring
      · ring
    have hC : [brOpposite na nb (holeU na gaa la (2 * ta) 0) (holeU nb gbb lb (2 * tb) 0),
        brEqual na (holeD na gaa (2 * ta) 0) (holeU na gaa la (2 * ta) 0), brEqual nb (holeD nb gbb (2 * tb) 0) (holeU nb gbb lb (2 * tb) 0)] =
        [brOpposite na nb (potential1s a r) (potential1s b q), 0, 0] := by
      rw [ua, ub, da, db, brEqual, brEqual, brOpposite, brOpposite]
      simp
    rcases hid with rfl | rfl | rfl
    · exact hX
    · exact hC
    · show [_, _] ++ [_, _, _] = [_, _] ++ [_, _, _]
      exact congrArg₂ (· ++ ·) hX hC
  · rw [hact] at hbound
    simpa using hbound

/-- **C80, BRX.** When the electrons of each spin have the density of a 1s electron (of possibly different charges and nuclei), Becke-Roussel exchange as computed by
`xcfun_eval` is the exact exchange energy density `-(1/2) Σ n V`, with a relative error of at most `exp(1e-13 (1 + X)) - 1` where `X` bounds `a r`. -/
theorem C80_brx (s : State ℝ) (hvs : s.vars = some .A_B_GAA_GAB_GBB_LAPA_LAPB_TAUA_TAUB_JPAA_JPBB) (hm : s.mode = PARTIAL_DERIVATIVES) (ho : s.order = 0)
    (hact : s.active = [10]) (hw : s.settings 10 = 1)
    {a b r q na nb gaa gab gbb la lb ta tb : ℝ} (ha : 0 < a) (hb : 0 < b) (hr : 0 < r) (hq : 0 < q)
    (hA : OneOrbital (density1s a) r na gaa la ta) (hB : OneOrbital (density1s b) q nb gbb lb tb)
    (hna : threshold ≤ na) (hnb : threshold ≤ nb) {X : ℝ} (hXa : a * r ≤ X) (hXb : b * q ≤ X) (junk : Junk ℝ) (out : ℝ) :
    ∃ E, xcfunEval codeKernel junk s [na, nb, gaa, gab, gbb, la, lb, ta, tb, 0, 0] [out] = .ok [E] ∧
      |E - -(na * potential1s a r + nb * potential1s b q) / 2| ≤
        (Real.exp (1e-13 * (1 + X)) - 1) * ((na * potential1s a r + nb * potential1s b q) / 2) := by
  obtain ⟨E, hE, P, rfl, hP⟩ := br_eval s hvs hm ho (.inl rfl) hact ha hb hr hq hA hB hna hnb hXa hXb junk out (gab := gab)
  refine ⟨E, hE, ?_⟩
  have ht : (0 : ℝ) < threshold := by norm_num [threshold]
  have h1 : 0 < na * potential1s a r := mul_pos (by linarith) (Hyd.potential_pos ha hr)
  have h2 : 0 < nb * potential1s b q := mul_pos (by linarith) (Hyd.potential_pos hb hq)
  rw [hw] at hP
  simp only [List.map_cons, List.map_nil, List.sum_cons, List.sum_nil, add_zero, abs_neg, abs_of_pos (half_pos h1), abs_of_pos (half_pos h2), abs_one,
    one_mul] at hP
  rw [show -(na * potential1s a r + nb * potential1s b q) / 2 = -(na * potential1s a r / 2) + -(nb * potential1s b q / 2) by ring, add_div]
  exact hP

/-- **C80, BRC.** In the same situation the correlation energy is that of electrons of opposite spin alone. -/
theorem C80_brc (s : State ℝ) (hvs : s.vars = some .A_B_GAA_GAB_GBB_LAPA_LAPB_TAUA_TAUB_JPAA_JPBB) (hm : s.mode = PARTIAL_DERIVATIVES) (ho : s.order = 0)
    (hact : s.active = [11]) (hw : s.settings 11 = 1)
    {a b r q na nb gaa gab gbb la lb ta tb : ℝ} (ha : 0 < a) (hb : 0 < b) (hr : 0 < r) (hq : 0 < q)
    (hA : OneOrbital (density1s a) r na gaa la ta) (hB : OneOrbital (density1s b) q nb gbb lb tb)
    (hna : threshold ≤ na) (hnb : threshold ≤ nb) {X : ℝ} (hXa : a * r ≤ X) (hXb : b * q ≤ X) (junk : Junk ℝ) (out : ℝ) :
    ∃ E, xcfunEval codeKernel junk s [na, nb, gaa, gab, gbb, la, lb, ta, tb, 0, 0] [out] = .ok [E] ∧
      |E - brOpposite na nb (potential1s a r) (potential1s b q)| ≤
        (Real.exp (1e-13 * (1 + X)) - 1) * |brOpposite na nb (potential1s a r) (potential1s b q)| := by
  obtain ⟨E, hE, P, rfl, hP⟩ := br_eval s hvs hm ho (.inr (.inl rfl)) hact ha hb hr hq hA hB hna hnb hXa hXb junk out (gab := gab)
  refine ⟨E, hE, ?_⟩
  rw [hw] at hP
  simpa using hP

theorem density_threshold : threshold ≤ density1s 2 (1 / 2) ∧ threshold ≤ density1s 4 (1 / 2) := by
  have hp := Real.pi_lt_four
  have hp' := Real.pi_pos
  have e1 := Real.exp_one_lt_d9
  have h1 : (0.3 : ℝ) ≤ Real.exp (-1) := by
    rw [Real.exp_neg, le_inv_comm₀ (by norm_num) (Real.exp_pos _)]; norm_num; linarith
  have h2 : Real.exp (-2) = Real.exp (-1) * Real.exp (-1) := by rw [← Real.exp_add]; norm_num
  have h3 : (0.09 : ℝ) ≤ Real.exp (-2) := by rw [h2]; nlinarith
  constructor
  · rw [density1s, show (-(2 * (1 / 2)) : ℝ) = -1 by norm_num]
    have : (0.25 : ℝ) ≤ 2 ^ 3 / (8 * Real.pi) := by rw [le_div_iff₀ (by positivity)]; linarith
    have : (0.25 : ℝ) * 0.3 ≤ 2 ^ 3 / (8 * Real.pi) * Real.exp (-1) := mul_le_mul this h1 (by norm_num) (by positivity)
    refine le_trans ?_ this
    norm_num [threshold]
  · rw [density1s, show (-(4 * (1 / 2)) : ℝ) = -2 by norm_num]
    have : (0.25 : ℝ) ≤ 4 ^ 3 / (8 * Real.pi) := by rw [le_div_iff₀ (by positivity)]; linarith
    have : (0.25 : ℝ) * 0.09 ≤ 4 ^ 3 / (8 * Real.pi) * Real.exp (-2) := mul_le_mul this h3 (by norm_num) (by positivity)
    refine le_trans ?_ this
    norm_num [threshold]

/-- One spin has the density of a hydrogen atom half a bohr from the nucleus, the other that of a helium ion. -/
example : ∃ s₀ s : State ℝ, run State.init [.set "brx" 1] = .ok s₀ ∧
    evalSetup s₀ Vars.A_B_GAA_GAB_GBB_LAPA_LAPB_TAUA_TAUB_JPAA_JPBB.code PARTIAL_DERIVATIVES 0 = .ok (0, s) ∧
    ∃ n m : ℝ, n = Real.exp (-1) / Real.pi ∧ m = 8 * Real.exp (-2) / Real.pi ∧
      ∃ E, xcfunEval codeKernel none s [n, m, 4 * n ^ 2, 8 * n * m, 16 * m ^ 2, -4 * n, 0, n / 2, 2 * m, 0, 0] [0] = .ok [E] ∧
        |E - -(n * (2 - 3 * Real.exp (-1)) + m * (2 - 4 * Real.exp (-2))) / 2| ≤ 1e-12 := by
  obtain ⟨s₀, s, hr, hset⟩ : ∃ s₀ s : State ℝ, run State.init [.set "brx" 1] = .ok s₀ ∧
    evalSetup s₀ Vars.A_B_GAA_GAB_GBB_LAPA_LAPB_TAUA_TAUB_JPAA_JPBB.code PARTIAL_DERIVATIVES 0 = .ok (0, s) := ⟨_, _, rfl, rfl⟩
  refine ⟨s₀, s, hr, hset, _, _, rfl, rfl, ?_⟩
  obtain ⟨e, -⟩ := setup_facts hr hset
  have hl : (lit 0 0 : ℝ) = 0 := by simp [lit, XCFun.Lit.lit]
  have hs₀ : s₀.active = [10] ∧ s₀.settings 10 = lit 0 0 + 1 := by cases hr; exact ⟨rfl, rfl⟩
  have hact : s.active = [10] := by rw [e]; exact hs₀.1
  have h6 : s.settings 10 = 1 := by rw [e]; refine hs₀.2.trans ?_; rw [hl, zero_add]
  have hp := Real.pi_pos
  have n1 : density1s 2 (1 / 2) = Real.exp (-1) / Real.pi := by
    rw [density1s, show (-(2 * (1 / 2)) : ℝ) = -1 by norm_num]; field_simp; norm_num
  have n2 : density1s 4 (1 / 2) = 8 * Real.exp (-2) / Real.pi := by
    rw [density1s, show (-(4 * (1 / 2)) : ℝ) = -2 by norm_num]; field_simp; norm_num
  have v1 : potential1s 2 (1 / 2) = 2 - 3 * Real.exp (-1) := by
    rw [potential1s, show (-(2 * (1 / 2)) : ℝ) = -1 by norm_num]; ring
  have v2 : potential1s 4 (1 / 2) = 2 - 4 * Real.exp (-2) := by
    rw [potential1s, show (-(4 * (1 / 2)) : ℝ) = -2 by norm_num]; ring
  have hA := Hyd.of_closed (a := 2) (by norm_num) (1 / 2)
  have hB := Hyd.of_closed (a := 4) (by norm_num) (1 / 2)
  obtain ⟨E, hE, hb⟩ := C80_brx s (by rw [e]) (by rw [e]) (by rw [e]) hact h6 (by norm_num) (by norm_num) (by norm_num) (by norm_num) hA hB
    density_threshold.1 density_threshold.2 (X := 2) (by norm_num) (by norm_num) none 0
    (gab := 8 * (Real.exp (-1) / Real.pi) * (8 * Real.exp (-2) / Real.pi))
  rw [v1, v2, n1, n2] at hb
  refine ⟨E, ?_, hb.trans ?_⟩
  · rw [← hE, n1, n2]
    congr 2
    norm_num
    refine ⟨?_, ?_, ?_, ?_, ?_⟩ <;> ring
  · have h1 : Real.exp (-1) ≤ 1 := Real.exp_le_one_iff.2 (by norm_num)
    have h2 : Real.exp (-2) ≤ 1 := Real.exp_le_one_iff.2 (by norm_num)
    have p1 := Real.exp_pos (-1)
    have p2 := Real.exp_pos (-2)
    have := Real.abs_exp_sub_one_sub_id_le (x := 1e-13 * (1 + 2)) (by norm_num)
    have h3 := (abs_le.1 this).2
    have hpi := Real.pi_gt_three
    have q1 : Real.exp (-1) / Real.pi ≤ 1 / 3 := div_le_div₀ (by norm_num) h1 (by norm_num) hpi.le
    have e2 : Real.exp (-2) = Real.exp (-1) * Real.exp (-1) := by rw [← Real.exp_add]; norm_num
    have e1 : Real.exp (-1) ≤ 0.4 := by
      rw [Real.exp_neg, inv_le_comm₀ (Real.exp_pos _) (by norm_num)]
      have := Real.exp_one_gt_d9
      norm_num
      linarith
    have e3 : Real.exp (-2) ≤ 0.16 := by rw [e2]; nlinarith
    have q2 : 8 * Real.exp (-2) / Real.pi ≤ 8 * 0.16 / 3 := div_le_div₀ (by norm_num) (by linarith) (by norm_num) hpi.le
    have q3 : 0 < Real.exp (-1) / Real.pi := by positivity
    have q4 : 0 < 8 * Real.exp (-2) / Real.pi := by positivity
    have k1 : Real.exp (-1) / Real.pi * (2 - 3 * Real.exp (-1)) ≤ 1 / 3 * 2 := mul_le_mul q1 (by linarith) (by linarith) (by norm_num)
    have k2 : 8 * Real.exp (-2) / Real.pi * (2 - 4 * Real.exp (-2)) ≤ 8 * 0.16 / 3 * 2 := mul_le_mul q2 (by linarith) (by linarith) (by norm_num)
    have k3 : Real.exp (1e-13 * (1 + 2)) - 1 ≤ 4e-13 := by norm_num at h3 ⊢; linarith
    refine (mul_le_mul k3 (show _ ≤ (1 : ℝ) by linarith) ?_ (by norm_num)).trans (by norm_num)
    have : 0 < Real.exp (-1) / Real.pi * (2 - 3 * Real.exp (-1)) := mul_pos q3 (by linarith)
    have : 0 < 8 * Real.exp (-2) / Real.pi * (2 - 4 * Real.exp (-2)) := mul_pos q4 (by linarith)
    linarith

/-! ## Becke exchange far from the nucleus -/

/-- **C80, BECKEX.** Exchange energy per electron far from the nucleus. Let the densities of both spins be those of 1s electrons with exponent `α`, taken at the
distance `R α` where the density has the fixed value `m`. Then `E/n` approaches `-1/(2 R)` as `α` grows (and `m` is ever further in the tail): `R E/n` tends to
`-1/2`, as it must because the hole stays at the nucleus. -/
theorem C80_beckex (s : State ℝ) {v : Vars} (hv : ¬ Unsupported v) (hA : v ≠ .A ∧ v ≠ .A_GAA) (hD : ¬ Doubled v)
    (hvs : s.vars = some v) (hm : s.mode = PARTIAL_DERIVATIVES) (ho : s.order = 0) (hact : s.active = [6]) (hw : s.settings 6 = 1)
    {m : ℝ} {R : ℝ → ℝ} {x : ℝ → ℕ → ℝ} (hR : ∀ α, 0 < α → density1s α (R α) = m)
    (hx : ∀ α, ∀ y ∈ densities (1 / 2) (x α) v, threshold ≤ y)
    (hga : ∀ α, 0 < α → (gasAt v (x α)).a = m ∧ (gasAt v (x α)).gaa = deriv (density1s α) (R α) ^ 2)
    (hgb : ∀ α, 0 < α → (gasAt v (x α)).b = m ∧ (gasAt v (x α)).gbb = deriv (density1s α) (R α) ^ 2) (junk : Junk ℝ) (out : ℝ) :
    ∃ E : ℝ → ℝ, (∀ α, xcfunEval codeKernel junk s ((List.range v.len).map (x α)) [out] = .ok [E α]) ∧
      Tendsto (fun α => R α * (E α / (m + m))) atTop (𝓝 (-(1 / 2))) := by
  refine ⟨fun α => energyAt s v (x α), fun α => eval_order0 s hv hvs hm ho _ junk out, ?_⟩
  have hpos : 0 < m := hR 1 one_pos ▸ Hyd.density_pos one_pos
  have hpi := Real.pi_pos
  set k := m ^ (1 / 3 : ℝ) with hk
  have hk0 : 0 < k := by positivity
  have e43 : m ^ (4 / 3 : ℝ) = m * k := by
    rw [show (4 / 3 : ℝ) = 1 + 1 / 3 by norm_num, Real.rpow_add hpos, Real.rpow_one]
  -- the distance
  have hlog : ∀ α, 0 < α → α * R α = 3 * Real.log α - Real.log (8 * Real.pi * m) := by
    intro α hα
    have h := hR α hα
    rw [density1s] at h
    have h1 : Real.exp (-(α * R α)) = 8 * Real.pi * m / α ^ 3 := by rw [← h]; field_simp
    have h2 := congrArg Real.log h1
    rw [Real.log_exp, Real.log_div (by positivity) (by positivity), Real.log_pow] at h2
    push_cast at h2
    linarith
  have key := Hyd.b88_far (C := exUnif (2 * m) / (2 * m)) hk0 (show (0 : ℝ) < 0.0042 by norm_num) hlog
  refine key.congr' ?_
  filter_upwards [eventually_gt_atTop 0, eventually_gt_atTop k] with α hα hαk
  obtain ⟨a1, a2⟩ := hga α hα
  obtain ⟨b1, b2⟩ := hgb α hα
  have hder : deriv (density1s α) (R α) = -α * m := by rw [Hyd.deriv_density]; show -α * density1s α (R α) = _; rw [hR α hα]
  have hχ : Lit.chiSq m ((-α * m) ^ 2) = (α / k) ^ 2 := by
    rw [Lit.chiSq, e43]
    field_simp
  have hχ1 : 1 < α / k := by rwa [one_lt_div hk0]
  have hge : (0.5 : ℝ) ≤ Lit.chiSq m ((-α * m) ^ 2) := by rw [hχ]; nlinarith
  have hE : energyAt s v (x α) = b88X (gasAt v (x α)) := by
    rw [energyAt_members s hv, hact]
    simp only [List.map_cons, List.map_nil, List.sum_cons, List.sum_nil, add_zero, hw, one_mul]
    exact Fun.lit_beckex (memberR_isGas s.settings hv hA hD (hx α)) (by rw [a1, a2, hder]; exact hge) (by rw [b1, b2, hder]; exact hge)
  have hsq : √(Lit.chiSq m ((-α * m) ^ 2)) = α / k := by rw [hχ, Real.sqrt_sq (by positivity)]
  rw [hE, b88X, b88Corr, slaterX, spinScaled, a1, a2, b1, b2, hder, b88, hsq, hχ, e43]
  have : 0 < 1 + 6 * 0.0042 * (α / k) * Real.arsinh (α / k) := by
    have := Real.arsinh_pos_iff.2 (show 0 < α / k by positivity)
    positivity
  field_simp
  ring

/-- Such inputs exist for every value of the density above the threshold. -/
example {m : ℝ} (hm : threshold ≤ m) : ∃ R : ℝ → ℝ, ∃ x : ℝ → ℕ → ℝ, (∀ α, 0 < α → density1s α (R α) = m) ∧
    (∀ α, ∀ y ∈ densities (1 / 2) (x α) .A_B_GAA_GAB_GBB, threshold ≤ y) ∧
    (∀ α, 0 < α → (gasAt .A_B_GAA_GAB_GBB (x α)).a = m ∧ (gasAt .A_B_GAA_GAB_GBB (x α)).gaa = deriv (density1s α) (R α) ^ 2) ∧
    (∀ α, 0 < α → (gasAt .A_B_GAA_GAB_GBB (x α)).b = m ∧ (gasAt .A_B_GAA_GAB_GBB (x α)).gbb = deriv (density1s α) (R α) ^ 2) := by
  have hpos : 0 < m := lt_of_lt_of_le (by norm_num [threshold]) hm
  refine ⟨fun α => Real.log (α ^ 3 / (8 * Real.pi * m)) / α, fun α i => [m, m, (α * m) ^ 2, (α * m) ^ 2, (α * m) ^ 2].getD i 0, fun α hα => ?_, ?_, ?_, ?_⟩
  · have := Real.pi_pos
    rw [density1s, mul_div_cancel₀ _ hα.ne', Real.exp_neg, Real.exp_log (by positivity)]
    field_simp
  · intro α y hy
    simp only [densities, densSlots, List.map_cons, List.map_nil, List.mem_cons, List.not_mem_nil, or_false] at hy
    rcases hy with rfl | rfl <;> exact hm
  all_goals
    intro α hα
    refine ⟨rfl, ?_⟩
    have := Real.pi_pos
    rw [(Hyd.hasDeriv_density α _).deriv, density1s, mul_div_cancel₀ _ hα.ne', Real.exp_neg, Real.exp_log (by positivity)]
    show (α * m) ^ 2 = _
    field_simp

/-! ## One orbital of any shape for each spin -/

/-- Both spins of the gas have a single real orbital each, of any spherical shape and around any centres. -/
def OneOrbitalEach (g : Gas) : Prop :=
  (∃ f r l, DifferentiableAt ℝ f r ∧ 0 < f r ∧ OneOrbital f r g.a g.gaa l g.taua) ∧
    ∃ f r l, DifferentiableAt ℝ f r ∧ 0 < f r ∧ OneOrbital f r g.b g.gbb l g.taub

theorem OneOrbitalEach.tau {g : Gas} (h : OneOrbitalEach g) : g.taua = Lit.tauW g.a g.gaa ∧ g.taub = Lit.tauW g.b g.gbb := by
  obtain ⟨⟨f, r, l, h1, h2, h3⟩, f', r', l', h4, h5, h6⟩ := h
  exact ⟨Hyd.kinetic h1 h2 h3, Hyd.kinetic h4 h5 h6⟩

/-- **C80, VWK.** The von Weizsaecker functional evaluated for one orbital of each spin is the kinetic energy density `τ_a + τ_b`. -/
theorem C80_vwk (s : State ℝ) {v : Vars} (hv : ¬ Unsupported v) (hA : v ≠ .A ∧ v ≠ .A_GAA) (hD : ¬ Doubled v)
    (hvs : s.vars = some v) (hm : s.mode = PARTIAL_DERIVATIVES) (ho : s.order = 0) (hact : s.active = [59]) (hw : s.settings 59 = 1) {x : ℕ → ℝ}
    (hx : ∀ y ∈ densities (1 / 2) x v, threshold ≤ y) (h : OneOrbitalEach (gasAt v x)) (junk : Junk ℝ) (out : ℝ) :
    xcfunEval codeKernel junk s ((List.range v.len).map x) [out] = .ok [(gasAt v x).taua + (gasAt v x).taub] := by
  rw [C52_eval s hv hA hD hvs hm ho hx (by rw [Covered, hact]; simpa using ⟨_, rfl, trivial⟩) junk out, h.tau.1, h.tau.2]
  simp only [publishedSum, hact, List.map_cons, List.map_nil, List.sum_cons, List.sum_nil, add_zero, hw, one_mul]
  rfl

/-- The correlation of electrons of opposite spin in the M05 and M06 functionals: that of the uniform gas times a function of the reduced gradients and
kinetic energies. -/
noncomputable def minnesotaOpposite (g : Gas) (id : ℕ) : ℝ :=
  let x2 := Lit.chiSq g.a g.gaa + Lit.chiSq g.b g.gbb
  let z := mZ cfCode g.a g.taua + mZ cfCode g.b g.taub
  stollOpp g * match id with
    | 35 => mG 0.0031 m052Cc.1 x2
    | 36 => mG 0.0031 m05Cc.1 x2
    | 37 => mG 0.0031 m06Cc.1.1 x2 + vs98 m06Cc.1.2 0.00304966 x2 z
    | 38 => mG 0.0031 m06HFCc.1.1 x2 + vs98 m06HFCc.1.2 0.00304966 x2 z
    | 39 => mG 0.0031 m06LCc.1.1 x2 + vs98 m06LCc.1.2 0.00304966 x2 z
    | 40 => mG 0.0031 m062Cc.1.1 x2 + vs98 m062Cc.1.2 0.00304966 x2 z
    | _ => 0

/-- **C80, M05 and M06.** For one orbital of each spin the correlation energies of M05, M05-2X, M06, M06-HF, M06-L and M06-2X are those of electrons of opposite
spin: no electron is correlated with itself. -/
theorem C80_minnesota (s : State ℝ) {v : Vars} (hv : ¬ Unsupported v) (hA : v ≠ .A ∧ v ≠ .A_GAA) (hD : ¬ Doubled v)
    (hvs : s.vars = some v) (hm : s.mode = PARTIAL_DERIVATIVES) (ho : s.order = 0) (hact : ∀ id ∈ s.active, 35 ≤ id ∧ id ≤ 40) {x : ℕ → ℝ}
    (hx : ∀ y ∈ densities (1 / 2) x v, threshold ≤ y) (h : OneOrbitalEach (gasAt v x)) (ha : 0 < (gasAt v x).gaa) (hb : 0 < (gasAt v x).gbb)
    (junk : Junk ℝ) (out : ℝ) :
    xcfunEval codeKernel junk s ((List.range v.len).map x) [out] =
      .ok [(s.active.map fun id => s.settings id * minnesotaOpposite (gasAt v x) id).sum] := by
  obtain ⟨pa, pb⟩ := gasAt_pos hv hA hx
  obtain ⟨ta, tb⟩ := h.tau
  have qa : 0 < (gasAt v x).taua := by rw [ta, Lit.tauW]; positivity
  have qb : 0 < (gasAt v x).taub := by rw [tb, Lit.tauW]; positivity
  have da : mD (gasAt v x).a (gasAt v x).gaa (gasAt v x).taua = 0 := by rw [mD, ta, div_self (ta ▸ qa).ne', sub_self]
  have db : mD (gasAt v x).b (gasAt v x).gbb (gasAt v x).taub = 0 := by rw [mD, tb, div_self (tb ▸ qb).ne', sub_self]
  rw [C52_eval s hv hA hD hvs hm ho hx (fun id hid => ?_) junk out, publishedSum]
  · congr 3
    refine List.map_congr_left fun id hid => ?_
    obtain ⟨h1, h2⟩ := hact id hid
    congr 1
    interval_cases id <;> first
      | (show m05C _ _ _ = _; rw [m05C, da, db]; simp only [mul_zero, add_zero]; rfl)
      | (show m06C _ _ _ _ _ _ = _; rw [m06C, da, db]; simp only [mul_zero, add_zero]; rfl)
  · obtain ⟨h1, h2⟩ := hact id hid
    interval_cases id <;> exact ⟨_, rfl, qa, qb⟩

/-- The densities of the example above in M06 correlation. -/
example : ∃ s₀ s : State ℝ, run State.init [.set "m06c" 1] = .ok s₀ ∧
    evalSetup s₀ Vars.A_B_GAA_GAB_GBB_TAUA_TAUB.code PARTIAL_DERIVATIVES 0 = .ok (0, s) ∧
    ∃ g : Gas, g.a = density1s 2 (1 / 2) ∧ g.b = density1s 4 (1 / 2) ∧ OneOrbitalEach g ∧
      xcfunEval codeKernel none s [g.a, g.b, g.gaa, g.gab, g.gbb, g.taua, g.taub] [0] = .ok [minnesotaOpposite g 37] := by
  obtain ⟨s₀, s, hr, hset⟩ : ∃ s₀ s : State ℝ, run State.init [.set "m06c" 1] = .ok s₀ ∧
    evalSetup s₀ Vars.A_B_GAA_GAB_GBB_TAUA_TAUB.code PARTIAL_DERIVATIVES 0 = .ok (0, s) := ⟨_, _, rfl, rfl⟩
  obtain ⟨e, -⟩ := setup_facts hr hset
  have hl : (lit 0 0 : ℝ) = 0 := by simp [lit, XCFun.Lit.lit]
  have hs₀ : s₀.active = [37] ∧ s₀.settings 37 = lit 0 0 + 1 := by cases hr; exact ⟨rfl, rfl⟩
  have hact : s.active = [37] := by rw [e]; exact hs₀.1
  have h37 : s.settings 37 = 1 := by rw [e]; refine hs₀.2.trans ?_; rw [hl, zero_add]
  have p1 := Hyd.density_pos (a := 2) (r := 1 / 2) (by norm_num)
  have p2 := Hyd.density_pos (a := 4) (r := 1 / 2) (by norm_num)
  let g : Gas := ⟨density1s 2 (1 / 2), density1s 4 (1 / 2), (2 * density1s 2 (1 / 2)) ^ 2, 0, (4 * density1s 4 (1 / 2)) ^ 2,
    2 ^ 2 * density1s 2 (1 / 2) / 8, 4 ^ 2 * density1s 4 (1 / 2) / 8⟩
  have hg : OneOrbitalEach g := ⟨⟨_, _, _, (Hyd.hasDeriv_density 2 (1 / 2)).differentiableAt, p1, Hyd.of_closed (by norm_num) _⟩,
    _, _, _, (Hyd.hasDeriv_density 4 (1 / 2)).differentiableAt, p2, Hyd.of_closed (by norm_num) _⟩
  refine ⟨s₀, s, hr, hset, g, rfl, rfl, hg, ?_⟩
  have key := C80_minnesota s (v := .A_B_GAA_GAB_GBB_TAUA_TAUB) (x := inputOf g) (by decide) (by decide) (by simp [Doubled])
    (by rw [e]) (by rw [e]) (by rw [e]) (by rw [hact]; simp)
    (by
      intro y hy
      simp only [densities, densSlots, List.map_cons, List.map_nil, List.mem_cons, List.not_mem_nil, or_false] at hy
      rcases hy with rfl | rfl
      · exact density_threshold.1
      · exact density_threshold.2)
    hg (show 0 < (2 * density1s 2 (1 / 2)) ^ 2 by positivity) (show 0 < (4 * density1s 4 (1 / 2)) ^ 2 by positivity) none 0
  rw [hact] at key
  simp only [List.map_cons, List.map_nil, List.sum_cons, List.sum_nil, add_zero, h37, one_mul] at key
  exact key

/-- The kinetic energy of an electron, from the density alone. -/
example : ∃ s₀ s : State ℝ, run State.init [.set "vwk" 1] = .ok s₀ ∧
    evalSetup s₀ Vars.A_B_GAA_GAB_GBB_TAUA_TAUB.code PARTIAL_DERIVATIVES 0 = .ok (0, s) ∧
    ∀ g : Gas, OneOrbitalEach g → threshold ≤ g.a → threshold ≤ g.b →
      xcfunEval codeKernel none s [g.a, g.b, g.gaa, g.gab, g.gbb, g.taua, g.taub] [0] = .ok [g.taua + g.taub] := by
  obtain ⟨s₀, s, hr, hset⟩ : ∃ s₀ s : State ℝ, run State.init [.set "vwk" 1] = .ok s₀ ∧
    evalSetup s₀ Vars.A_B_GAA_GAB_GBB_TAUA_TAUB.code PARTIAL_DERIVATIVES 0 = .ok (0, s) := ⟨_, _, rfl, rfl⟩
  obtain ⟨e, -⟩ := setup_facts hr hset
  have hl : (lit 0 0 : ℝ) = 0 := by simp [lit, XCFun.Lit.lit]
  have hs₀ : s₀.active = [59] ∧ s₀.settings 59 = lit 0 0 + 1 := by cases hr; exact ⟨rfl, rfl⟩
  have hact : s.active = [59] := by rw [e]; exact hs₀.1
  have h59 : s.settings 59 = 1 := by rw [e]; refine hs₀.2.trans ?_; rw [hl, zero_add]
  refine ⟨s₀, s, hr, hset, fun g hg h1 h2 => ?_⟩
  refine C80_vwk s (v := .A_B_GAA_GAB_GBB_TAUA_TAUB) (x := inputOf g) (by decide) (by decide) (by simp [Doubled])
    (by rw [e]) (by rw [e]) (by rw [e]) hact h59 ?_ hg none 0
  intro y hy
  simp only [densities, densSlots, List.map_cons, List.map_nil, List.mem_cons, List.not_mem_nil, or_false] at hy
  rcases hy with rfl | rfl
  · exact h1
  · exact h2

end XCFun.Props
