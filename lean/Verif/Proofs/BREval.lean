/-
What `xcfun_eval` returns for objects with Becke-Roussel functionals, and that these are smooth at all densities.
-/
import Verif.Proofs.BRAD
import Verif.Proofs.SmoothAll

noncomputable section

namespace XCFun
open Spec Filter Topology
open scoped Nat ContDiff

section
variable {n : ℕ} {x : ℕ → ℝ}

theorem ext_smooth_near {e : Expr ℕ} (h : e.RegBR x) :
    ContDiffAt ℝ ∞ (fun y => e.evalNear x (ext n x y)) (res n x) := by
  have := Expr.evalNear_smooth (x := res n x) (fun l y => ext n x y l) (fun l => (contDiff_ext n x l).contDiffAt) e
    (by simpa [ext_res] using h)
  simpa [ext_res] using this

theorem evalCT_ext_near {e : Expr ℕ} (h : e.RegBR x) {N : ℕ} (hN : N ≤ 6) (d : ℕ → Fin n → ℝ) :
    e.evalCT (fun l => jet d (res n x) N (fun y => ext n x y l)) =
      jet d (res n x) N (fun y => e.evalNear x (ext n x y)) := by
  have := Expr.evalCT_jet_near hN (d := d) (x := res n x) (fun l y => ext n x y l)
    (fun l => (contDiff_ext n x l).contDiffAt) e (by simpa [ext_res] using h)
  simpa [ext_res] using this

theorem coef1_near {e : Expr ℕ} (h : e.RegBR x) {i : ℕ} (hi : i < n) :
    (e.evalCT (seed1 x (some i))).get 1 = pderiv i (fun ρ => e.evalNear x ρ) x := by
  have := evalCT_ext_near (n := n) h (N := 1) (by omega) (fun _ => udir n i)
  simp only [jet_ext1 n x hi] at this
  rw [this]
  exact pderiv_dir n x (f := fun ρ => e.evalNear x ρ) hi (ext_smooth_near h)

theorem coef2_near {e : Expr ℕ} (h : e.RegBR x) {i j : ℕ} (hi : i < n) (hj : j < n) :
    (e.evalCT (seed2 x (some i) (some j))).get 3 = pderiv i (pderiv j (fun ρ => e.evalNear x ρ)) x := by
  have := evalCT_ext_near (n := n) h (N := 2) (by omega) (dirs n i j 0)
  simp only [jet_ext2 n x 0 hi hj] at this
  rw [this]
  exact pderiv_dir2 n x (f := fun ρ => e.evalNear x ρ) hi hj (ext_smooth_near h)

theorem coef3_near {e : Expr ℕ} (h : e.RegBR x) {i j k : ℕ} (hi : i < n) (hj : j < n) (hk : k < n) :
    (e.evalCT (seed3 x (some i) (some j) (some k))).get 7 =
      pderiv i (pderiv j (pderiv k (fun ρ => e.evalNear x ρ))) x := by
  have := evalCT_ext_near (n := n) h (N := 3) (by omega) (dirs n i j k)
  simp only [jet_ext3 n x hi hj hk] at this
  rw [this]
  exact pderiv_dir3 n x (f := fun ρ => e.evalNear x ρ) hi hj hk (ext_smooth_near h)

end

theorem path_near {e : Expr ℕ} {N : ℕ} (hN : N ≤ 6) {y : ℕ → ℝ}
    (h : e.RegBR (fun i => y (i * 2 ^ N))) {S : ℕ} (hS : S < 2 ^ N) :
    (e.evalCT (seedC N y)).get S =
      pderivs (bits N S) (fun t => e.evalNear (fun i => y (i * 2 ^ N)) (pathAt N y t)) (fun _ => 0) := by
  have h0 : ∀ i, (seedC N y i).eval (fun _ => 0) = y (i * 2 ^ N) := by
    intro i
    have : ∀ {n : ℕ} (t : CT ℝ n), t.eval (fun _ => 0) = t.c0 := by
      intro n t
      induction t with
      | leaf c => rfl
      | node lo hi ihl ihh => simp [CT.eval, ihl, CT.c0]
    rw [this, CT.c0_eq_get, seedC, CT.get_ofFn _ (by positivity)]; rfl
  have hreg : e.RegBR (fun i => (seedC N y i).eval (ext N (fun _ => 0) (res N fun _ => 0))) := by
    simp only [ext_res, h0]; exact h
  have sm := fun i => (contDiff_eval (N := N) (seedC N y i)).contDiffAt (x := res N fun _ => 0)
  have hj := Expr.evalCT_jet_near (N := N) hN (d := fun k => udir N k) (x := res N fun _ => 0)
    (fun i z => (seedC N y i).eval (ext N (fun _ => 0) z)) sm e hreg
  have hs := Expr.evalNear_smooth (fun i z => (seedC N y i).eval (ext N (fun _ => 0) z)) sm e hreg
  simp only [jet_eval le_rfl, ext_res, h0] at hj
  simp only [ext_res, h0] at hs
  rw [hj]
  have e2 : (fun t => e.evalNear (fun i => y (i * 2 ^ N)) (pathAt N y t)) =
      fun t => e.evalNear (fun i => y (i * 2 ^ N)) (fun i => (seedC N y i).eval t) := by
    funext t
    congr 1
    funext i
    exact pathAt_eq N y t i
  rw [e2]
  exact jet_get_pderivs (f := fun t => e.evalNear (fun i => y (i * 2 ^ N)) (fun i => (seedC N y i).eval t)) le_rfl hs hS

theorem sumExpr_near (s : State ℝ) (v : Vars) (x₀ x : ℕ → ℝ) : (sumExpr s v).evalNear x₀ x = energyNear s v x₀ x := by
  unfold sumExpr energyNear
  have : ∀ (l : List ℕ) (e : Expr ℕ),
      (l.foldl (fun out id => out.add (.mul (.lit (s.settings id)) (fullExpr s.settings v id))) e).evalNear x₀ x =
        e.evalNear x₀ x + (l.map fun id => s.settings id * (fullExpr s.settings v id).evalNear x₀ x).sum := by
    intro l
    induction l with
    | nil => intro e; simp
    | cons id l ih =>
      intro e
      rw [List.foldl_cons, ih, List.map_cons, List.sum_cons, ← add_assoc]
      rfl
  rw [this]
  simp [Expr.evalNear]

theorem energyNear_self (s : State ℝ) (v : Vars) (x : ℕ → ℝ) : energyNear s v x x = energyAt s v x := by
  simp only [energyNear, energyAt, Expr.evalNear_self]

theorem sumExpr_regBR {s : State ℝ} {v : Vars} {x : ℕ → ℝ} (h : RegularBR s v x) : (sumExpr s v).RegBR x := by
  unfold sumExpr
  have : ∀ (l : List ℕ) (e : Expr ℕ), e.RegBR x → (∀ id ∈ l, (fullExpr s.settings v id).RegBR x) →
      (l.foldl (fun out id => out.add (.mul (.lit (s.settings id)) (fullExpr s.settings v id))) e).RegBR x := by
    intro l
    induction l with
    | nil => intro e he _; exact he
    | cons id l ih =>
      intro e he hl
      exact ih _ ⟨he, trivial, hl id (by simp)⟩ fun j hj => hl j (by simp [hj])
  exact this _ _ trivial h

theorem Expr.RegBR_subst {ι κ : Type} {σ : ι → Expr κ} {ρ : κ → ℝ} (hσ : ∀ i, (σ i).RegBR ρ) (e : Expr ι)
    (h : e.RegBR (fun i => (σ i).evalR ρ)) : (e.subst σ).RegBR ρ := by
  have key := fun e => evalR_subst' σ ρ e
  induction e with
  | var i => exact hσ i
  | lit c => trivial
  | add x y ihx ihy | sub x y ihx ihy | mul x y ihx ihy => exact ⟨ihx h.1, ihy h.2⟩
  | neg x ih => exact ih h
  | prim q x ih =>
    refine ⟨ih h.1, ?_⟩
    rw [key]; exact h.2
  | reg x ih =>
    refine ⟨ih h.1, ?_⟩
    rw [key]; exact h.2
  | iflt x y a b ihx ihy iha ihb =>
    refine ⟨ihx h.1, ihy h.2.1, ?_, ?_⟩
    · rw [key, key]; exact h.2.2.1
    · rw [key, key]
      have h4 := h.2.2.2
      split
      · rename_i hlt; rw [if_pos hlt] at h4; exact iha h4
      · rename_i hlt; rw [if_neg hlt] at h4; exact ihb h4

theorem regularBR_of_members (s : State ℝ) {v : Vars} (hv : ¬ Unsupported v) (hA : v ≠ .A ∧ v ≠ .A_GAA) {x : ℕ → ℝ}
    (h : ∀ y ∈ densities (1 / 2) x v, threshold < y)
    (he : ∀ id ∈ s.active, ∀ e, Fun.energy id = some e → e.RegBR (memberR s.settings v x)) : RegularBR s v x := by
  intro id hid
  obtain ⟨g, hg⟩ := densvars_some (par := s.settings) hv
  unfold fullExpr
  rw [hg]
  cases hen : Fun.energy id with
  | none => trivial
  | some e =>
    refine Expr.RegBR_subst (fun f => Expr.RegBR_of_Reg (members_reg _ hv hA h hg f)) e ?_
    have := he id hid e hen
    rwa [show memberR s.settings v x = fun i => (g i).evalR x from funext fun f => memberR_evalR hg x f] at this

namespace Fun
open Expr
variable {ρ : Field → ℝ}

/-- The hole is deeper than nothing. -/
theorem hole_pos {x : ℝ} (hx : 0 < x) : 0 < 1 - (1 + x / 2) * Real.exp (-x) := by
  have h1 := Real.add_one_lt_exp hx.ne'
  have h2 : Real.exp (-x) * Real.exp x = 1 := by rw [← Real.exp_add]; simp
  have h3 := Real.exp_pos (-x)
  nlinarith

theorem br_fn (z : ℝ) : Prim.br.fn z = brSolve z := by
  have := BR.br_coef (N := 0) (by omega) z (BR.brSolve_pos z) 0 le_rfl
  simp only [iteratedDeriv_zero, Nat.factorial_zero, Nat.cast_one, div_one, BR.root_curve (BR.brSolve_pos z)] at this
  exact this

section
variable {ι : Type} {r : ι → ℝ} {x y : Expr ι}

theorem br_add (hx : x.RegBR r) (hy : y.RegBR r) : (x + y).RegBR r := ⟨hx, hy⟩
theorem br_sub (hx : x.RegBR r) (hy : y.RegBR r) : (x - y).RegBR r := ⟨hx, hy⟩
theorem br_mul (hx : x.RegBR r) (hy : y.RegBR r) : (x * y).RegBR r := ⟨hx, hy⟩
theorem br_div (hx : x.RegBR r) (hy : y.RegBR r) (h0 : y.evalR r ≠ 0) : (x / y).RegBR r := ⟨⟨hy, .inr h0⟩, hx⟩
theorem br_log (hx : x.RegBR r) (h0 : 0 < x.evalR r) : (Expr.log x).RegBR r := ⟨hx, .inr h0⟩
theorem br_cbrt (hx : x.RegBR r) (h0 : 0 < x.evalR r) : (Expr.cbrt x).RegBR r := ⟨hx, .inr h0⟩
theorem br_exp (hx : x.RegBR r) : (Expr.exp x).RegBR r := ⟨hx, .inr (Set.mem_univ _)⟩
theorem br_npow (hx : x.RegBR r) : ∀ n, (x.npow n).RegBR r
  | 0 => trivial
  | 1 => hx
  | n + 2 => ⟨br_npow hx (n + 1), hx⟩
theorem br_abs (hx : x.RegBR r) (h0 : x.evalR r ≠ 0) : (Expr.abs x).RegBR r := by
  refine ⟨hx, trivial, h0, ?_⟩
  split
  · exact hx
  · exact hx
end

theorem cbrt_pos {x : ℝ} (hx : 0 < x) : 0 < XCFun.cbrt x := by
  rw [XCFun.cbrt, if_pos hx.le]; positivity

/-- The argument of the solver for one spin density. -/
def brArg (n g l t j : ℝ) : ℝ :=
  1 / (2 / 3 * Real.pi ^ (2 / 3 : ℝ)) * ((l - 2 * t + (0.5 * g + 2 * j) / n) / 6) * n ^ (-5 / 3 : ℝ)

/-- The potential of the hole with exponent `x` for the spin density `n`, as the code computes it. -/
def brPot (x n : ℝ) : ℝ :=
  -(1 - (1 + 0.5 * x) * Real.exp (-x)) / XCFun.cbrt (x ^ 3 * Real.exp (-x) / (8 * Real.pi * n))

theorem br_polarized_eval (na gaa lapa taua jpaa : Expr Field) :
    (br_polarized na gaa lapa taua jpaa).evalR ρ =
      brPot (brSolve (brArg (na.evalR ρ) (gaa.evalR ρ) (lapa.evalR ρ) (taua.evalR ρ) (jpaa.evalR ρ))) (na.evalR ρ) := by
  simp only [br_polarized, brPot, brArg, evalR_div, evalR_neg, evalR_sub, evalR_mul, evalR_add, evalR_exp, evalR_cbrt, evalR_br, evalR_pow3,
    evalR_pow, evalR_one, evalR_ofNat, evalR_ofScientific, evalR_lit, br_fn]

theorem brPot_neg {x n : ℝ} (hx : 0 < x) (hn : 0 < n) : brPot x n < 0 := by
  have hp := Real.pi_pos
  have h1 := hole_pos hx
  rw [brPot, neg_div]
  have : 0 < 1 - (1 + 0.5 * x) * Real.exp (-x) := by
    rw [show (0.5 : ℝ) * x = x / 2 by ring]; exact h1
  have := cbrt_pos (x := x ^ 3 * Real.exp (-x) / (8 * Real.pi * n)) (by positivity)
  simp only [neg_lt_zero]
  positivity

theorem br_polarized_neg {na : Expr Field} (hn0 : 0 < na.evalR ρ) (gaa lapa taua jpaa : Expr Field) :
    (br_polarized na gaa lapa taua jpaa).evalR ρ < 0 := by
  rw [br_polarized_eval]; exact brPot_neg (BR.brSolve_pos _) hn0

/-- The potential of the hole is regular. -/
theorem br_polarized_reg {na gaa lapa taua jpaa : Expr Field} (hn : na.RegBR ρ) (hn0 : 0 < na.evalR ρ) (hg : gaa.RegBR ρ)
    (hl : lapa.RegBR ρ) (ht : taua.RegBR ρ) (hj : jpaa.RegBR ρ) : (br_polarized na gaa lapa taua jpaa).RegBR ρ := by
  have hp := Real.pi_pos
  unfold br_polarized
  extract_lets Q x b
  have rQ : Q.RegBR ρ := br_div (br_add (br_sub hl (br_mul trivial ht))
    (br_div (br_add (br_mul trivial hg) (br_mul trivial hj)) hn hn0.ne')) trivial (by show (6 : ℝ) ≠ 0; norm_num)
  have rx : x.RegBR ρ := ⟨⟨⟨trivial, rQ⟩, hn, .inr hn0⟩, .inl rfl⟩
  have x0 : 0 < x.evalR ρ := by
    rw [show x.evalR ρ = Prim.br.fn _ from rfl, br_fn]; exact BR.brSolve_pos _
  have re : (Expr.exp (-x)).RegBR ρ := br_exp rx
  have hd : 0 < (((8 * Real.pi : ℝ) : Expr Field) * na).evalR ρ := by
    simp only [evalR_mul, evalR_lit]; positivity
  have b0 : 0 < (pow3 x * Expr.exp (-x) / (((8 * Real.pi : ℝ) : Expr Field) * na)).evalR ρ := by
    rw [evalR_div, evalR_mul, evalR_pow3, evalR_exp]
    positivity
  have rb : b.RegBR ρ := br_cbrt (br_div (br_mul ⟨⟨rx, rx⟩, rx⟩ re) ⟨trivial, hn⟩ hd.ne') b0
  refine br_div ?_ rb (cbrt_pos b0).ne'
  exact br_sub trivial (br_mul (br_add trivial (br_mul trivial rx)) re)

theorem brECopp_reg {U V : Expr Field} (hU : U.RegBR ρ) (hV : V.RegBR ρ) (u : U.evalR ρ < 0) (w : V.evalR ρ < 0) :
    (brECopp U V).RegBR ρ := by
  have h1 : 1 / U.evalR ρ < 0 := one_div_neg.2 u
  have h2 : 1 / V.evalR ρ < 0 := one_div_neg.2 w
  unfold brECopp
  extract_lets cab zab
  have hc : cab = 0.63 := rfl
  have e : zab.evalR ρ = |cab * (1 / U.evalR ρ + 1 / V.evalR ρ)| := by
    simp only [zab, evalR_abs, evalR_mul, evalR_lit, evalR_add, evalR_div, evalR_one]
  have hne : cab * (1 / U.evalR ρ + 1 / V.evalR ρ) ≠ 0 := by
    rw [hc]; exact mul_ne_zero (by norm_num) (by linarith)
  have z0 : 0 < zab.evalR ρ := by rw [e]; positivity
  have rz : zab.RegBR ρ := by
    refine br_abs ⟨trivial, br_div trivial hU u.ne, br_div trivial hV w.ne⟩ ?_
    simpa only [evalR_mul, evalR_lit, evalR_add, evalR_div, evalR_one] using hne
  have l0 : 0 < (1 + zab).evalR ρ := by rw [evalR_add, evalR_one]; positivity
  exact br_mul (br_mul (br_mul (br_mul (br_mul trivial trivial) trivial) rz) rz)
    (br_sub trivial (br_div (br_log (br_add trivial rz) l0) rz z0.ne'))

theorem brECss_reg {U na gaa taua jpaa : Expr Field} (hU : U.RegBR ρ) (u : U.evalR ρ < 0) (hn : na.RegBR ρ) (hn0 : 0 < na.evalR ρ)
    (hg : gaa.RegBR ρ) (ht : taua.RegBR ρ) (hj : jpaa.RegBR ρ) : (brECss U na gaa taua jpaa).RegBR ρ := by
  unfold brECss
  extract_lets caa zaa
  have hc : caa = 0.88 := rfl
  have e : zaa.evalR ρ = |caa * (2 / U.evalR ρ)| := by
    simp only [zaa, evalR_abs, evalR_mul, evalR_lit, evalR_div, evalR_ofNat]
  have hne : caa * (2 / U.evalR ρ) ≠ 0 := by
    rw [hc]; exact mul_ne_zero (by norm_num) (div_ne_zero (by norm_num) u.ne)
  have z0 : 0 < zaa.evalR ρ := by rw [e]; positivity
  have rz : zaa.RegBR ρ := by
    refine br_abs ⟨trivial, br_div trivial hU u.ne⟩ ?_
    simpa only [evalR_mul, evalR_lit, evalR_div, evalR_ofNat] using hne
  have l0 : 0 < (1 + zaa / 2).evalR ρ := by rw [evalR_add, evalR_one, evalR_div, evalR_ofNat]; positivity
  have r2 : (zaa / 2).RegBR ρ := br_div rz trivial (by rw [evalR_ofNat]; norm_num)
  refine br_mul (br_mul (br_mul (br_mul trivial hn) (br_sub (br_mul trivial ht) (br_div (br_add (br_mul trivial hg) hj) hn hn0.ne')))
    (br_npow rz 4)) (br_sub trivial (br_mul (br_div trivial rz z0.ne') (br_log (br_add trivial r2) l0)))

theorem br_members (h : Sound ρ) {e : Expr Field} (he : e = brx ∨ e = brc ∨ e = brxc) : e.RegBR ρ := by
  have pa : (br_polarized d.a d.gaa d.lapa (2 * d.taua) d.jpaa).RegBR ρ :=
    br_polarized_reg trivial h.a trivial trivial (br_mul trivial trivial) trivial
  have pb : (br_polarized d.b d.gbb d.lapb (2 * d.taub) d.jpbb).RegBR ρ :=
    br_polarized_reg trivial h.b trivial trivial (br_mul trivial trivial) trivial
  have na := br_polarized_neg (ρ := ρ) (na := d.a) h.a d.gaa d.lapa (2 * d.taua) d.jpaa
  have nb := br_polarized_neg (ρ := ρ) (na := d.b) h.b d.gbb d.lapb (2 * d.taub) d.jpbb
  have ro := brECopp_reg pa pb na nb
  have ra := brECss_reg (taua := d.taua) (gaa := d.gaa) (jpaa := d.jpaa) pa na (na := d.a) trivial h.a trivial trivial trivial
  have rb := brECss_reg (taua := d.taub) (gaa := d.gbb) (jpaa := d.jpbb) pb nb (na := d.b) trivial h.b trivial trivial trivial
  rcases he with rfl | rfl | rfl
  · exact br_mul trivial (br_add (br_mul trivial pa) (br_mul trivial pb))
  · exact br_add (br_add ro ra) rb
  · exact br_add (br_add (br_add (br_mul trivial (br_add (br_mul pa trivial) (br_mul pb trivial))) ro) ra) rb

end Fun
end XCFun
