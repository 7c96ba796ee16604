/-
The GGA potential in exact arithmetic.
-/
import Verif.Proofs.Mixed
import Verif.Proofs.Depends
import Verif.Proofs.Setup
import Verif.Props.Depends

namespace XCFun
open Spec Props Filter Topology
open scoped ContDiff

/-- The slots with the densities and their gradients. -/
def slotsN (i : ℕ) : Bool := i < 4
@[inherit_doc slotsN] def slotsAB (i : ℕ) : Bool := i < 4 || (10 ≤ i && i < 14)

/-- The density slots only. -/
def densN (i : ℕ) : Bool := i == 0
@[inherit_doc densN] def densAB (i : ℕ) : Bool := i == 0 || i == 10

theorem full_uses {v : Vars} {p : ℕ → Bool} {m : ℕ} {par : ℕ → ℝ}
    (hd : ∀ f, densvars par v = some f → ∀ fld, coveredB m fld = true → (f fld).usesOnly p = true)
    {id : ℕ} (h44 : id ≠ 44) (hid : ∀ k < 5, (dependsOf id).testBit k = true → m.testBit k = true) :
    (fullExpr par v id).usesOnly p = true := by
  unfold fullExpr
  cases hf : densvars par v with
  | none => rfl
  | some f =>
    cases he : Fun.energy id with
    | none => rfl
    | some e =>
      refine Expr.usesOnly_subst (p := coveredB (dependsOf id)) (fun fld hc => ?_) e (declared_uses he h44)
      refine hd f hf fld ?_
      unfold coveredB at hc ⊢
      cases hq : quantity fld with
      | none => rfl
      | some k =>
        rw [hq] at hc
        refine hid k ?_ hc
        cases fld <;> simp [quantity] at hq <;> omega

theorem dens_slotsN (par : ℕ → ℝ) (f : Field → Expr ℕ) (hf : densvars par .N_2ND_TAYLOR = some f) (fld : Field)
    (hc : coveredB 3 fld = true) : (f fld).usesOnly slotsN = true := by
  simp only [densvars, DV.select, DV.selectFrom, Option.map_some, Option.some.injEq] at hf
  subst hf
  cases fld <;> first | rfl | exact absurd hc (by decide)

theorem dens_slotsAB (par : ℕ → ℝ) (f : Field → Expr ℕ) (hf : densvars par .A_B_2ND_TAYLOR = some f) (fld : Field)
    (hc : coveredB 3 fld = true) : (f fld).usesOnly slotsAB = true := by
  simp only [densvars, DV.select, DV.selectFrom, Option.map_some, Option.some.injEq] at hf
  subst hf
  cases fld <;> first | rfl | exact absurd hc (by decide)

theorem dens_densN (par : ℕ → ℝ) (f : Field → Expr ℕ) (hf : densvars par .N_2ND_TAYLOR = some f) (fld : Field)
    (hc : coveredB 1 fld = true) : (f fld).usesOnly densN = true := by
  simp only [densvars, DV.select, DV.selectFrom, Option.map_some, Option.some.injEq] at hf
  subst hf
  cases fld <;> first | rfl | exact absurd hc (by decide)

theorem dens_densAB (par : ℕ → ℝ) (f : Field → Expr ℕ) (hf : densvars par .A_B_2ND_TAYLOR = some f) (fld : Field)
    (hc : coveredB 1 fld = true) : (f fld).usesOnly densAB = true := by
  simp only [densvars, DV.select, DV.selectFrom, Option.map_some, Option.some.injEq] at hf
  subst hf
  cases fld <;> first | rfl | exact absurd hc (by decide)

theorem pderiv_unused {e : Expr ℕ} {p : ℕ → Bool} (he : e.usesOnly p = true) {i : ℕ} (hi : p i = false)
    (x : ℕ → ℝ) : pderiv i (fun x => e.evalR x) x = 0 := by
  unfold pderiv
  have : (fun t => e.evalR (Function.update x i t)) = fun _ => e.evalR x := by
    funext t
    refine Expr.evalR_congr (fun j hj => ?_) e he
    rw [Function.update_of_ne]
    rintro rfl
    rw [hi] at hj; cases hj
  rw [this]; simp

theorem div_unused {e : Expr ℕ} {p : ℕ → Bool} (he : e.usesOnly p = true) {off : ℕ}
    (hp : ∀ c : Fin 3, p (off + 1 + c) = false) (inp : Space → ℕ → ℝ) (r : Space) :
    functionalDerivative (fun x => e.evalR x) inp off r = pderiv off (fun x => e.evalR x) (inp r) := by
  unfold functionalDerivative
  have : ∀ c : Fin 3, pderiv c (fun r' => pderiv (off + 1 + c) (fun x => e.evalR x) (inp r')) r = 0 := by
    intro c
    simp only [pderiv_unused he (hp c)]
    simp [pderiv]
  simp [this]

section
variable {s : State ℝ}

theorem energyAt_fun (s : State ℝ) (v : Vars) : energyAt s v = fun x => (sumExpr s v).evalR x := by
  funext x; exact (energyR_eq s v x).symm

/-- One direction of the restricted potential. -/
theorem runN {e : Expr ℕ} (he : e.usesOnly slotsN = true) {ρ : Space → ℝ} {r : Space} (hρ : ContDiffAt ℝ ∞ ρ r)
    (hr : e.Reg (expansion ρ r)) (c : Fin 3) (g : ℕ) :
    (e.evalCT (seedN (expansion ρ r) (dirTab c) g)).get 3 =
      pderiv c (fun r' => pderiv g (fun x => e.evalR x) (expansion ρ r')) r := by
  rw [← mixed_pderiv (fun l => expansion_smooth hρ l) hr c g]
  congr 1
  refine Expr.evalCT_congr (p := slotsN) (fun l hl => ?_) e he
  have hl : l < 4 := by simpa [slotsN] using hl
  simp only [seedN, hl, if_true, seedG, expansion_dpos hρ c hl]

/-- One direction of the unrestricted potential. -/
theorem runAB {e : Expr ℕ} (he : e.usesOnly slotsAB = true) {a b : Space → ℝ} {r : Space} (ha : ContDiffAt ℝ ∞ a r)
    (hb : ContDiffAt ℝ ∞ b r) (hr : e.Reg (expansion2 a b r)) (old : ℕ → CT ℝ 2) (c : Fin 3) (g : ℕ) :
    (e.evalCT (seedAB (expansion2 a b r) old (dirTab c) g)).get 3 =
      pderiv c (fun r' => pderiv g (fun x => e.evalR x) (expansion2 a b r')) r := by
  rw [← mixed_pderiv (fun l => expansion2_smooth ha hb l) hr c g]
  congr 1
  refine Expr.evalCT_congr (p := slotsAB) (fun l hl => ?_) e he
  have hdp : ∀ l < 4, dpos (dirTab c) l < 10 := by
    intro l hl
    fin_cases c <;> interval_cases l <;> decide
  simp only [slotsAB, Bool.or_eq_true, Bool.and_eq_true, decide_eq_true_eq] at hl
  rcases hl with hl | hl
  · have h10 : l < 10 := by omega
    simp only [seedAB, hl, if_true, seedG, expansion2, h10, hdp l hl, expansion_dpos ha c hl]
  · have h10 : ¬ l < 10 := by omega
    have h4 : ¬ l < 4 := by omega
    have h14 : l < 14 := by omega
    have h20 : ¬ dpos (dirTab c) (l - 10) + 10 < 10 := by omega
    simp only [seedAB, h4, if_false, h10, h14, if_true, seedG, expansion2, h20, Nat.add_sub_cancel,
      expansion_dpos hb c (show l - 10 < 4 by omega)]

theorem ggaN_eq {s : State ℝ} {v : Vars} (he : (sumExpr s v).usesOnly slotsN = true) {ρ : Space → ℝ} {r : Space}
    (hρ : ContDiffAt ℝ ∞ ρ r) (hr : (sumExpr s v).Reg (expansion ρ r)) :
    pderiv 0 (energyAt s v) (expansion ρ r) - (ggaN codeKernel s v (expansion ρ r)).get 3 =
      functionalDerivative (energyAt s v) (expansion ρ) 0 r := by
  unfold functionalDerivative ggaN
  rw [total_add, total_add s v (total codeKernel s v 0 _), total_eq, total_eq, total_eq, Fin.sum_univ_three,
    energyAt_fun, CT.get_add, CT.get_add]
  have h0 := runN he hρ hr 0 1
  have h1 := runN he hρ hr 1 2
  have h2 := runN he hρ hr 2 3
  rw [show dirTab 0 = dirX by decide] at h0
  rw [show dirTab 1 = dirY by decide] at h1
  rw [show dirTab 2 = dirZ by decide] at h2
  rw [h0, h1, h2]
  rfl

theorem ggaAB_eq {s : State ℝ} {v : Vars} (he : (sumExpr s v).usesOnly slotsAB = true) {a b : Space → ℝ} {r : Space}
    (ha : ContDiffAt ℝ ∞ a r) (hb : ContDiffAt ℝ ∞ b r) (hr : (sumExpr s v).Reg (expansion2 a b r))
    (old : ℕ → CT ℝ 2) (j : ℕ) :
    pderiv (10 * j) (energyAt s v) (expansion2 a b r) - (ggaAB codeKernel s v (expansion2 a b r) old j).get 3 =
      functionalDerivative (energyAt s v) (expansion2 a b) (10 * j) r := by
  unfold functionalDerivative ggaAB
  rw [total_add, total_add s v (total codeKernel s v 0 _), total_eq, total_eq, total_eq, Fin.sum_univ_three,
    energyAt_fun, CT.get_add, CT.get_add]
  have h0 := runAB he ha hb hr old 0 (1 + 10 * j)
  have h1 := runAB he ha hb hr old 1 (2 + 10 * j)
  have h2 := runAB he ha hb hr old 2 (3 + 10 * j)
  rw [show dirTab 0 = dirX by decide] at h0
  rw [show dirTab 1 = dirY by decide] at h1
  rw [show dirTab 2 = dirZ by decide] at h2
  rw [h0, h1, h2]
  rw [show 1 + 10 * j = 10 * j + 1 + ((0 : Fin 3) : ℕ) by simp; omega,
    show 2 + 10 * j = 10 * j + 1 + ((1 : Fin 3) : ℕ) by simp; omega,
    show 3 + 10 * j = 10 * j + 1 + ((2 : Fin 3) : ℕ) by simp; omega]

end
end XCFun
