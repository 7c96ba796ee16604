/-
Variable sets without density variables: every evaluation aborts.
-/
import Verif.Proofs.EvalModes

namespace XCFun

universe u
variable {V : Type u} [Zero V] [One V] [Add V] [Sub V] [Mul V]
variable {K : Kernel V} {v : Vars} {input : List V} {x : ℕ → V}

theorem forLoop_die {σ : Type u} {body : ℕ → σ → Outcome σ} {cnt lo : ℕ} {st : σ} (hc : 0 < cnt)
    (h : body lo st = .die) : forLoop body cnt lo st = .die := by
  obtain ⟨c, rfl⟩ : ∃ c, cnt = c + 1 := ⟨cnt - 1, by omega⟩
  simp [forLoop, h]

theorem putCoef_ok' {N : ℕ} (m : Slots V N) {i j : ℕ} (hi : i < 20) (hj : j < 2 ^ N) (c : V) :
    ∃ m', putCoef m i j c = .ok m' := by
  have : i < MAX_INVARS := by unfold MAX_INVARS; omega
  exact ⟨_, by rw [putCoef, if_pos hj, put, if_pos this]⟩

variable (hd : K.reads v = none) (hl : v.len ≤ 20) (hp : 0 < v.len) (hx : ∀ i < v.len, input[i]? = some (x i))
include hd hl hx

theorem evalOrder0_die (junk : Junk V) (s : State V) (output : List V) :
    evalOrder0 K junk s v input output = .die := by
  obtain ⟨m, hm, -⟩ := loadInput_ok hl hx (fresh junk 0)
  simp [evalOrder0, hm, accumulate_die s hd]

include hp

theorem evalOrder1_die (junk : Junk V) (s : State V) (output : List V) (h2 : 2 ≤ v.len) :
    evalOrder1 K junk s v input output = .die := by
  obtain ⟨m, hm, -⟩ := loadInput_ok hl hx (fresh junk 2)
  rw [evalOrder1, hm, Outcome.ok_bind, forLoop_die (by omega), Outcome.die_bind]
  obtain ⟨m1, e1⟩ := putCoef_ok' m (i := 2 * 0) (j := VAR0) (by omega) (by decide) 1
  obtain ⟨m2, e2⟩ := putCoef_ok' m1 (i := 2 * 0 + 1) (j := VAR1) (by omega) (by decide) 1
  simp only [order1Body, e1, e2, accumulate_die s hd, Outcome.ok_bind, Outcome.die_bind]

theorem evalOrder2_die (junk : Junk V) (s : State V) (output : List V) :
    evalOrder2 K junk s v input output = .die := by
  obtain ⟨m, hm, -⟩ := loadInput_ok hl hx (fresh junk 2)
  rw [evalOrder2, hm, Outcome.ok_bind, forLoop_die hp, Outcome.die_bind]
  obtain ⟨m1, e1⟩ := putCoef_ok' m (i := 0) (j := VAR0) (by omega) (by decide) 1
  simp only [e1, Outcome.ok_bind]
  rw [forLoop_die (by omega), Outcome.die_bind]
  obtain ⟨m2, e2⟩ := putCoef_ok' m1 (i := 0) (j := VAR1) (by omega) (by decide) 1
  simp only [order2Body, e2, accumulate_die s hd, Outcome.ok_bind, Outcome.die_bind]

theorem evalOrder3_die (junk : Junk V) (s : State V) (output : List V) :
    evalOrder3 K junk s v input output = .die := by
  obtain ⟨m, hm, -⟩ := loadInput_ok hl hx (fresh junk 3)
  rw [evalOrder3, hm, Outcome.ok_bind, forLoop_die hp, Outcome.die_bind]
  obtain ⟨m1, e1⟩ := putCoef_ok' m (i := 0) (j := VAR0) (by omega) (by decide) 1
  simp only [e1, Outcome.ok_bind]
  rw [forLoop_die (by omega), Outcome.die_bind]
  obtain ⟨m2, e2⟩ := putCoef_ok' m1 (i := 0) (j := VAR1) (by omega) (by decide) 1
  simp only [e2, Outcome.ok_bind]
  rw [forLoop_die (by omega), Outcome.die_bind]
  obtain ⟨m3, e3⟩ := putCoef_ok' m2 (i := 0) (j := VAR2) (by omega) (by decide) 1
  simp only [order3Body, e3, accumulate_die s hd, Outcome.ok_bind, Outcome.die_bind]

theorem evalPotentialLda_die (junk : Junk V) (s : State V) (output : List V) :
    evalPotentialLda K junk s v input output = .die := by
  obtain ⟨m, hm, -⟩ := loadInput_ok hl hx (fresh junk 1)
  rw [evalPotentialLda, hm, Outcome.ok_bind, forLoop_die (npot_pos _), Outcome.die_bind]
  obtain ⟨m1, e1⟩ := putCoef_ok' m (i := 0 * (potentialShape v.len).2) (j := VAR0) (by omega) (by decide) 1
  simp only [e1, accumulate_die s hd, Outcome.ok_bind, Outcome.die_bind]

end XCFun
