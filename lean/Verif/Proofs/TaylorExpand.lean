/-
The expansions in one variable of taylor_math.hpp.
-/
import Verif.Proofs.TaylorOps
import Verif.Props.Expansions

namespace XCFun.Tay
open XCFun Spec Polymul

/-- The run ends with the Taylor coefficients of `f` at `a`. -/
def Run (N : ℕ) (f : ℝ → ℝ) (a : ℝ) (o : Outcome (List ℝ)) : Prop := ∃ out, o = .ok out ∧ Fit 1 N out ∧ IsTaylor f a N (at' out)

theorem run_of_map {N : ℕ} {F : ℕ → ℝ} {g : ℝ → ℝ} {a : ℝ} {o : Outcome (List ℝ)} (h : o = .ok ((List.range (N + 1)).map F)) (hF : IsTaylor g a N F) : Run N g a o :=
  ⟨_, h, by rw [fit_one]; simp, fun k hk => by rw [at_map (by omega), hF k hk]⟩

variable {N : ℕ} {t : List ℝ}

/-- A loop that computes each entry from the one before. -/
theorem rec_run (F : ℕ → ℝ) (g : ℕ → ℝ → ℝ → ℝ) (ht : Fit 1 N t) (hg : ∀ i, F (i + 1) = g (i + 1) (F i) (F 0)) {body : ℕ → List ℝ → Outcome (List ℝ)}
    (hb : ∀ i t, 1 ≤ i → i < t.length → body i t = wrBuf t i (g i (at' t (i - 1)) (at' t 0))) :
    (do
      let t ← wrBuf t 0 (F 0)
      forLoop body N 1 t) = .ok ((List.range (N + 1)).map F) := by
  rw [fit_one] at ht
  rw [wrBuf_ok (by omega), Outcome.ok_bind]
  have hl : (t.set 0 (F 0)).length = N + 1 := by rw [List.length_set, ht]
  have := fill F (body := body) N 1 (t.set 0 (F 0)) (by omega) (fun j hj => by
    rw [at_set _ (by omega), if_pos (by omega)]; congr 1; omega) (fun i t' hi hi' hl' hj => by
    rw [hb i t' hi (by omega), hj (i - 1) (by omega), hj 0 (by omega)]
    obtain ⟨k, rfl⟩ : ∃ k, i = k + 1 := ⟨i - 1, by omega⟩
    rw [hg k, Nat.add_sub_cancel])
  rw [this, hl]

theorem inv_run (ht : Fit 1 N t) {a : ℝ} (ha : a ≠ 0) : invTaylor N t a = .ok ((List.range (N + 1)).map (invExpand a)) := by
  rw [invTaylor, assert_ok ha, Outcome.ok_bind]
  exact rec_run (invExpand a) (fun _ x y => -x * y) ht (fun i => rfl) fun i t hi hi' => by
    simp only [rd_at (show i - 1 < t.length by omega), rd_at (show 0 < t.length by omega), Outcome.ok_bind]

theorem pow_run (ht : Fit 1 N t) {x0 : ℝ} (h0 : 0 < x0) (a : ℝ) : powTaylor N t x0 a = .ok ((List.range (N + 1)).map (powExpand x0 a)) := by
  rw [powTaylor, assert_ok h0, Outcome.ok_bind]
  exact rec_run (powExpand x0 a) (fun i x _ => x * (1 / x0) * (a - (i : ℝ) + 1) / (i : ℝ)) ht (fun i => rfl) fun i t hi hi' => by
    simp only [rd_at (show i - 1 < t.length by omega), Outcome.ok_bind]

theorem sqrt_run (ht : Fit 1 N t) {x0 : ℝ} (h0 : 0 < x0) : sqrtTaylor N t x0 = .ok ((List.range (N + 1)).map (sqrtExpand x0)) := by
  rw [sqrtTaylor, assert_ok h0, Outcome.ok_bind]
  exact rec_run (sqrtExpand x0) (fun i x _ => x * ((3 * (1 / x0)) / ((2 * i : ℕ) : ℝ) - 1 / x0)) ht (fun i => rfl) fun i t hi hi' => by
    simp only [rd_at (show i - 1 < t.length by omega), Outcome.ok_bind]

theorem cbrt_run (ht : Fit 1 N t) {x0 : ℝ} (h0 : 0 < x0) : cbrtTaylor N t x0 = .ok ((List.range (N + 1)).map (cbrtExpand x0)) := by
  rw [cbrtTaylor, assert_ok h0, Outcome.ok_bind]
  exact rec_run (cbrtExpand x0) (fun i x _ => x * ((4 * (1 / x0)) / ((3 * i : ℕ) : ℝ) - 1 / x0)) ht (fun i => rfl) fun i t hi hi' => by
    simp only [rd_at (show i - 1 < t.length by omega), Outcome.ok_bind]

theorem exp_run (ht : Fit 1 N t) (x0 : ℝ) : expTaylor N t x0 = .ok ((List.range (N + 1)).map (expExpand x0)) := by
  rw [fit_one] at ht
  rw [expTaylor, wrBuf_ok (by omega), Outcome.ok_bind]
  have hl : (t.set 0 (Real.exp x0)).length = N + 1 := by rw [List.length_set, ht]
  have := fill2 (expExpand x0) (fun i => expFac (i - 1)) (body := fun i (r : ℝ × List ℝ) => do
    let y ← rdBuf r.2 0
    let t ← wrBuf r.2 i (y / (r.1 * (i : ℝ)))
    .ok (r.1 * (i : ℝ), t)) N 1 (t.set 0 (Real.exp x0)) (by omega) (fun j hj => by
      rw [at_set _ (by omega), if_pos (by omega), show j = 0 by omega]; rfl) (fun i t' hi hi' hl' hj => by
      obtain ⟨k, rfl⟩ : ∃ k, i = k + 1 := ⟨i - 1, by omega⟩
      simp only [rd_at (show 0 < t'.length by omega), Outcome.ok_bind, hj 0 (by omega), Nat.add_sub_cancel]
      rfl)
  have e : ∀ s, s = (1, t.set 0 (Real.exp x0)) → forLoop (fun i (r : ℝ × List ℝ) => do
    let y ← rdBuf r.2 0
    let t ← wrBuf r.2 i (y / (r.1 * (i : ℝ)))
    .ok (r.1 * (i : ℝ), t)) N 1 s = .ok (expFac (1 + N - 1), (List.range (N + 1)).map (expExpand x0)) := by
    rintro _ rfl; rw [← hl]; exact this
  rw [e _ rfl]; rfl

theorem log_run (ht : Fit 1 N t) {x0 : ℝ} (h0 : 0 < x0) : logTaylor N t x0 = .ok ((List.range (N + 1)).map (logExpand x0)) := by
  rw [fit_one] at ht
  rw [logTaylor, assert_ok h0, Outcome.ok_bind, wrBuf_ok (by omega), Outcome.ok_bind]
  have hl : (t.set 0 (Real.log x0)).length = N + 1 := by rw [List.length_set, ht]
  have := fill2 (logExpand x0) (fun i => logPow x0 i) (body := fun i (r : ℝ × List ℝ) => do
    let t ← wrBuf r.2 i (r.1 / (i : ℝ) * ((2 * ((i &&& 1 : ℕ) : ℤ) - 1 : ℤ) : ℝ))
    .ok (r.1 * (1 / x0), t)) N 1 (t.set 0 (Real.log x0)) (by omega) (fun j hj => by
      rw [at_set _ (by omega), if_pos (by omega), show j = 0 by omega]; rfl) (fun i t' hi hi' hl' hj => by
      obtain ⟨k, rfl⟩ : ∃ k, i = k + 1 := ⟨i - 1, by omega⟩
      rw [show logPow x0 (k + 1 + 1) = logPow x0 (k + 1) * (1 / x0) by rw [logPow, if_neg (by omega)]]
      rfl)
  rw [hl] at this
  exact congrArg (fun r => Outcome.bind r fun r => .ok r.2) this

/-! ### Odd and even entries -/

theorem pairs_run (F : ℕ → ℝ) (S : ℕ → ℝ) {body : ℕ → ℝ × List ℝ → Outcome (ℝ × List ℝ)} (cnt : ℕ) (t : List ℝ) (hl : 2 * cnt ≤ t.length)
    (step : ∀ i t', 2 * i + 1 < t'.length → body i (S i, t') = .ok (S (i + 1), (t'.set (2 * i) (F (2 * i))).set (2 * i + 1) (F (2 * i + 1)))) :
    ∃ out, forLoop body cnt 0 (S 0, t) = .ok (S cnt, out) ∧ out.length = t.length ∧ ∀ j < 2 * cnt, at' out j = F j := by
  obtain ⟨⟨s, out⟩, e1, e0, e2, e3⟩ := forLoop_inv (body := body) (fun i r => r.1 = S i ∧ r.2.length = t.length ∧ ∀ j < 2 * i, at' r.2 j = F j) cnt 0 (S 0, t) ⟨rfl, rfl, by omega⟩ (by
    rintro i ⟨s, t'⟩ hi hi' ⟨hs, hl', hj⟩
    dsimp only at hs hl' hj
    subst hs
    rw [step i t' (by omega)]
    refine ⟨_, rfl, rfl, by rw [List.length_set, List.length_set, hl'], fun j hj' => ?_⟩
    rw [at_set _ (by rw [List.length_set]; omega), at_set _ (by omega)]
    split
    · rename_i h; rw [h]
    · split
      · rename_i h; rw [h]
      · exact hj j (by omega))
  dsimp only at e0 e2 e3
  rw [zero_add] at e0 e3
  exact ⟨out, by rw [e1, e0], e2, e3⟩

theorem sin_run (ht : Fit 1 N t) (a : ℝ) : sinTaylor N t a = .ok ((List.range (N + 1)).map (sinExpand a)) := by
  rw [fit_one] at ht
  have hf : ∀ {c : List ℝ}, c.length = N + 1 → (∀ j ≤ N, at' c j = sinExpand a j) → c = (List.range (N + 1)).map (sinExpand a) := fun {c} h1 h2 => by
    rw [← h1]; exact list_eq fun i hi => h2 i (by omega)
  have s0 : ∀ k, sinExpand a (2 * k) = sinFac k * Real.sin a := fun k => by
    rw [sinExpand, if_pos (by omega), show 2 * k / 2 = k by omega]
  have s1 : ∀ k, sinExpand a (2 * k + 1) = sinFac k / ((2 * k + 1 : ℕ) : ℝ) * Real.cos a := fun k => by
    rw [sinExpand, if_neg (by omega), show (2 * k + 1) / 2 = k by omega]
  rw [sinTaylor]
  by_cases hN : 0 < N
  · rw [if_pos hN]
    obtain ⟨out, e1, e2, e3⟩ := pairs_run (sinExpand a) sinFac (body := fun i (r : ℝ × List ℝ) => do
      let t ← wrBuf r.2 (2 * i) (r.1 * Real.sin a)
      let fac := r.1 / ((2 * i + 1 : ℕ) : ℝ)
      let t ← wrBuf t (2 * i + 1) (fac * Real.cos a)
      .ok (fac / -((2 * i + 2 : ℕ) : ℝ), t)) ((N + 1) / 2) t (by omega) (fun i t' hi => by
        simp only [wrBuf_ok (show 2 * i < t'.length by omega), Outcome.ok_bind,
          wrBuf_ok (show 2 * i + 1 < (t'.set (2 * i) (sinFac i * Real.sin a)).length by rw [List.length_set]; omega), s0, s1]
        rfl)
    refine (congrArg (fun r => Outcome.bind r _) e1).trans ?_
    simp only [Outcome.bind]
    by_cases h2 : N % 2 = 0
    · rw [if_pos h2, wrBuf_ok (by omega)]
      refine congrArg Outcome.ok (hf (by rw [List.length_set]; omega) fun j hj => ?_)
      rw [at_set _ (by omega)]
      split
      · rename_i h
        rw [h, show sinExpand a N = sinExpand a (2 * (N / 2)) by congr 1; omega, s0, show (N + 1) / 2 = N / 2 by omega, mul_comm]
      · exact e3 j (by omega)
    · rw [if_neg h2]
      exact congrArg Outcome.ok (hf (by omega) fun j hj => e3 j (by omega))
  · rw [if_neg hN, wrBuf_ok (by omega)]
    refine congrArg Outcome.ok (hf (by rw [List.length_set]; omega) fun j hj => ?_)
    have := s0 0
    rw [at_set _ (by omega), if_pos (by omega), show j = 2 * 0 by omega, s0, sinFac, one_mul]

theorem cos_run (ht : Fit 1 N t) (a : ℝ) : cosTaylor N t a = .ok ((List.range (N + 1)).map (cosExpand a)) := by
  rw [fit_one] at ht
  have hf : ∀ {c : List ℝ}, c.length = N + 1 → (∀ j ≤ N, at' c j = cosExpand a j) → c = (List.range (N + 1)).map (cosExpand a) := fun {c} h1 h2 => by
    rw [← h1]; exact list_eq fun i hi => h2 i (by omega)
  have s0 : ∀ k, cosExpand a (2 * k) = cosFac k * Real.cos a := fun k => by
    rw [cosExpand, if_pos (by omega), show 2 * k / 2 = k by omega]
  have s1 : ∀ k, cosExpand a (2 * k + 1) = cosFac k / -((2 * k + 1 : ℕ) : ℝ) * Real.sin a := fun k => by
    rw [cosExpand, if_neg (by omega), show (2 * k + 1) / 2 = k by omega]
  rw [cosTaylor]
  by_cases hN : 0 < N
  · rw [if_pos hN]
    obtain ⟨out, e1, e2, e3⟩ := pairs_run (cosExpand a) cosFac (body := fun i (r : ℝ × List ℝ) => do
      let t ← wrBuf r.2 (2 * i) (r.1 * Real.cos a)
      let fac := r.1 / -((2 * i + 1 : ℕ) : ℝ)
      let t ← wrBuf t (2 * i + 1) (fac * Real.sin a)
      .ok (fac / ((2 * i + 2 : ℕ) : ℝ), t)) ((N + 1) / 2) t (by omega) (fun i t' hi => by
        simp only [wrBuf_ok (show 2 * i < t'.length by omega), Outcome.ok_bind,
          wrBuf_ok (show 2 * i + 1 < (t'.set (2 * i) (cosFac i * Real.cos a)).length by rw [List.length_set]; omega), s0, s1]
        rfl)
    refine (congrArg (fun r => Outcome.bind r _) e1).trans ?_
    simp only [Outcome.bind]
    by_cases h2 : N % 2 = 0
    · rw [if_pos h2, wrBuf_ok (by omega)]
      refine congrArg Outcome.ok (hf (by rw [List.length_set]; omega) fun j hj => ?_)
      rw [at_set _ (by omega)]
      split
      · rename_i h
        rw [h, show cosExpand a N = cosExpand a (2 * (N / 2)) by congr 1; omega, s0, show (N + 1) / 2 = N / 2 by omega, mul_comm]
      · exact e3 j (by omega)
    · rw [if_neg h2]
      exact congrArg Outcome.ok (hf (by omega) fun j hj => e3 j (by omega))
  · rw [if_neg hN, wrBuf_ok (by omega)]
    refine congrArg Outcome.ok (hf (by rw [List.length_set]; omega) fun j hj => ?_)
    rw [at_set _ (by omega), if_pos (by omega), show j = 2 * 0 by omega, s0, cosFac, one_mul]

end XCFun.Tay
