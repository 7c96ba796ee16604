/-
C22: `xcfun_eval_vec`.
-/
import Verif.Props.Accepted

namespace XCFun.Props
open XCFun Spec

section
variable {V : Type _} [Zero V] [One V] [Add V] [Sub V] [Mul V] [Lit V]

omit [Zero V] [One V] [Add V] [Sub V] [Mul V] [Lit V] in
theorem getElem?_block (l w : List V) (r : ℕ) (h : r + w.length ≤ l.length) (p : ℕ) :
    (l.take r ++ (w ++ (l.drop r).drop w.length))[p]? =
      if r ≤ p ∧ p < r + w.length then w[p - r]? else l[p]? := by
  by_cases h1 : p < r
  · rw [if_neg (by omega), List.getElem?_append_left (by simp; omega), List.getElem?_take_of_lt h1]
  · have hr : (l.take r).length = r := by simp; omega
    rw [List.getElem?_append_right (by omega), hr]
    by_cases h2 : p < r + w.length
    · rw [if_pos (by omega), List.getElem?_append_left (by omega)]
    · rw [if_neg (by omega), List.getElem?_append_right (by omega), List.getElem?_drop, List.getElem?_drop]
      congr 1; omega

omit [Lit V] in
theorem vec_core (K : Kernel V) (junk : Junk V) (s : State V) (density : List V) (dBase dPitch rBase rPitch : ℤ)
    (L : ℕ) (n : ℕ) (res : ℕ → List V) (M : ℕ) (hL : ∀ i < n, (res i).length ≤ L)
    (hd : ∀ i < n, inInt (i * dPitch) ∧ 0 ≤ dBase + i * dPitch ∧ dBase + i * dPitch ≤ density.length)
    (hr : ∀ i < n, inInt (i * rPitch) ∧ 0 ≤ rBase + i * rPitch ∧ rBase + i * rPitch + L ≤ M)
    (he : ∀ i < n, ∀ out, L ≤ out.length →
      xcfunEval K junk s (density.drop (dBase + i * dPitch).toNat) out = .ok (res i ++ out.drop (res i).length)) :
    ∀ (cnt lo : ℕ) (result : List V), result.length = M → lo + cnt ≤ n →
      ∃ out, forLoop (fun i result =>
        let d := dBase + i * dPitch
        let r := rBase + i * rPitch
        if inInt (i * dPitch) ∧ inInt (i * rPitch) ∧ 0 ≤ d ∧ d ≤ density.length ∧
            0 ≤ r ∧ r ≤ result.length then do
          let o ← xcfunEval K junk s (density.drop d.toNat) (result.drop r.toNat)
          pure (result.take r.toNat ++ o)
        else .ub) cnt lo result = .ok out ∧ out.length = M ∧
        ∀ p : ℕ,
          (∀ i, lo ≤ i → i < lo + cnt →
            rBase + i * rPitch ≤ p → p < rBase + i * rPitch + (res i).length →
            (∀ i', i < i' → i' < lo + cnt →
              ¬ (rBase + i' * rPitch ≤ p ∧ p < rBase + i' * rPitch + (res i').length)) →
            out[p]? = (res i)[(p - (rBase + i * rPitch)).toNat]?) ∧
          ((∀ i, lo ≤ i → i < lo + cnt →
              ¬ (rBase + i * rPitch ≤ p ∧ p < rBase + i * rPitch + (res i).length)) →
            out[p]? = result[p]?) := by
  intro cnt
  induction cnt with
  | zero =>
    intro lo result hM _
    refine ⟨result, rfl, hM, fun p => ⟨fun i h1 h2 => by omega, fun _ => rfl⟩⟩
  | succ cnt ih =>
    intro lo result hM hlo
    have h1 := hd lo (by omega)
    have h2 := hr lo (by omega)
    have h3 := hL lo (by omega)
    have hstep := he lo (by omega) (result.drop (rBase + lo * rPitch).toNat) (by simp; omega)
    have hb := getElem?_block result (res lo) (rBase + lo * rPitch).toNat (by omega)
    obtain ⟨out, e1, e2, e3⟩ := ih (lo + 1)
      (result.take (rBase + lo * rPitch).toNat ++
        (res lo ++ (result.drop (rBase + lo * rPitch).toNat).drop (res lo).length))
      (by simp; omega) (by omega)
    refine ⟨out, ?_, e2, fun p => ?_⟩
    · rw [forLoop]
      simp only
      rw [if_pos ⟨h1.1, h2.1, h1.2.1, h1.2.2, h2.2.1, by omega⟩, hstep]
      exact e1
    · obtain ⟨e4, e5⟩ := e3 p
      refine ⟨fun i hi1 hi2 c1 c2 hlast => ?_, fun hnone => ?_⟩
      · rcases Nat.eq_or_lt_of_le hi1 with rfl | hlt
        · rw [e5 (fun i' g1 g2 => hlast i' (by omega) (by omega)), hb p, if_pos (by omega)]
          congr 1; omega
        · exact e4 i hlt (by omega) c1 c2 (fun i' g1 g2 => hlast i' g1 (by omega))
      · have := hnone lo le_rfl (by omega)
        rw [e5 (fun i' g1 g2 => hnone i' (by omega) (by omega)), hb p, if_neg (by omega)]

/-- **C22.** After a successful setup with a configuration that evaluates, `xcfun_eval_vec` over `n` points with any
pitches (also negative or overlapping, as long as each point's input and output lie in the buffers) returns; if
`res i` is what `xcfun_eval` writes for point `i`, then every output position holds the value written for the last
point whose slot covers it, and positions outside of all slots are unchanged. -/
theorem C22_eval_vec (K : Kernel V) (hK : K.Local) (hKr : K.reads = DV.reads)
    (h : List (Call V)) (s₀ s : State V) (hr : run State.init h = .ok s₀) (v : Vars) (m o : ℤ)
    (hset : evalSetup s₀ v.code m o = .ok (0, s)) (hev : ¬ CannotEvaluate v m o) (j : (N : ℕ) → ℕ → CT V N)
    (n : ℤ) (density : List V) (dBase dPitch : ℤ) (result : List V) (rBase rPitch : ℤ)
    (hd : ∀ i : ℕ, i < n → inInt (i * dPitch) ∧ 0 ≤ dBase + i * dPitch ∧
      dBase + i * dPitch + needIn v m o ≤ density.length)
    (hres : ∀ i : ℕ, i < n → inInt (i * rPitch) ∧ 0 ≤ rBase + i * rPitch ∧
      rBase + i * rPitch + needOut v m o ≤ result.length) :
    ∃ (res : ℕ → List V) (out : List V),
      (∀ i : ℕ, i < n → (res i).length ≤ needOut v m o ∧ ∀ o', needOut v m o ≤ o'.length →
        xcfunEval K (some j) s (density.drop (dBase + i * dPitch).toNat) o' =
          .ok (res i ++ o'.drop (res i).length)) ∧
      xcfunEvalVec K (some j) s n density dBase dPitch result rBase rPitch = .ok out ∧
      out.length = result.length ∧
      ∀ p : ℕ,
        (∀ i : ℕ, i < n → rBase + i * rPitch ≤ p → p < rBase + i * rPitch + (res i).length →
          (∀ i' : ℕ, i < i' → i' < n →
            ¬ (rBase + i' * rPitch ≤ p ∧ p < rBase + i' * rPitch + (res i').length)) →
          out[p]? = (res i)[(p - (rBase + i * rPitch)).toNat]?) ∧
        ((∀ i : ℕ, i < n → ¬ (rBase + i * rPitch ≤ p ∧ p < rBase + i * rPitch + (res i).length)) →
          out[p]? = result[p]?) := by
  have hpt : ∀ i : ℕ, i < n → ∃ r : List V, r.length ≤ needOut v m o ∧ ∀ o', needOut v m o ≤ o'.length →
      xcfunEval K (some j) s (density.drop (dBase + i * dPitch).toNat) o' = .ok (r ++ o'.drop r.length) := by
    intro i hi
    have := hd i hi
    exact (C21_accepted_configurations K hK hKr h s₀ s hr v m o hset j
      (density.drop (dBase + i * dPitch).toNat) (by simp; omega)).2 hev
  choose! res hlen hval using hpt
  obtain ⟨out, e1, e2, e3⟩ := vec_core K (some j) s density dBase dPitch rBase rPitch (needOut v m o) n.toNat
    res result.length (fun i hi => hlen i (by omega))
    (fun i hi => by have := hd i (by omega); exact ⟨this.1, this.2.1, by omega⟩)
    (fun i hi => hres i (by omega)) (fun i hi => hval i (by omega)) n.toNat 0 result rfl (by omega)
  refine ⟨res, out, fun i hi => ⟨hlen i hi, hval i hi⟩, e1, e2, fun p => ?_⟩
  obtain ⟨f1, f2⟩ := e3 p
  refine ⟨fun i hi c1 c2 hlast => f1 i (by omega) (by omega) c1 c2 fun i' g1 g2 => hlast i' g1 (by omega), fun hn =>
    f2 fun i _ g => hn i (by omega)⟩

/-- **C22, no interference.** With a result pitch of at least the output length (in either direction) the slots are
disjoint: every point finds exactly what `xcfun_eval` writes for it. -/
theorem C22_no_interference (K : Kernel V) (hK : K.Local) (hKr : K.reads = DV.reads)
    (h : List (Call V)) (s₀ s : State V) (hr : run State.init h = .ok s₀) (v : Vars) (m o : ℤ)
    (hset : evalSetup s₀ v.code m o = .ok (0, s)) (hev : ¬ CannotEvaluate v m o) (j : (N : ℕ) → ℕ → CT V N)
    (n : ℤ) (density : List V) (dBase dPitch : ℤ) (result : List V) (rBase rPitch : ℤ)
    (hd : ∀ i : ℕ, i < n → inInt (i * dPitch) ∧ 0 ≤ dBase + i * dPitch ∧
      dBase + i * dPitch + needIn v m o ≤ density.length)
    (hres : ∀ i : ℕ, i < n → inInt (i * rPitch) ∧ 0 ≤ rBase + i * rPitch ∧
      rBase + i * rPitch + needOut v m o ≤ result.length)
    (hp : needOut v m o ≤ |rPitch|) :
    ∃ out, xcfunEvalVec K (some j) s n density dBase dPitch result rBase rPitch = .ok out ∧
      out.length = result.length ∧
      (∀ i : ℕ, i < n →
        xcfunEval K (some j) s (density.drop (dBase + i * dPitch).toNat)
          ((result.drop (rBase + i * rPitch).toNat).take (needOut v m o)) =
            .ok ((out.drop (rBase + i * rPitch).toNat).take (needOut v m o))) ∧
      ∀ p : ℕ, (∀ i : ℕ, i < n → ¬ (rBase + i * rPitch ≤ p ∧ p < rBase + i * rPitch + needOut v m o)) →
        out[p]? = result[p]? := by
  obtain ⟨res, out, h1, h2, h3, h4⟩ := C22_eval_vec K hK hKr h s₀ s hr v m o hset hev j n density dBase dPitch
    result rBase rPitch hd hres
  refine ⟨out, h2, h3, fun i hi => ?_, fun p hn => (h4 p).2 fun i hi hc => hn i hi ⟨hc.1, ?_⟩⟩
  · obtain ⟨g1, g2⟩ := h1 i hi
    have b := hres i hi
    rw [g2 _ (by simp; omega)]
    congr 1
    refine List.ext_getElem? fun q => ?_
    have hr0 : ((rBase + i * rPitch).toNat : ℤ) = rBase + i * rPitch := Int.toNat_of_nonneg b.2.1
    have hdis : ∀ i' : ℕ, i' < n → i' ≠ i → ∀ p : ℤ, rBase + i * rPitch ≤ p → p < rBase + i * rPitch + needOut v m o →
        ¬ (rBase + i' * rPitch ≤ p ∧ p < rBase + i' * rPitch + (res i').length) := by
      intro i' hi' hne p p1 p2 hc
      have l' := (h1 i' hi').1
      have hk : |((i' : ℤ) - i) * rPitch| < needOut v m o := by
        rw [abs_lt]
        constructor <;> nlinarith [hc.1, hc.2, p1, p2]
      rw [abs_mul] at hk
      have : 1 ≤ |(i' : ℤ) - i| := Int.one_le_abs (by omega)
      nlinarith [abs_nonneg rPitch]
    by_cases hq : q < needOut v m o
    · rw [List.getElem?_take_of_lt hq, List.getElem?_drop]
      by_cases hw : q < (res i).length
      · rw [List.getElem?_append_left hw, (h4 _).1 i hi (by push_cast; omega) (by push_cast; omega)
          (fun i' gt lt => hdis i' lt (by omega) _ (by push_cast; omega) (by push_cast; omega))]
        congr 1; push_cast; omega
      · rw [List.getElem?_append_right (by omega), List.getElem?_drop,
          List.getElem?_take_of_lt (by omega), List.getElem?_drop, (h4 _).2 fun i' hi' => ?_]
        · congr 1; omega
        · by_cases hii : i' = i
          · subst hii; push_cast; omega
          · exact hdis i' hi' hii _ (by push_cast; omega) (by push_cast; omega)
    · rw [List.getElem?_eq_none (by simp; omega), List.getElem?_eq_none (by simp; omega)]
  · have := (h1 i hi).1
    omega

omit [Lit V] in
/-- **C22, no points.** With `nr_points <= 0` nothing is read or written, whatever the object and the pointers. -/
theorem C22_no_points (K : Kernel V) (junk : Junk V) (s : State V) (n : ℤ) (hn : n ≤ 0) (density : List V)
    (dBase dPitch : ℤ) (result : List V) (rBase rPitch : ℤ) :
    xcfunEvalVec K junk s n density dBase dPitch result rBase rPitch = .ok result := by
  unfold xcfunEvalVec
  rw [Int.toNat_of_nonpos hn]
  rfl

end

/-- Three points of PBE exchange with gradients, results stored backwards with a gap of one. -/
example (j : (N : ℕ) → ℕ → CT ℝ N) (density result : List ℝ) (h1 : density.length = 15) (h2 : result.length = 21) :
    ∃ s₀ s out, run State.init [.set "pbex" 1] = .ok s₀ ∧
      evalSetup s₀ Vars.A_B_GAA_GAB_GBB.code PARTIAL_DERIVATIVES 1 = .ok (0, s) ∧
      xcfunEvalVec codeKernel (some j) s 3 density 0 5 result 14 (-7) = .ok out := by
  have c1 : needIn .A_B_GAA_GAB_GBB PARTIAL_DERIVATIVES 1 = 5 := by decide
  have c2 : needOut .A_B_GAA_GAB_GBB PARTIAL_DERIVATIVES 1 = 6 := by decide
  obtain ⟨out, h, -⟩ := C22_no_interference codeKernel codeKernel_local rfl [.set "pbex" 1] _ _ rfl
    .A_B_GAA_GAB_GBB PARTIAL_DERIVATIVES 1 rfl (by simp [CannotEvaluate, Unsupported]) j 3 density 0 5 result 14 (-7)
    (fun i hi => by
      rw [c1, h1]
      have : i < 3 := by omega
      interval_cases i <;> simp [inInt])
    (fun i hi => by
      rw [c2, h2]
      have : i < 3 := by omega
      interval_cases i <;> simp [inInt]) (by rw [c2]; decide)
  exact ⟨_, _, out, rfl, rfl, h⟩

end XCFun.Props
