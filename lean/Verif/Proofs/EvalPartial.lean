/-
Partial-derivative mode: the complete output of every order, for any arithmetic.
-/
import Verif.Proofs.Eval

namespace XCFun
open Spec

universe u
variable {V : Type u}

set_option linter.unusedSectionVars false

theorem splice_cons {o : List V} {vals : List V} (h : 1 + vals.length ≤ o.length) (e : V) :
    wrBuf (splice o 1 vals) 0 e = .ok (splice o 0 (e :: vals)) := by
  rw [wrBuf_ok (by rw [length_splice h]; omega)]
  cases o with
  | nil => simp at h
  | cons a as => simp [splice, Nat.add_comm]

theorem splice_append {o : List V} {k : ℕ} {xs ys : List V}
    (h : k + (xs.length + ys.length) ≤ o.length) :
    splice (splice o (k + xs.length) ys) k xs = splice o k (xs ++ ys) := by
  apply List.ext_getElem?
  intro q
  have h1 : (splice o (k + xs.length) ys).length = o.length := length_splice (by omega)
  rw [getElem?_splice _ _ _ (by rw [h1]; omega), getElem?_splice _ _ _ (by omega),
    getElem?_splice _ _ _ (by simp; omega)]
  simp only [List.length_append, List.getElem?_append]
  by_cases h1 : q < k
  · have : q < k + xs.length := by omega
    simp [h1, this]
  · by_cases h2 : q < k + xs.length
    · have h3 : q < k + (xs.length + ys.length) := by omega
      have h4 : q - k < xs.length := by omega
      simp [h1, h2, h3, h4]
    · have h4 : ¬ q - k < xs.length := by omega
      have h5 : q - (k + xs.length) = q - k - xs.length := by omega
      simp [h1, h2, h4, h5, Nat.add_assoc]

section
variable [Zero V] [One V] [Add V] [Sub V] [Mul V]
variable {K : Kernel V} {v : Vars} {input : List V} {x : ℕ → V}

/-- What case 1 writes. -/
def res1 (K : Kernel V) (s : State V) (v : Vars) (x : ℕ → V) : List V :=
  [if v.len % 2 = 1 then (total K s v 0 (seed1 x (some (v.len - 1)))).get 0
    else (total K s v 0 (seed2 x (some (v.len - 2)) (some (v.len - 1)))).get 0]
    ++ (List.range v.len).map fun i =>
      if i + 1 = v.len ∧ v.len % 2 = 1 then (total K s v 0 (seed1 x (some i))).get 1
      else (total K s v 0 (seed2 x (some (2 * (i / 2))) (some (2 * (i / 2) + 1)))).get
          (if i % 2 = 0 then 1 else 2)

theorem and_one_ne (n : ℕ) : (n &&& 1 ≠ 0) ↔ n % 2 = 1 := by
  rw [Nat.and_one_is_mod]; omega

theorem evalOrder1_ok (h : Ready K v input x) (hn : 0 < v.len) (junk : Junk V) (s : State V)
    {output : List V} (ho : 1 + v.len ≤ output.length) :
    evalOrder1 K junk s v input output = .ok (splice output 0 (res1 K s v x)) := by
  obtain ⟨m, hm, ha⟩ := loadInput_ok h.len h.inp (fresh junk 2)
  rw [const2_eq] at ha
  obtain ⟨st, h1, h2, h3⟩ := order1_loop h s ho ha
  have hlen : ((List.range (2 * (v.len / 2))).map fun i =>
        (total K s v 0 (seed2 x (some (2 * (i / 2))) (some (2 * (i / 2) + 1)))).get
          (if i % 2 = 0 then VAR0 else VAR1)).length = 2 * (v.len / 2) := by simp
  have w := splice_cons (o := output) (by rw [hlen]; omega) (st.2.1.get CNST)
  rw [← h3] at w
  by_cases hodd : v.len % 2 = 1
  · obtain ⟨m', hm', ha'⟩ := loadInput_ok h.len h.inp (fresh junk 1)
    have hj : v.len - 1 < v.len := by omega
    obtain ⟨m1, e1, a1⟩ := putCoef_agree ha' h.len hj (j := VAR0) (by decide) 1
    rw [seed1_upd] at a1
    obtain ⟨m2, e2, -⟩ := putScalar_agree a1 h.len hj (x (v.len - 1))
    have w1 := splice_snoc (o := output) (k := 0) (vals := st.2.1.get CNST :: ((List.range (2 * (v.len / 2))).map fun i =>
        (total K s v 0 (seed2 x (some (2 * (i / 2))) (some (2 * (i / 2) + 1)))).get
          (if i % 2 = 0 then VAR0 else VAR1))) (by rw [List.length_cons, hlen]; omega)
          ((total K s v 0 (seed1 x (some (v.len - 1)))).get VAR0)
    rw [List.length_cons, hlen, show 0 + (2 * (v.len / 2) + 1) = v.len - 1 + 1 by omega] at w1
    have hres : (v.len - 1) + 1 = v.len := by omega
    have hr : ((List.range (2 * (v.len / 2))).map fun i =>
        (total K s v 0 (seed2 x (some (2 * (i / 2))) (some (2 * (i / 2) + 1)))).get
          (if i % 2 = 0 then VAR0 else VAR1)) ++ [(total K s v 0 (seed1 x (some (v.len - 1)))).get VAR0]
        = (List.range v.len).map fun i =>
      if i + 1 = v.len ∧ v.len % 2 = 1 then (total K s v 0 (seed1 x (some i))).get 1
      else (total K s v 0 (seed2 x (some (2 * (i / 2))) (some (2 * (i / 2) + 1)))).get
          (if i % 2 = 0 then 1 else 2) := by
      have e : List.range v.len = List.range (2 * (v.len / 2)) ++ [v.len - 1] := by
        have h1 : v.len = 2 * (v.len / 2) + 1 := by omega
        have h2 : v.len - 1 = 2 * (v.len / 2) := by omega
        rw [h2]; conv_lhs => rw [h1]
        exact List.range_succ
      rw [e, List.map_append]
      congr 1
      · refine List.map_congr_left fun i hi => ?_
        have : ¬ (i + 1 = v.len ∧ v.len % 2 = 1) := by
          simp at hi; omega
        rw [if_neg this]; rfl
      · simp [hres, hodd, VAR0]
    have w2 : ∀ e : V, wrBuf (splice output 0 (st.2.1.get CNST :: ((List.range (2 * (v.len / 2))).map fun i =>
        (total K s v 0 (seed2 x (some (2 * (i / 2))) (some (2 * (i / 2) + 1)))).get
          (if i % 2 = 0 then VAR0 else VAR1)) ++ [(total K s v 0 (seed1 x (some (v.len - 1)))).get VAR0])) 0 e =
        .ok (splice output 0 (e :: (List.range v.len).map fun i =>
          if i + 1 = v.len ∧ v.len % 2 = 1 then (total K s v 0 (seed1 x (some i))).get 1
          else (total K s v 0 (seed2 x (some (2 * (i / 2))) (some (2 * (i / 2) + 1)))).get
          (if i % 2 = 0 then 1 else 2))) := by
      intro e
      rw [List.cons_append, hr, wrBuf_ok (by rw [length_splice (by simp; omega)]; omega)]
      simp [splice]
    have hc : v.len &&& 1 ≠ 0 := (and_one_ne _).2 hodd
    simp only [evalOrder1, hm, Outcome.ok_bind, h1, w, if_pos hc, order1Last, hm', e1, h.acc s a1,
      h.rd hj, e2, w1, w2]
    simp [res1, hodd, CNST]
  · have hc : ¬ (v.len &&& 1 ≠ 0) := fun hh => hodd ((and_one_ne _).1 hh)
    simp only [evalOrder1, hm, Outcome.ok_bind, h1, w, if_neg hc, Outcome.pure_eq]
    congr 2
    have e1 : 2 * (v.len / 2) = v.len := by omega
    have e2 : ¬ v.len / 2 = 0 := by omega
    rw [h2, if_neg e2, e1]
    simp only [res1, if_neg hodd, and_false, hodd, if_false, CNST, VAR0, VAR1, List.cons_append,
      List.nil_append]

/-! Third derivatives -/

theorem seed3_set0 (x : ℕ → V) (i : ℕ) :
    upd (seed3 x none none none) i ((seed3 x none none none i).set VAR0 1) = seed3 x (some i) none none := by
  funext l
  simp only [upd, seed3, seed2, Spec.unit, Option.some.injEq]
  by_cases h : l = i
  · subst h; simp [CT.set, VAR0]
  · have : ¬ i = l := fun h' => h h'.symm
    simp [h, this]

theorem seed3_set1 (x : ℕ → V) (i : Option ℕ) (j : ℕ) :
    upd (seed3 x i none none) j ((seed3 x i none none j).set VAR1 1) = seed3 x i (some j) none := by
  funext l
  simp only [upd, seed3, seed2, Spec.unit, Option.some.injEq]
  by_cases h : l = j
  · subst h; simp [CT.set, VAR1]
  · have : ¬ j = l := fun h' => h h'.symm
    simp [h, this]

theorem seed3_clear1 (x : ℕ → V) (i : Option ℕ) (j : ℕ) :
    upd (seed3 x i (some j) none) j ((seed3 x i (some j) none j).set VAR1 0) = seed3 x i none none := by
  funext l
  simp only [upd, seed3, seed2, Spec.unit, Option.some.injEq]
  by_cases h : l = j
  · subst h; simp [CT.set, VAR1]
  · have : ¬ j = l := fun h' => h h'.symm
    simp [h, this]

theorem seed3_set2 (x : ℕ → V) (i j : Option ℕ) (t : ℕ) :
    upd (seed3 x i j none) t ((seed3 x i j none t).set VAR2 1) = seed3 x i j (some t) := by
  funext l
  simp only [upd, seed3, seed2, Spec.unit, Option.some.injEq]
  by_cases h : l = t
  · subst h; simp [CT.set, VAR2]
  · have : ¬ t = l := fun h' => h h'.symm
    simp [h, this]

theorem seed3_clear2 (x : ℕ → V) (i j : Option ℕ) (t : ℕ) :
    upd (seed3 x i j (some t)) t ((seed3 x i j (some t) t).set VAR2 0) = seed3 x i j none := by
  funext l
  simp only [upd, seed3, seed2, Spec.unit, Option.some.injEq]
  by_cases h : l = t
  · subst h; simp [CT.set, VAR2]
  · have : ¬ t = l := fun h' => h h'.symm
    simp [h, this]

theorem seed3_reset0 (x : ℕ → V) (i : ℕ) :
    upd (seed3 x (some i) none none) i (CT.const 3 (x i)) = seed3 x none none none := by
  funext l
  simp only [upd, seed3, seed2, Spec.unit, Option.some.injEq]
  by_cases h : l = i
  · subst h; simp [CT.const]
  · have : ¬ i = l := fun h' => h h'.symm
    simp [h, this]

/-- The third derivative computed for a triple. -/
def d3 (K : Kernel V) (s : State V) (v : Vars) (x : ℕ → V) (i j t : ℕ) : V :=
  (total K s v 0 (seed3 x (some i) (some j) (some t))).get 7

theorem order3_row (h : Ready K v input x) (s : State V) {output : List V} {i j k0 : ℕ}
    (hj : j < v.len) (done : List V)
    (ho : k0 + done.length + (v.len - j) ≤ output.length) {m : Slots V 3}
    (hm : Agree v.len m (seed3 x (some i) (some j) none)) :
    ∃ m', forLoop (order3Body K s v) (v.len - j) j
        (m, splice output k0 done, k0 + done.length) =
        .ok (m', splice output k0 (done ++ (List.range' j (v.len - j)).map (d3 K s v x i j)),
          k0 + done.length + (v.len - j)) ∧
      Agree v.len m' (seed3 x (some i) (some j) none) := by
  have := forLoop_inv (body := order3Body K s v)
    (fun t st => Agree v.len st.1 (seed3 x (some i) (some j) none) ∧
      st.2.1 = splice output k0 (done ++ (List.range' j (t - j)).map (d3 K s v x i j)) ∧
      st.2.2 = k0 + done.length + (t - j)) (v.len - j) j
      (m, splice output k0 done, k0 + done.length)
    ⟨hm, by simp, by simp⟩ ?_
  · obtain ⟨⟨m', o', k'⟩, h1, h2, h3, h4⟩ := this
    have e : j + (v.len - j) = v.len := by omega
    simp only [e] at h2 h3 h4
    subst h3 h4
    exact ⟨m', h1, h2⟩
  · rintro t ⟨m, o, k⟩ hjt ht ⟨ha, hb, hk⟩
    simp only at ha hb hk
    have htn : t < v.len := by omega
    obtain ⟨m1, e1, a1⟩ := putCoef_agree ha h.len htn (j := VAR2) (by decide) 1
    rw [seed3_set2] at a1
    obtain ⟨m2, e2, a2⟩ := putCoef_agree a1 h.len htn (j := VAR2) (by decide) 0
    rw [seed3_clear2] at a2
    have hl : (done ++ (List.range' j (t - j)).map (d3 K s v x i j)).length = done.length + (t - j) := by
      simp
    have w := splice_snoc (o := output) (k := k0)
        (vals := done ++ (List.range' j (t - j)).map (d3 K s v x i j)) (by rw [hl]; omega)
        ((total K s v 0 (seed3 x (some i) (some j) (some t))).get (VAR0 ||| VAR1 ||| VAR2))
    rw [hl, ← Nat.add_assoc, ← hk] at w
    refine ⟨(m2, splice output k0 ((done ++ (List.range' j (t - j)).map (d3 K s v x i j)) ++
        [(total K s v 0 (seed3 x (some i) (some j) (some t))).get (VAR0 ||| VAR1 ||| VAR2)]), k + 1),
        ?_, a2, ?_, ?_⟩
    · simp only [order3Body, e1, e2, Outcome.ok_bind, h.acc s a1, hb, w, Outcome.pure_eq]
    · have : t + 1 - j = (t - j) + 1 := by omega
      have e : j + (t - j) = t := by omega
      simp [this, List.range'_concat, e, VAR0, VAR1, VAR2, d3]
    · simp only [hk]; omega

/-- The rows of triples starting with `i`, second index below `j`. -/
def slab (K : Kernel V) (s : State V) (v : Vars) (x : ℕ → V) (i cnt : ℕ) : List V :=
  (List.range' i cnt).flatMap fun j => (List.range' j (v.len - j)).map (d3 K s v x i j)

theorem slab_succ (K : Kernel V) (s : State V) (v : Vars) (x : ℕ → V) (i cnt : ℕ) :
    slab K s v x i (cnt + 1) = slab K s v x i cnt ++
      (List.range' (i + cnt) (v.len - (i + cnt))).map (d3 K s v x i (i + cnt)) := by
  simp [slab, List.range'_concat, List.flatMap_append]

theorem order3_slab (h : Ready K v input x) (s : State V) {output : List V} {i k0 : ℕ}
    (done : List V) (ho : k0 + (done ++ slab K s v x i (v.len - i)).length ≤ output.length)
    {m : Slots V 3} (hi : i < v.len) (hm : Agree v.len m (seed3 x (some i) none none)) :
    ∃ m', forLoop (fun j (st : Slots V 3 × List V × ℕ) => do
        let m ← putCoef st.1 j VAR1 1
        let st ← forLoop (order3Body K s v) (v.len - j) j (m, st.2)
        let m ← putCoef st.1 j VAR1 0
        pure (m, st.2)) (v.len - i) i (m, splice output k0 done, k0 + done.length) =
        .ok (m', splice output k0 (done ++ slab K s v x i (v.len - i)),
          k0 + (done ++ slab K s v x i (v.len - i)).length) ∧
      Agree v.len m' (seed3 x (some i) none none) := by
  have := forLoop_inv (body := fun j (st : Slots V 3 × List V × ℕ) => do
        let m ← putCoef st.1 j VAR1 1
        let st ← forLoop (order3Body K s v) (v.len - j) j (m, st.2)
        let m ← putCoef st.1 j VAR1 0
        pure (m, st.2))
    (fun j st => Agree v.len st.1 (seed3 x (some i) none none) ∧
      st.2.1 = splice output k0 (done ++ slab K s v x i (j - i)) ∧
      st.2.2 = k0 + (done ++ slab K s v x i (j - i)).length) (v.len - i) i
      (m, splice output k0 done, k0 + done.length)
    ⟨hm, by simp [slab], by simp [slab]⟩ ?_
  · obtain ⟨⟨m', o', k'⟩, h1, h2, h3, h4⟩ := this
    have e : i + (v.len - i) = v.len := by omega
    simp only [e] at h2 h3 h4
    subst h3 h4
    exact ⟨m', h1, h2⟩
  · rintro j ⟨m, o, k⟩ hij hj ⟨ha, hb, hk⟩
    simp only at ha hb hk
    have hjn : j < v.len := by omega
    have e : i + (j - i) = j := by omega
    have e' : j + 1 - i = j - i + 1 := by omega
    have hs := slab_succ K s v x i (j - i)
    rw [e] at hs
    have hmono : (slab K s v x i (j - i)).length + (v.len - j) ≤ (slab K s v x i (v.len - i)).length := by
      obtain ⟨c, hc⟩ : ∃ c, v.len - i = (j - i + 1) + c := ⟨v.len - i - (j - i + 1), by omega⟩
      rw [hc]
      have : (slab K s v x i (j - i + 1 + c)).length = (slab K s v x i (j - i + 1)).length +
          ((List.range' (i + (j - i + 1)) c).flatMap fun j =>
            (List.range' j (v.len - j)).map (d3 K s v x i j)).length := by
        rw [← List.length_append]
        congr 1
        rw [slab, slab, ← List.flatMap_append]
        congr 1
        rw [← List.range'_append]
        simp
      rw [this, hs]
      simp
    obtain ⟨m1, e1, a1⟩ := putCoef_agree ha h.len hjn (j := VAR1) (by decide) 1
    rw [seed3_set1] at a1
    obtain ⟨m2, e2, a2⟩ := order3_row h s (output := output) (k0 := k0) hjn
      (done ++ slab K s v x i (j - i)) (by
        simp only [List.length_append] at ho ⊢; omega) a1
    obtain ⟨m3, e3, a3⟩ := putCoef_agree a2 h.len hjn (j := VAR1) (by decide) 0
    rw [seed3_clear1] at a3
    refine ⟨(m3, splice output k0 ((done ++ slab K s v x i (j - i)) ++
        (List.range' j (v.len - j)).map (d3 K s v x i j)),
        k0 + (done ++ slab K s v x i (j - i)).length + (v.len - j)), ?_, a3, ?_, ?_⟩
    · simp only [e1, Outcome.ok_bind, hb, hk, e2, e3, Outcome.pure_eq]
    · rw [e', hs, List.append_assoc]
    · simp only [e', hs, List.length_append, List.length_map, List.length_range']; omega

/-- What case 3 writes before falling through. -/
def res3 (K : Kernel V) (s : State V) (v : Vars) (x : ℕ → V) : List V :=
  (triples v.len).map (fun p => d3 K s v x p.1 p.2.1 p.2.2)

theorem res3_eq (K : Kernel V) (s : State V) (v : Vars) (x : ℕ → V) :
    res3 K s v x = (List.range v.len).flatMap fun i => slab K s v x i (v.len - i) := by
  simp only [res3, triples, slab, List.map_flatMap, List.map_map, Function.comp_def]

theorem evalOrder3_ok (h : Ready K v input x) (junk : Junk V) (s : State V)
    {output : List V}
    (ho : 1 + v.len + v.len * (v.len + 1) / 2 + (triples v.len).length ≤ output.length) :
    evalOrder3 K junk s v input output =
      .ok (splice output (1 + v.len + v.len * (v.len + 1) / 2) (res3 K s v x)) := by
  obtain ⟨m, hm, ha⟩ := loadInput_ok h.len h.inp (fresh junk 3)
  rw [const3_eq] at ha
  set k0 := 1 + v.len + v.len * (v.len + 1) / 2 with hk0
  set acc : ℕ → List V := fun i => (List.range i).flatMap fun i => slab K s v x i (v.len - i) with hacc
  have hlen : (acc v.len).length = (triples v.len).length := by
    rw [show acc v.len = res3 K s v x from (res3_eq K s v x).symm, res3, List.length_map]
  have hsucc : ∀ i, acc (i + 1) = acc i ++ slab K s v x i (v.len - i) := by
    intro i; simp [hacc, List.range_succ, List.flatMap_append]
  have hmono : ∀ i ≤ v.len, (acc i).length ≤ (acc v.len).length := by
    intro i hi
    obtain ⟨c, hc⟩ : ∃ c, v.len = i + c := ⟨v.len - i, by omega⟩
    have : ∀ c, (acc i).length ≤ (acc (i + c)).length := by
      intro c
      induction c with
      | zero => exact le_rfl
      | succ c ih => rw [← Nat.add_assoc, hsucc, List.length_append]; omega
    conv_rhs => rw [hc]
    exact this c
  have loop := forLoop_inv (body := fun i (st : Slots V 3 × List V × ℕ) => do
      let m ← putCoef st.1 i VAR0 1
      let st ← forLoop (fun j (st : Slots V 3 × List V × ℕ) => do
        let m ← putCoef st.1 j VAR1 1
        let st ← forLoop (order3Body K s v) (v.len - j) j (m, st.2)
        let m ← putCoef st.1 j VAR1 0
        pure (m, st.2)) (v.len - i) i (m, st.2)
      let x ← rdBuf input i
      let m ← putScalar st.1 i x
      pure (m, st.2))
    (fun i st => Agree v.len st.1 (seed3 x none none none) ∧
      st.2.1 = splice output k0 (acc i) ∧ st.2.2 = k0 + (acc i).length) v.len 0 (m, output, k0)
    ⟨ha, by simp [hacc, splice_nil], by simp [hacc]⟩ ?_
  · obtain ⟨⟨m', o', k'⟩, h1, -, h3, -⟩ := loop
    simp only [Nat.zero_add] at h3
    rw [show acc v.len = res3 K s v x from (res3_eq K s v x).symm] at h3
    simp only [evalOrder3, hm, Outcome.ok_bind]
    rw [← hk0, h1]
    simp only [Outcome.ok_bind, h3, Outcome.pure_eq]
  · rintro i ⟨m, o, k⟩ - hi ⟨ha, hb, hk⟩
    simp only at ha hb hk
    have hin : i < v.len := by omega
    obtain ⟨m1, e1, a1⟩ := putCoef_agree ha h.len hin (j := VAR0) (by decide) 1
    rw [seed3_set0] at a1
    obtain ⟨m2, e2, a2⟩ := order3_slab h s (output := output) (k0 := k0) (acc i) (by
      rw [← hsucc]
      have := hmono (i + 1) (by omega)
      omega) hin a1
    obtain ⟨m3, e3, a3⟩ := putScalar_agree a2 h.len hin (x i)
    rw [seed3_reset0] at a3
    refine ⟨(m3, splice output k0 (acc i ++ slab K s v x i (v.len - i)),
      k0 + (acc i ++ slab K s v x i (v.len - i)).length), ?_, a3, ?_, ?_⟩
    · simp only [e1, Outcome.ok_bind, hb, hk]
      rw [e2]
      simp only [Outcome.ok_bind, h.rd hin, e3, Outcome.pure_eq]
    · rw [hsucc]
    · rw [hsucc]

theorem length_res2 (K : Kernel V) (s : State V) (v : Vars) (x : ℕ → V) :
    (res2 K s v x).length = 1 + v.len + v.len * (v.len + 1) / 2 := by
  simp [res2, length_pairs]; omega

end

end XCFun
