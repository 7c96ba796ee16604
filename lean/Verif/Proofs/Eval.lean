/-
What the loops of `xcfun_eval` compute, for any arithmetic.
-/
import Mathlib.Tactic.Ring
import Mathlib.Tactic.Linarith
import Verif.Model.Eval
import Verif.Spec.Layout

namespace XCFun
open Spec

universe u
variable {V : Type u}

set_option linter.unusedSectionVars false

/-! ### Buffers -/

theorem rdBuf_ok {buf : List V} {i : ℕ} (h : i < buf.length) : rdBuf buf i = .ok buf[i] := by
  simp [rdBuf, h]

theorem wrBuf_ok {buf : List V} {i : ℕ} (h : i < buf.length) (x : V) :
    wrBuf buf i x = .ok (buf.set i x) := by
  simp [wrBuf, h]

/-- Replace the entries from `k` on by `vals`. -/
def splice (o : List V) (k : ℕ) (vals : List V) : List V :=
  o.take k ++ vals ++ o.drop (k + vals.length)

theorem splice_nil (o : List V) (k : ℕ) : splice o k [] = o := by simp [splice]

theorem length_splice {o : List V} {k : ℕ} {vals : List V} (h : k + vals.length ≤ o.length) :
    (splice o k vals).length = o.length := by
  simp [splice]; omega

theorem getElem?_splice (o : List V) (k : ℕ) (vals : List V) (h : k + vals.length ≤ o.length)
    (q : ℕ) : (splice o k vals)[q]? =
      if q < k then o[q]? else if q < k + vals.length then vals[q - k]? else o[q]? := by
  simp only [splice, List.append_assoc, List.getElem?_append, List.length_take,
    List.getElem?_take, List.getElem?_drop]
  have : min k o.length = k := by omega
  rw [this]
  by_cases h1 : q < k
  · simp [h1]
  · by_cases h2 : q < k + vals.length
    · have : q - k < vals.length := by omega
      simp [h1, h2, this]
    · have h3 : ¬ q - k < vals.length := by omega
      have h4 : k + vals.length + (q - k - vals.length) = q := by omega
      simp [h1, h2, h3, h4]

theorem splice_snoc {o : List V} {k : ℕ} {vals : List V} (h : k + vals.length < o.length) (x : V) :
    wrBuf (splice o k vals) (k + vals.length) x = .ok (splice o k (vals ++ [x])) := by
  rw [wrBuf_ok (by rw [length_splice h.le]; exact h)]
  congr 1
  apply List.ext_getElem?
  intro q
  rw [List.getElem?_set, length_splice h.le, getElem?_splice _ _ _ h.le,
    getElem?_splice _ _ _ (by simp; omega)]
  simp only [List.length_append, List.length_singleton, List.getElem?_append]
  by_cases h0 : k + vals.length = q
  · subst h0
    have h1 : ¬ k + vals.length < k := by omega
    simp [h, h1]
  · by_cases h1 : q < k
    · simp [h0, h1]
    · by_cases h2 : q < k + vals.length
      · have h3 : q - k < vals.length := by omega
        have h4 : q < k + (vals.length + 1) := by omega
        simp [h0, h1, h2, h3, h4]
      · have h4 : ¬ q < k + (vals.length + 1) := by omega
        simp [h0, h1, h2, h4]

theorem splice_set {o : List V} {k i : ℕ} {vals : List V} (hi : i < k)
    (h : k + vals.length ≤ o.length) (x : V) :
    wrBuf (splice o k vals) i x = .ok (splice (o.set i x) k vals) := by
  rw [wrBuf_ok (by rw [length_splice h]; omega)]
  congr 1
  apply List.ext_getElem?
  intro q
  rw [List.getElem?_set, length_splice h, getElem?_splice _ _ _ h,
    getElem?_splice _ _ _ (by simpa using h)]
  simp only [List.getElem?_set]
  by_cases h0 : i = q
  · subst h0
    have : i < o.length := by omega
    simp [hi, this]
  · simp [h0]

/-! ### Loops -/

theorem forLoop_inv {σ : Type u} {body : ℕ → σ → Outcome σ} (I : ℕ → σ → Prop) :
    ∀ (cnt lo : ℕ) (s : σ), I lo s →
    (∀ i s, lo ≤ i → i < lo + cnt → I i s → ∃ s', body i s = .ok s' ∧ I (i + 1) s') →
    ∃ s', forLoop body cnt lo s = .ok s' ∧ I (lo + cnt) s'
  | 0, _, s, h, _ => ⟨s, rfl, h⟩
  | cnt + 1, lo, s, h, step => by
    obtain ⟨s1, h1, h2⟩ := step lo s (le_refl _) (by omega) h
    obtain ⟨s2, h3, h4⟩ := forLoop_inv I cnt (lo + 1) s1 h2
      fun i s hi hi' => step i s (by omega) (by omega)
    refine ⟨s2, ?_, ?_⟩
    · simp only [forLoop, h1, Outcome.ok_bind]; exact h3
    · have : lo + (cnt + 1) = lo + 1 + cnt := by omega
      rw [this]; exact h4

/-! ### Work arrays -/

theorem CT.known_map_some {N : ℕ} (t : CT V N) : (t.map some).known = true := by
  induction t with
  | leaf => rfl
  | node l h ihl ihh => simp [CT.map, CT.known, ihl, ihh]

theorem CT.vals_map_some [Zero V] {N : ℕ} (t : CT V N) : (t.map some).vals = t := by
  induction t with
  | leaf => rfl
  | node l h ihl ihh =>
    simp only [CT.vals] at ihl ihh
    simp [CT.map, CT.vals, ihl, ihh]

theorem CT.map_set {W : Type u} (f : V → W) {N : ℕ} (t : CT V N) (i : ℕ) (x : V) :
    (t.map f).set i (f x) = (t.set i x).map f := by
  induction t generalizing i with
  | leaf => rfl
  | node l h ihl ihh =>
    simp only [CT.map, CT.set]
    split <;> simp [CT.map, ihl, ihh]

/-- The first `n` slots hold the values `p`. -/
def Agree {N : ℕ} (n : ℕ) (m : Slots V N) (p : ℕ → CT V N) : Prop :=
  ∀ i < n, m i = (p i).map some

theorem put_agree {N n : ℕ} {m : Slots V N} {p : ℕ → CT V N} (h : Agree n m p) (hn : n ≤ 20)
    {i : ℕ} (hi : i < n) (t : CT V N) :
    ∃ m', put m i (t.map some) = .ok m' ∧ Agree n m' (upd p i t) := by
  refine ⟨upd m i (t.map some), ?_, ?_⟩
  · rw [put, if_pos (show i < MAX_INVARS by unfold MAX_INVARS; omega)]
  · intro l hl
    simp only [upd]
    split
    · rfl
    · exact h l hl

theorem putCoef_agree {N n : ℕ} {m : Slots V N} {p : ℕ → CT V N} (h : Agree n m p) (hn : n ≤ 20)
    {i : ℕ} (hi : i < n) {j : ℕ} (hj : j < 2 ^ N) (x : V) :
    ∃ m', putCoef m i j x = .ok m' ∧ Agree n m' (upd p i ((p i).set j x)) := by
  rw [putCoef, if_pos hj, h i hi, CT.map_set]
  exact put_agree h hn hi _

theorem putScalar_agree [Zero V] {N n : ℕ} {m : Slots V N} {p : ℕ → CT V N} (h : Agree n m p)
    (hn : n ≤ 20) {i : ℕ} (hi : i < n) (x : V) :
    ∃ m', putScalar m i x = .ok m' ∧ Agree n m' (upd p i (CT.const N x)) :=
  put_agree h hn hi _

theorem Agree.congr {N n : ℕ} {m : Slots V N} {p q : ℕ → CT V N} (h : Agree n m p)
    (hpq : ∀ i < n, p i = q i) : Agree n m q := fun i hi => by rw [h i hi, hpq i hi]

section
variable [Zero V] [One V] [Add V] [Sub V] [Mul V]

theorem loadInput_ok {N : ℕ} {input : List V} {n : ℕ} (hn : n ≤ 20) {x : ℕ → V}
    (hx : ∀ i < n, input[i]? = some (x i)) (m : Slots V N) :
    ∃ m', loadInput input n m = .ok m' ∧ Agree n m' (fun i => CT.const N (x i)) := by
  have := forLoop_inv (body := fun i m => do let x ← rdBuf input i; putScalar m i x)
    (fun k (m : Slots V N) => ∀ i < k, m i = (CT.const N (x i)).map some) n 0 m
    (by intro i hi; omega) ?_
  · obtain ⟨m', h1, h2⟩ := this
    exact ⟨m', h1, fun i hi => h2 i (by omega)⟩
  · intro i m _ hi hm
    refine ⟨upd m i ((CT.const N (x i)).map some), ?_, ?_⟩
    · simp only [rdBuf, hx i (by omega), Outcome.ok_bind, putScalar, put]
      rw [if_pos (show i < MAX_INVARS by unfold MAX_INVARS; omega)]
    · intro l hl
      simp only [upd]
      split
      · subst_vars; rfl
      · exact hm l (by omega)

/-- The numbers a kernel returns depend only on the slots it says it reads, and these are
    among the inputs of the variable set. -/
structure Kernel.Local (K : Kernel V) : Prop where
  lt : ∀ v sl, K.reads v = some sl → ∀ i ∈ sl, i < v.len
  congr : ∀ v sl, K.reads v = some sl → ∀ par id N (ρ ρ' : ℕ → CT V N),
    (∀ i ∈ sl, ρ i = ρ' i) → K.fp v par id N ρ = K.fp v par id N ρ'

/-- The weighted sum of the active functionals. -/
def total (K : Kernel V) (s : State V) (v : Vars) {N : ℕ} (out : CT V N) (ρ : ℕ → CT V N) :
    CT V N :=
  s.active.foldl (fun out id => out + CT.smul (s.settings id) (K.fp v s.settings id N ρ)) out

theorem total_congr {K : Kernel V} (hK : K.Local) (s : State V) {v : Vars} {sl : List ℕ}
    (hv : K.reads v = some sl) {N : ℕ} (out : CT V N) {ρ ρ' : ℕ → CT V N}
    (h : ∀ i ∈ sl, ρ i = ρ' i) : total K s v out ρ = total K s v out ρ' := by
  simp only [total]
  congr 1
  funext out id
  rw [hK.congr v sl hv s.settings id N ρ ρ' h]

theorem accumulate_ok {K : Kernel V} (hK : K.Local) {s : State V} {v : Vars} {sl : List ℕ}
    (hv : K.reads v = some sl) {N : ℕ} {m : Slots V N} {p : ℕ → CT V N}
    (hm : ∀ i ∈ sl, m i = (p i).map some) (out : CT V N) :
    accumulate K s v m out = .ok (total K s v out p) := by
  have hk : (sl.all fun i => (m i).known) = true := by
    rw [List.all_eq_true]
    intro i hi
    rw [hm i hi, CT.known_map_some]
  simp only [accumulate, hv, hk, if_true]
  congr 1
  exact total_congr hK s hv out fun i hi => by
    rw [hm i hi, CT.vals_map_some]

theorem accumulate_agree {K : Kernel V} (hK : K.Local) {s : State V} {v : Vars} {sl : List ℕ}
    (hv : K.reads v = some sl) {N : ℕ} {m : Slots V N} {p : ℕ → CT V N}
    (hm : Agree v.len m p) (out : CT V N) :
    accumulate K s v m out = .ok (total K s v out p) :=
  accumulate_ok hK hv (fun i hi => hm i (hK.lt v sl hv i hi)) out

/-! ### Partial derivatives -/

/-- Hypotheses of an evaluation: a local kernel, supported variables, enough input. -/
structure Ready (K : Kernel V) (v : Vars) (input : List V) (x : ℕ → V) : Prop where
  loc : K.Local
  sup : ∃ sl, K.reads v = some sl
  len : v.len ≤ 20
  inp : ∀ i < v.len, input[i]? = some (x i)

variable {K : Kernel V} {v : Vars} {input : List V} {x : ℕ → V}

theorem Ready.acc (h : Ready K v input x) (s : State V) {N : ℕ} {m : Slots V N}
    {p : ℕ → CT V N} (hm : Agree v.len m p) (out : CT V N) :
    accumulate K s v m out = .ok (total K s v out p) := by
  obtain ⟨sl, hv⟩ := h.sup
  exact accumulate_agree h.loc hv hm out

theorem Ready.rd (h : Ready K v input x) {i : ℕ} (hi : i < v.len) : rdBuf input i = .ok (x i) := by
  simp [rdBuf, h.inp i hi]

theorem evalOrder0_ok (h : Ready K v input x) (junk : Junk V) (s : State V) {output : List V}
    (ho : 1 ≤ output.length) :
    evalOrder0 K junk s v input output =
      .ok (splice output 0 [(total K s v 0 (fun i => CT.const 0 (x i))).get 0]) := by
  obtain ⟨m, hm, ha⟩ := loadInput_ok h.len h.inp (fresh junk 0)
  have := splice_snoc (o := output) (k := 0) (vals := []) (by simp; omega)
    ((total K s v 0 (fun i => CT.const 0 (x i))).get 0)
  simp only [splice_nil, List.length_nil, List.nil_append, Nat.zero_add] at this
  simp only [evalOrder0, hm, Outcome.ok_bind, h.acc s ha, CNST, this]

theorem seed1_upd (x : ℕ → V) {i : ℕ} :
    upd (fun l => CT.const 1 (x l)) i ((CT.const 1 (x i)).set VAR0 1) = seed1 x (some i) := by
  funext l
  simp only [upd, seed1, Spec.unit, Option.some.injEq]
  by_cases h : l = i
  · subst h; simp [CT.const, CT.set, VAR0]
  · have : ¬ i = l := fun h' => h h'.symm
    simp [h, this, CT.const]

theorem const2_eq (x : ℕ → V) : (fun l => CT.const 2 (x l)) = seed2 x none none := by
  funext l; simp [seed2, CT.const, Spec.unit]

theorem const3_eq (x : ℕ → V) : (fun l => CT.const 3 (x l)) = seed3 x none none none := by
  funext l; simp [seed3, seed2, CT.const, Spec.unit]

theorem seed2_set0 (x : ℕ → V) (o j : Option ℕ) (i : ℕ) (ho : o = none ∨ o = some i) :
    upd (seed2 x o j) i ((seed2 x o j i).set VAR0 1) = seed2 x (some i) j := by
  funext l
  simp only [upd, seed2, Spec.unit, Option.some.injEq]
  by_cases h : l = i
  · subst h; simp [CT.set, VAR0]
  · have : ¬ i = l := fun h' => h h'.symm
    rcases ho with rfl | rfl <;> simp [h, this]

theorem seed2_set1 (x : ℕ → V) (i : Option ℕ) (j : ℕ) :
    upd (seed2 x i none) j ((seed2 x i none j).set VAR1 1) = seed2 x i (some j) := by
  funext l
  simp only [upd, seed2, Spec.unit, Option.some.injEq]
  by_cases h : l = j
  · subst h; simp [CT.set, VAR1]
  · have : ¬ j = l := fun h' => h h'.symm
    simp [h, this]

theorem seed2_clear1 (x : ℕ → V) (i : Option ℕ) (j : ℕ) :
    upd (seed2 x i (some j)) j ((seed2 x i (some j) j).set VAR1 0) = seed2 x i none := by
  funext l
  simp only [upd, seed2, Spec.unit, Option.some.injEq]
  by_cases h : l = j
  · subst h; simp [CT.set, VAR1]
  · have : ¬ j = l := fun h' => h h'.symm
    simp [h, this]

theorem seed2_reset0 (x : ℕ → V) (i : ℕ) :
    upd (seed2 x (some i) none) i (CT.const 2 (x i)) = seed2 x none none := by
  funext l
  simp only [upd, seed2, Spec.unit, Option.some.injEq]
  by_cases h : l = i
  · subst h; simp [CT.const]
  · have : ¬ i = l := fun h' => h h'.symm
    simp [h, this]


/-- The runs of case 1 on pairs of inputs. -/
theorem order1_loop (h : Ready K v input x) (s : State V) {output : List V}
    (ho : 1 + v.len ≤ output.length) {m : Slots V 2} (hm : Agree v.len m (seed2 x none none)) :
    ∃ st, forLoop (order1Body K s v input) (v.len / 2) 0 (m, 0, output) = .ok st ∧
      st.2.1 = (if v.len / 2 = 0 then 0 else
        total K s v 0 (seed2 x (some (2 * (v.len / 2) - 2)) (some (2 * (v.len / 2) - 1)))) ∧
      st.2.2 = splice output 1 ((List.range (2 * (v.len / 2))).map fun i =>
        (total K s v 0 (seed2 x (some (2 * (i / 2))) (some (2 * (i / 2) + 1)))).get
          (if i % 2 = 0 then VAR0 else VAR1)) := by
  have := forLoop_inv (body := order1Body K s v input)
    (fun j st => Agree v.len st.1 (seed2 x none none) ∧
      st.2.1 = (if j = 0 then 0 else
        total K s v 0 (seed2 x (some (2 * j - 2)) (some (2 * j - 1)))) ∧
      st.2.2 = splice output 1 ((List.range (2 * j)).map fun i =>
        (total K s v 0 (seed2 x (some (2 * (i / 2))) (some (2 * (i / 2) + 1)))).get
          (if i % 2 = 0 then VAR0 else VAR1))) (v.len / 2) 0 (m, 0, output)
    ⟨hm, by simp, by simp [splice_nil]⟩ ?_
  · obtain ⟨st, h1, -, h2, h3⟩ := this
    exact ⟨st, h1, by simpa using h2, by simpa using h3⟩
  · rintro j ⟨m, out, o⟩ - hj ⟨ha, -, hb⟩
    simp only at ha hb
    have h0 : 2 * j < v.len := by omega
    have h1 : 2 * j + 1 < v.len := by omega
    obtain ⟨m1, e1, a1⟩ := putCoef_agree ha h.len h0 (j := VAR0) (by decide) 1
    rw [seed2_set0 x _ _ _ (Or.inl rfl)] at a1
    obtain ⟨m2, e2, a2⟩ := putCoef_agree a1 h.len h1 (j := VAR1) (by decide) 1
    rw [seed2_set1] at a2
    obtain ⟨m3, e3, a3⟩ := putScalar_agree a2 h.len h0 (x (2 * j))
    obtain ⟨m4, e4, a4⟩ := putScalar_agree a3 h.len h1 (x (2 * j + 1))
    have hl : ((List.range (2 * j)).map fun i =>
        (total K s v 0 (seed2 x (some (2 * (i / 2))) (some (2 * (i / 2) + 1)))).get
          (if i % 2 = 0 then VAR0 else VAR1)).length = 2 * j := by simp
    have w1 := splice_snoc (o := output) (k := 1) (vals := (List.range (2 * j)).map fun i =>
        (total K s v 0 (seed2 x (some (2 * (i / 2))) (some (2 * (i / 2) + 1)))).get
          (if i % 2 = 0 then VAR0 else VAR1)) (by rw [hl]; omega)
        ((total K s v 0 (seed2 x (some (2 * j)) (some (2 * j + 1)))).get VAR0)
    rw [hl, Nat.add_comm 1] at w1
    have w2 := splice_snoc (o := output) (k := 1) (vals := ((List.range (2 * j)).map fun i =>
        (total K s v 0 (seed2 x (some (2 * (i / 2))) (some (2 * (i / 2) + 1)))).get
          (if i % 2 = 0 then VAR0 else VAR1)) ++
          [(total K s v 0 (seed2 x (some (2 * j)) (some (2 * j + 1)))).get VAR0])
        (by rw [List.length_append, hl]; simp; omega)
        ((total K s v 0 (seed2 x (some (2 * j)) (some (2 * j + 1)))).get VAR1)
    rw [List.length_append, hl, List.length_singleton,
      show 1 + (2 * j + 1) = 2 * j + 2 by omega] at w2
    refine ⟨(m4, total K s v 0 (seed2 x (some (2 * j)) (some (2 * j + 1))), splice output 1
        (((List.range (2 * j)).map fun i =>
        (total K s v 0 (seed2 x (some (2 * (i / 2))) (some (2 * (i / 2) + 1)))).get
          (if i % 2 = 0 then VAR0 else VAR1)) ++
          [(total K s v 0 (seed2 x (some (2 * j)) (some (2 * j + 1)))).get VAR0] ++
          [(total K s v 0 (seed2 x (some (2 * j)) (some (2 * j + 1)))).get VAR1])), ?_, ?_, ?_, ?_⟩
    · simp only [order1Body, e1, e2, e3, e4, Outcome.ok_bind, h.acc s a2, h.rd h0, h.rd h1, hb,
        w1, w2, Outcome.pure_eq]
    · refine a4.congr fun l _ => ?_
      simp only [upd, seed2, Spec.unit, Option.some.injEq]
      by_cases hl1 : l = 2 * j + 1
      · subst hl1; simp [CT.const]
      · by_cases hl0 : l = 2 * j
        · subst hl0; simp [CT.const]
        · have g1 : ¬ 2 * j + 1 = l := fun h' => hl1 h'.symm
          have g0 : ¬ 2 * j = l := fun h' => hl0 h'.symm
          simp [hl1, hl0, g1, g0]
    · have : 2 * (j + 1) - 2 = 2 * j := by omega
      have h' : 2 * (j + 1) - 1 = 2 * j + 1 := by omega
      simp [this, h']
    · simp only [show 2 * (j + 1) = 2 * j + 1 + 1 by omega, List.range_succ, List.map_append,
        List.map_singleton]
      have g0 : (2 * j) % 2 = 0 := by omega
      have g1 : (2 * j + 1) % 2 = 1 := by omega
      have g2 : 2 * j / 2 = j := by omega
      have g3 : (2 * j + 1) / 2 = j := by omega
      simp only [g0, g1, g2, g3]
      simp

/-- Case 2, inner loop: a row of second derivatives. -/
theorem order2_row (h : Ready K v input x) (s : State V) {output : List V} {i k0 : ℕ}
    (hi : i < v.len) (done : List V)
    (ho : k0 + done.length + (v.len - i) ≤ output.length) {m : Slots V 2} {out : CT V 2}
    (hm : Agree v.len m (seed2 x (some i) none)) :
    ∃ st, forLoop (order2Body K s v) (v.len - i) i
        (m, out, splice output k0 done, k0 + done.length) = .ok st ∧
      Agree v.len st.1 (seed2 x (some i) none) ∧
      st.2.1 = total K s v 0 (seed2 x (some i) (some (v.len - 1))) ∧
      st.2.2.1 = splice output k0 (done ++ (List.range' i (v.len - i)).map fun j =>
        (total K s v 0 (seed2 x (some i) (some j))).get 3) ∧
      st.2.2.2 = k0 + done.length + (v.len - i) := by
  have := forLoop_inv (body := order2Body K s v)
    (fun j st => Agree v.len st.1 (seed2 x (some i) none) ∧
      (i < j → st.2.1 = total K s v 0 (seed2 x (some i) (some (j - 1)))) ∧
      st.2.2.1 = splice output k0 (done ++ (List.range' i (j - i)).map fun j =>
        (total K s v 0 (seed2 x (some i) (some j))).get 3) ∧
      st.2.2.2 = k0 + done.length + (j - i)) (v.len - i) i
      (m, out, splice output k0 done, k0 + done.length)
    ⟨hm, by omega, by simp, by simp⟩ ?_
  · obtain ⟨st, h1, h2, h3, h4, h5⟩ := this
    have e : i + (v.len - i) = v.len := by omega
    rw [e] at h3 h4 h5
    exact ⟨st, h1, h2, h3 hi, h4, h5⟩
  · rintro j ⟨m, out, o, k⟩ hij hj ⟨ha, -, hb, hk⟩
    simp only at ha hb hk
    have hjn : j < v.len := by omega
    obtain ⟨m1, e1, a1⟩ := putCoef_agree ha h.len hjn (j := VAR1) (by decide) 1
    rw [seed2_set1] at a1
    obtain ⟨m2, e2, a2⟩ := putCoef_agree a1 h.len hjn (j := VAR1) (by decide) 0
    rw [seed2_clear1] at a2
    have hl : (done ++ (List.range' i (j - i)).map fun j =>
        (total K s v 0 (seed2 x (some i) (some j))).get 3).length = done.length + (j - i) := by simp
    have w := splice_snoc (o := output) (k := k0) (vals := done ++ (List.range' i (j - i)).map fun j =>
        (total K s v 0 (seed2 x (some i) (some j))).get 3) (by rw [hl]; omega)
        ((total K s v 0 (seed2 x (some i) (some j))).get (VAR0 ||| VAR1))
    rw [hl, ← Nat.add_assoc, ← hk] at w
    refine ⟨(m2, total K s v 0 (seed2 x (some i) (some j)), splice output k0
        ((done ++ (List.range' i (j - i)).map fun j =>
        (total K s v 0 (seed2 x (some i) (some j))).get 3) ++
        [(total K s v 0 (seed2 x (some i) (some j))).get (VAR0 ||| VAR1)]), k + 1), ?_, a2, ?_, ?_, ?_⟩
    · simp only [order2Body, e1, e2, Outcome.ok_bind, h.acc s a1, hb, w, Outcome.pure_eq]
    · intro _; simp
    · have : j + 1 - i = (j - i) + 1 := by omega
      have e : i + (j - i) = j := by omega
      simp [this, List.range'_concat, e, VAR0, VAR1]
    · simp only [hk]; omega

/-- What case 2 writes. -/
def res2 (K : Kernel V) (s : State V) (v : Vars) (x : ℕ → V) : List V :=
  [(total K s v 0 (seed2 x (some (v.len - 1)) (some (v.len - 1)))).get 0]
    ++ (List.range v.len).map (fun i => (total K s v 0 (seed2 x (some i) (some (v.len - 1)))).get 1)
    ++ (pairs v.len).map (fun p => (total K s v 0 (seed2 x (some p.1) (some p.2))).get 3)

theorem length_pairs (n : ℕ) : (pairs n).length = n * (n + 1) / 2 := by
  have : ∀ m ≤ n, ((List.range m).flatMap fun i => (List.range' i (n - i)).map fun j => (i, j)).length * 2
      = m * (2 * n - m + 1) := by
    intro m hm
    induction m with
    | zero => simp
    | succ m ih =>
      have h := ih (by omega)
      rw [List.range_succ, List.flatMap_append, List.length_append, Nat.add_mul, h]
      simp
      obtain ⟨k, rfl⟩ : ∃ k, n = m + 1 + k := ⟨n - (m + 1), by omega⟩
      have e1 : 2 * (m + 1 + k) - m = m + 2 + 2 * k := by omega
      have e2 : m + 1 + k - m = k + 1 := by omega
      have e3 : 2 * (m + 1 + k) - (m + 1) = m + 1 + 2 * k := by omega
      rw [e1, e2, e3]; ring
  have h := this n le_rfl
  have e : 2 * n - n = n := by omega
  rw [e] at h
  simp only [pairs]
  omega

theorem evalOrder2_ok (h : Ready K v input x) (hn : 0 < v.len) (junk : Junk V) (s : State V)
    {output : List V} (ho : 1 + v.len + v.len * (v.len + 1) / 2 ≤ output.length) :
    evalOrder2 K junk s v input output = .ok (splice output 0 (res2 K s v x)) := by
  obtain ⟨m, hm, ha⟩ := loadInput_ok h.len h.inp (fresh junk 2)
  rw [const2_eq] at ha
  set rows : ℕ → List V := fun i => ((List.range i).flatMap fun i =>
    (List.range' i (v.len - i)).map fun j => (i, j)).map
      (fun p => (total K s v 0 (seed2 x (some p.1) (some p.2))).get 3) with hrows
  set firsts : ℕ → List V := fun i => (List.range i).map
    (fun i => (total K s v 0 (seed2 x (some i) (some (v.len - 1)))).get 1) with hfirsts
  have hlr : ∀ i ≤ v.len, (rows i).length + v.len + 1 ≤ output.length := by
    intro i hi
    have h1 : (rows i).length ≤ (rows v.len).length := by
      obtain ⟨k, hk⟩ : ∃ k, v.len = i + k := ⟨v.len - i, by omega⟩
      simp only [hrows, List.length_map]
      conv_rhs => rw [hk, List.range_add, List.flatMap_append, List.length_append]
      rw [← hk]
      omega
    have h2 : (rows v.len).length = v.len * (v.len + 1) / 2 := by
      rw [← length_pairs]; simp [hrows, pairs]
    omega
  have hlf : ∀ i, (firsts i).length = i := by intro i; simp [hfirsts]
  have hrow_succ : ∀ i, rows (i + 1) = rows i ++ (List.range' i (v.len - i)).map fun j =>
      (total K s v 0 (seed2 x (some i) (some j))).get 3 := by
    intro i
    simp [hrows, List.range_succ, List.flatMap_append, Function.comp_def]
  have loop := forLoop_inv (body := fun i (st : Slots V 2 × CT V 2 × List V × ℕ) => do
      let m ← putCoef st.1 i VAR0 1
      let st ← forLoop (order2Body K s v) (v.len - i) i (m, st.2)
      let o ← wrBuf st.2.2.1 (i + 1) (st.2.1.get VAR0)
      let x ← rdBuf input i
      let m ← putScalar st.1 i x
      pure (m, st.2.1, o, st.2.2.2))
    (fun i st => Agree v.len st.1 (seed2 x none none) ∧
      (0 < i → st.2.1 = total K s v 0 (seed2 x (some (i - 1)) (some (v.len - 1)))) ∧
      st.2.2.1 = splice (splice output 1 (firsts i)) (v.len + 1) (rows i) ∧
      st.2.2.2 = v.len + 1 + (rows i).length) v.len 0 (m, 0, output, v.len + 1)
    ⟨ha, by omega, by simp [hrows, hfirsts, splice_nil], by simp [hrows]⟩ ?_
  · obtain ⟨⟨m', out', o', k'⟩, h1, -, h3, h4, -⟩ := loop
    simp only [Nat.zero_add] at h3 h4
    have h3 := h3 hn
    have hw : wrBuf o' 0 (out'.get CNST) = .ok (splice output 0 (res2 K s v x)) := by
      have l1 : (splice output 1 (firsts v.len)).length = output.length :=
        length_splice (by rw [hlf]; have := hlr v.len le_rfl; omega)
      rw [h4, splice_set (by omega) (by rw [l1]; have := hlr v.len le_rfl; omega), h3]
      congr 1
      have e1 : firsts v.len = (List.range v.len).map (fun i =>
        (total K s v 0 (seed2 x (some i) (some (v.len - 1)))).get 1) := rfl
      have e2 : rows v.len = (pairs v.len).map (fun p =>
        (total K s v 0 (seed2 x (some p.1) (some p.2))).get 3) := rfl
      have hr := hlr v.len le_rfl
      obtain ⟨o0, os, rfl⟩ : ∃ o0 os, output = o0 :: os := by
        cases output with
        | nil => simp at hr
        | cons a b => exact ⟨a, b, rfl⟩
      simp only [List.length_cons] at hr
      have hres : (res2 K s v x) = [(total K s v 0 (seed2 x (some (v.len - 1)) (some (v.len - 1)))).get 0]
          ++ firsts v.len ++ rows v.len := rfl
      rw [hres]
      apply List.ext_getElem?
      intro q
      have hh := hlf v.len
      have l2 : ((splice (o0 :: os) 1 (firsts v.len)).set 0
          ((total K s v 0 (seed2 x (some (v.len - 1)) (some (v.len - 1)))).get CNST)).length = os.length + 1 := by
        rw [List.length_set, l1]; rfl
      rw [getElem?_splice _ _ _ (by rw [l2]; omega), getElem?_splice _ _ _ (by
        simp only [List.length_append, List.length_cons, List.length_nil]; omega)]
      rw [List.getElem?_set, l1, getElem?_splice _ _ _ (by simp only [List.length_cons]; omega)]
      simp only [List.length_append, List.length_cons, List.length_nil, Nat.not_lt_zero, if_false,
        Nat.zero_add, Nat.sub_zero, List.getElem?_append, hh]
      by_cases hq0 : q = 0
      · subst hq0
        simp [CNST]
      · obtain ⟨q, rfl⟩ : ∃ r, q = r + 1 := ⟨q - 1, by omega⟩
        by_cases hq1 : q < v.len
        · have a1 : q + 1 < v.len + 1 := by omega
          have a2 : q + 1 < 1 + v.len := by omega
          have a3 : q + 1 < 1 + v.len + (rows v.len).length := by omega
          simp [a1, a2, a3]
        · by_cases hq2 : q < v.len + (rows v.len).length
          · have a1 : ¬ q + 1 < v.len + 1 := by omega
            have a2 : ¬ q + 1 < 1 + v.len := by omega
            have a3 : q + 1 < 1 + v.len + (rows v.len).length := by omega
            have a4 : q + 1 < v.len + 1 + (rows v.len).length := by omega
            have a5 : q + 1 - (v.len + 1) = q + 1 - (1 + v.len) := by omega
            simp [a1, a2, a3, a4, a5]
          · have a1 : ¬ q + 1 < v.len + 1 := by omega
            have a2 : ¬ q + 1 < 1 + v.len := by omega
            have a3 : ¬ q + 1 < 1 + v.len + (rows v.len).length := by omega
            have a4 : ¬ q + 1 < v.len + 1 + (rows v.len).length := by omega
            simp [a1, a2, a3, a4]
    simp only [evalOrder2, hm, Outcome.ok_bind, h1, hw]
  · rintro i ⟨m, out, o, k⟩ - hi ⟨ha, -, hb, hk⟩
    simp only at ha hb hk
    have hin : i < v.len := by omega
    have hr1 := hlr (i + 1) (by omega)
    have hr0 := hlr i (by omega)
    have hrl : (rows (i + 1)).length = (rows i).length + (v.len - i) := by
      rw [hrow_succ]; simp
    have l1 : (splice output 1 (firsts i)).length = output.length :=
      length_splice (by rw [hlf]; omega)
    obtain ⟨m1, e1, a1⟩ := putCoef_agree ha h.len hin (j := VAR0) (by decide) 1
    rw [seed2_set0 x _ _ _ (Or.inl rfl)] at a1
    obtain ⟨⟨m2, out2, o2, k2⟩, e2, a2, r1, r2, r3⟩ := order2_row h s (output := splice output 1 (firsts i))
      (k0 := v.len + 1) hin (rows i) (by rw [l1]; omega) (out := out) a1
    simp only at a2 r1 r2 r3
    rw [← hrow_succ] at r2
    obtain ⟨m3, e3, a3⟩ := putScalar_agree a2 h.len hin (x i)
    rw [seed2_reset0] at a3
    have w : wrBuf o2 (i + 1) (out2.get VAR0) =
        .ok (splice (splice output 1 (firsts (i + 1))) (v.len + 1) (rows (i + 1))) := by
      rw [r2, splice_set (by omega) (by rw [l1]; omega), r1]
      congr 2
      have := splice_snoc (o := output) (k := 1) (vals := firsts i) (by rw [hlf]; omega)
        ((total K s v 0 (seed2 x (some i) (some (v.len - 1)))).get 1)
      rw [hlf, wrBuf_ok (by rw [l1]; omega)] at this
      have h' := Outcome.ok.inj this
      rw [Nat.add_comm i 1]
      simp only [VAR0]
      rw [h']
      simp [hfirsts, List.range_succ, Nat.add_comm 1 i]
    refine ⟨(m3, out2, splice (splice output 1 (firsts (i + 1))) (v.len + 1) (rows (i + 1)), k2),
      ?_, a3, ?_, ?_, ?_⟩
    · simp only [e1, Outcome.ok_bind, hb, hk, e2, w, h.rd hin, e3, Outcome.pure_eq]
    · intro _; simp [r1]
    · rfl
    · simp only [r3, hrl]; omega

end

end XCFun
