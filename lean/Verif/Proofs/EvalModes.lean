/-
Contracted and potential mode: the complete output, for any arithmetic.
-/
import Mathlib.Tactic.IntervalCases
import Verif.Proofs.EvalPartial
import Verif.Proofs.CT

namespace XCFun
open Spec

universe u
variable {V : Type u}

set_option linter.unusedSectionVars false

theorem CT.get_map {W : Type u} (f : V → W) {N : ℕ} (t : CT V N) (i : ℕ) :
    (t.map f).get i = f (t.get i) := by
  induction t generalizing i with
  | leaf => rfl
  | node l h ihl ihh =>
    simp only [CT.map, CT.get]
    split
    · exact ihl i
    · exact ihh _

section
variable [Zero V] [One V] [Add V] [Sub V] [Mul V]
variable {K : Kernel V} {v : Vars} {input : List V} {x : ℕ → V}

theorem accumulate_die (s : State V) (hv : K.reads v = none) {N : ℕ} (m : Slots V N) (out : CT V N) :
    accumulate K s v m out = .die := by simp [accumulate, hv]

theorem copy_out {N : ℕ} (out : CT V N) {output : List V} {c : ℕ} (ho : c ≤ output.length) :
    forLoop (fun i o => wrBuf o i (out.get i)) c 0 output =
      .ok (splice output 0 ((List.range c).map out.get)) := by
  have := forLoop_inv (body := fun i o => wrBuf o i (out.get i))
    (fun i o => o = splice output 0 ((List.range i).map out.get)) c 0 output (by simp [splice_nil]) ?_
  · obtain ⟨o, h1, h2⟩ := this
    rw [h1, h2]; simp
  · rintro i o - hi rfl
    refine ⟨_, ?_, rfl⟩
    have := splice_snoc (o := output) (k := 0) (vals := (List.range i).map out.get)
      (by simp; omega) (out.get i)
    simp only [List.length_map, List.length_range, Nat.zero_add] at this
    rw [this]; simp [List.range_succ]

/-- The seeds of contracted mode: coefficient `c` of input `i` is `input[i*2^N + c]`. -/
def seedC (N : ℕ) (y : ℕ → V) (i : ℕ) : CT V N := CT.ofFn N fun c => y (i * 2 ^ N + c)

theorem loadC_ok {N n : ℕ} (hn : n ≤ 20) {y : ℕ → V}
    (hy : ∀ k < n * 2 ^ N, input[k]? = some (y k)) (m : Slots V N) :
    ∃ m', forLoop (fun i st =>
        forLoop (fun j (st : Slots V N × ℕ) => do
          let x ← rdBuf input st.2
          let m ← putCoef st.1 i j x
          pure (m, st.2 + 1)) (2 ^ N) 0 st) n 0 (m, 0) = .ok (m', n * 2 ^ N) ∧
      Agree n m' (seedC N y) := by
  have := forLoop_inv (body := fun i st =>
        forLoop (fun j (st : Slots V N × ℕ) => do
          let x ← rdBuf input st.2
          let m ← putCoef st.1 i j x
          pure (m, st.2 + 1)) (2 ^ N) 0 st)
    (fun i (st : Slots V N × ℕ) => Agree i st.1 (seedC N y) ∧ st.2 = i * 2 ^ N) n 0 (m, 0)
    ⟨fun i hi => by omega, by simp⟩ ?_
  · obtain ⟨⟨m', k⟩, h1, h2, h3⟩ := this
    simp only [Nat.zero_add] at h2 h3
    subst h3
    exact ⟨m', h1, h2⟩
  · rintro i ⟨m, k⟩ - hi ⟨ha, hk⟩
    simp only at ha hk
    subst hk
    have inner := forLoop_inv (body := fun j (st : Slots V N × ℕ) => do
          let x ← rdBuf input st.2
          let m ← putCoef st.1 i j x
          pure (m, st.2 + 1))
      (fun j (st : Slots V N × ℕ) => Agree i st.1 (seedC N y) ∧ st.2 = i * 2 ^ N + j ∧
        ∀ c < j, (st.1 i).get c = some (y (i * 2 ^ N + c))) (2 ^ N) 0 (m, i * 2 ^ N)
      ⟨ha, by simp, fun c hc => by omega⟩ ?_
    · obtain ⟨⟨m', k⟩, h1, h2, h3, h4⟩ := inner
      simp only [Nat.zero_add] at h2 h3 h4
      refine ⟨_, h1, ?_, ?_⟩
      · intro l hl
        by_cases h : l = i
        · subst h
          refine CT.ext_get fun c hc => ?_
          rw [h4 c hc, CT.get_map, seedC, CT.get_ofFn _ hc]
        · exact h2 l (by omega)
      · simp only [h3]; ring
    · rintro j ⟨m, k⟩ - hj ⟨ha, hk, hc⟩
      simp only at ha hk hc
      subst hk
      have hlt : i * 2 ^ N + j < n * 2 ^ N := by
        have : (i + 1) * 2 ^ N ≤ n * 2 ^ N := Nat.mul_le_mul_right _ (by omega)
        rw [Nat.add_mul] at this; omega
      refine ⟨(upd m i ((m i).set j (some (y (i * 2 ^ N + j)))), i * 2 ^ N + j + 1), ?_, ?_, ?_, ?_⟩
      · have : i < MAX_INVARS := by unfold MAX_INVARS; omega
        have hj' : j < 2 ^ N := by omega
        simp [rdBuf, hy _ hlt, putCoef, hj', put, this]
      · intro l hl
        have : ¬ l = i := by omega
        simp only [upd, if_neg this]
        exact ha l hl
      · simp only; omega
      · intro c hcj
        simp only [upd, if_true]
        rw [CT.get_set _ (by omega) (by omega)]
        by_cases h : c = j
        · subst h; simp
        · rw [if_neg h]; exact hc c (by omega)

theorem evalContractedN_ok (hK : K.Local) {sl : List ℕ} (hv : K.reads v = some sl)
    (hlen : v.len ≤ 20) {N : ℕ} {y : ℕ → V}
    (hy : ∀ k < v.len * 2 ^ N, input[k]? = some (y k)) (junk : Junk V) (s : State V)
    {output : List V} (ho : 2 ^ N ≤ output.length) :
    evalContractedN K junk s v input output N =
      .ok (splice output 0 ((List.range (2 ^ N)).map (total K s v 0 (seedC N y)).get)) := by
  obtain ⟨m, h1, ha⟩ := loadC_ok hlen hy (fresh junk N)
  simp only [evalContractedN]
  rw [h1]
  simp only [Outcome.ok_bind, accumulate_agree hK hv ha]
  exact copy_out _ ho

/-! Potential mode -/

/-- Energy and density derivatives of potential mode. -/
def resPot (K : Kernel V) (s : State V) (v : Vars) (x : ℕ → V) : List V :=
  let npot := (potentialShape v.len).1
  let inpos := (potentialShape v.len).2
  [(total K s v 0 (seed1 x (some ((npot - 1) * inpos)))).get 0]
    ++ (List.range npot).map fun j => (total K s v 0 (seed1 x (some (j * inpos)))).get 1

theorem potentialShape_lt {n j : ℕ} (hn : 0 < n) (hj : j < (potentialShape n).1) :
    j * (potentialShape n).2 < n := by
  unfold potentialShape at hj ⊢
  split at hj <;> rename_i h
  · simp only [if_pos h]; omega
  · simp only [if_neg h]
    simp only at hj
    split
    · rename_i h2; subst h2; omega
    · split
      · rename_i h3 h4; subst h4; omega
      · omega

theorem npot_pos (n : ℕ) : 0 < (potentialShape n).1 := by
  unfold potentialShape; split <;> simp

theorem const1_eq (x : ℕ → V) : (fun l => CT.const 1 (x l)) = seed1 x none := by
  funext l; simp [seed1, CT.const, Spec.unit]

theorem seed1_reset (x : ℕ → V) (i : ℕ) :
    upd (seed1 x (some i)) i (CT.const 1 (x i)) = fun l => CT.const 1 (x l) := by
  funext l
  simp only [upd, seed1, Spec.unit, Option.some.injEq]
  by_cases h : l = i
  · subst h; simp
  · have : ¬ i = l := fun h' => h h'.symm
    simp [h, this, CT.const]

theorem evalPotentialLda_ok (h : Ready K v input x) (hn : 0 < v.len) (junk : Junk V) (s : State V)
    {output : List V} (ho : 1 + (potentialShape v.len).1 ≤ output.length) :
    evalPotentialLda K junk s v input output = .ok (splice output 0 (resPot K s v x)) := by
  obtain ⟨m, hm, ha⟩ := loadInput_ok h.len h.inp (fresh junk 1)
  set npot := (potentialShape v.len).1 with hnp
  set inpos := (potentialShape v.len).2 with hip
  have loop := forLoop_inv (body := fun j (st : Slots V 1 × CT V 1 × List V) => do
      let m ← putCoef st.1 (j * inpos) VAR0 1
      let out ← accumulate K s v m 0
      let x ← rdBuf input (j * inpos)
      let m ← putScalar m (j * inpos) x
      let o ← wrBuf st.2.2 (j + 1) (out.get VAR0)
      pure (m, out, o))
    (fun j st => Agree v.len st.1 (fun l => CT.const 1 (x l)) ∧
      (0 < j → st.2.1 = total K s v 0 (seed1 x (some ((j - 1) * inpos)))) ∧
      st.2.2 = splice output 1 ((List.range j).map fun j =>
        (total K s v 0 (seed1 x (some (j * inpos)))).get 1)) npot 0 (m, 0, output)
    ⟨ha, by omega, by simp [splice_nil]⟩ ?_
  · obtain ⟨⟨m', out', o'⟩, h1, -, h2, h3⟩ := loop
    simp only [Nat.zero_add] at h2 h3
    have h2 := h2 (npot_pos _)
    have w := splice_cons (o := output) (vals := (List.range npot).map fun j =>
        (total K s v 0 (seed1 x (some (j * inpos)))).get 1) (by simpa using ho) (out'.get CNST)
    simp only [evalPotentialLda, hm, Outcome.ok_bind]
    rw [← hnp, ← hip, h1]
    simp only [Outcome.ok_bind, h3, w]
    rw [h2]; rfl
  · rintro j ⟨m, out, o⟩ - hj ⟨ha, -, hb⟩
    simp only at ha hb
    have hjn : j * inpos < v.len := potentialShape_lt hn (by omega)
    obtain ⟨m1, e1, a1⟩ := putCoef_agree ha h.len hjn (j := VAR0) (by decide) 1
    rw [seed1_upd] at a1
    obtain ⟨m2, e2, a2⟩ := putScalar_agree a1 h.len hjn (x (j * inpos))
    rw [seed1_reset] at a2
    have w := splice_snoc (o := output) (k := 1) (vals := (List.range j).map fun j =>
        (total K s v 0 (seed1 x (some (j * inpos)))).get 1) (by simp; omega)
        ((total K s v 0 (seed1 x (some (j * inpos)))).get VAR0)
    simp only [List.length_map, List.length_range, Nat.add_comm 1 j] at w
    refine ⟨(m2, total K s v 0 (seed1 x (some (j * inpos))), splice output 1
      ((List.range j).map (fun j => (total K s v 0 (seed1 x (some (j * inpos)))).get 1) ++
        [(total K s v 0 (seed1 x (some (j * inpos)))).get VAR0])), ?_, a2, ?_, ?_⟩
    · simp only [e1, Outcome.ok_bind, h.acc s a1, h.rd hjn, e2, hb, w, Outcome.pure_eq]
    · intro _; simp
    · simp [List.range_succ, VAR0]

/-- Seeds of one run of the GGA potential: `VAR0` is the displacement in one direction (`D`),
    `VAR1` sits on gradient component `g`. -/
def seedG (x D : ℕ → V) (g l : ℕ) : CT V 2 :=
  .node (.node (.leaf (x l)) (.leaf (D l))) (.node (.leaf (unit (some g) l)) (.leaf 0))

/-- Positions of the derivatives of density and gradient in direction `k`. -/
def dpos (k : ℕ × ℕ × ℕ × ℕ) (l : ℕ) : ℕ :=
  if l = 0 then k.1 else if l = 1 then k.2.1 else if l = 2 then k.2.2.1 else k.2.2.2

theorem seed_ok (hi : ∀ i < v.len, input[i]? = some (x i)) (hlen : v.len ≤ 20) (m : Slots V 2)
    {i k : ℕ} (h1 : i < v.len) (h2 : k < v.len) :
    seed input m i k = .ok (upd m i ((CT.node (.node (.leaf (x i)) (.leaf (x k)))
      (.node (.leaf 0) (.leaf 0)) : CT V 2).map some)) := by
  have : i < MAX_INVARS := by unfold MAX_INVARS; omega
  simp [seed, rdBuf, hi i h1, hi k h2, putVar, put, this, CT.const, CT.set, VAR0]

theorem seed4_ok (hi : ∀ i < v.len, input[i]? = some (x i)) (hlen : v.len ≤ 20) (m : Slots V 2)
    {off : ℕ} {k : ℕ × ℕ × ℕ × ℕ} (h0 : 3 + off < v.len) (h1 : k.1 + off < v.len)
    (h2 : k.2.1 + off < v.len) (h3 : k.2.2.1 + off < v.len) (h4 : k.2.2.2 + off < v.len) :
    ∃ m', seed4 input m off k = .ok m' ∧
      (∀ l < 4, m' (l + off) = (CT.node (.node (.leaf (x (l + off))) (.leaf (x (dpos k l + off))))
        (.node (.leaf 0) (.leaf 0)) : CT V 2).map some) ∧
      ∀ l, l < off ∨ 4 + off ≤ l → m' l = m l := by
  let w : ℕ → ℕ → CT (Option V) 2 := fun i k => ((CT.node (.node (.leaf (x i)) (.leaf (x k)))
      (.node (.leaf 0) (.leaf 0)) : CT V 2).map some)
  refine ⟨upd (upd (upd (upd m (0 + off) (w (0 + off) (k.1 + off)))
    (1 + off) (w (1 + off) (k.2.1 + off))) (2 + off) (w (2 + off) (k.2.2.1 + off)))
    (3 + off) (w (3 + off) (k.2.2.2 + off)), ?_, ?_, ?_⟩
  · simp only [seed4]
    rw [seed_ok hi hlen m (by omega) h1, Outcome.ok_bind, seed_ok hi hlen _ (by omega) h2,
      Outcome.ok_bind, seed_ok hi hlen _ (by omega) h3, Outcome.ok_bind,
      seed_ok hi hlen _ (by omega) h4]
  · intro l hl
    interval_cases l <;> simp [upd, dpos, w]
  · intro l hl
    have : ¬ l = 0 + off := by omega
    have : ¬ l = 1 + off := by omega
    have : ¬ l = 2 + off := by omega
    have : ¬ l = 3 + off := by omega
    simp only [upd, if_neg, *, not_false_eq_true]

theorem zeroHessian_ok (m : Slots V 2) :
    ∃ m', zeroHessian m = .ok m' ∧
      (∀ l, 4 ≤ l → l < 10 → m' l = (CT.const 2 (0 : V)).map some) ∧
      ∀ l, l < 4 ∨ 10 ≤ l → m' l = m l := by
  have := forLoop_inv (body := fun i (m : Slots V 2) => putScalar m i 0)
    (fun i m' => (∀ l, 4 ≤ l → l < i → m' l = (CT.const 2 (0 : V)).map some) ∧
      ∀ l, l < 4 ∨ i ≤ l → m' l = m l) 6 4 m ⟨fun l h1 h2 => by omega, fun l _ => rfl⟩ ?_
  · obtain ⟨m', h1, h2⟩ := this
    exact ⟨m', h1, h2⟩
  · rintro i m' h1 h2 ⟨h3, h4⟩
    refine ⟨upd m' i ((CT.const 2 (0 : V)).map some), ?_, ?_, ?_⟩
    · have : i < MAX_INVARS := by unfold MAX_INVARS; omega
      simp [putScalar, put, this]
    · intro l hl hl'
      simp only [upd]
      split
      · rfl
      · exact h3 l hl (by omega)
    · intro l hl
      have : ¬ l = i := by omega
      simp only [upd, if_neg this]
      exact h4 l (by omega)

theorem putVar1_ok {m : Slots V 2} {g : ℕ} (hg : g < 20) {a b : V}
    (hm : m g = (CT.node (.node (.leaf a) (.leaf b)) (.node (.leaf 0) (.leaf 0)) : CT V 2).map some) :
    putCoef m g VAR1 1 = .ok (upd m g ((CT.node (.node (.leaf a) (.leaf b))
      (.node (.leaf 1) (.leaf 0)) : CT V 2).map some)) := by
  have : g < MAX_INVARS := by unfold MAX_INVARS; omega
  rw [putCoef, if_pos (by decide), put, if_pos this, hm]
  simp [CT.map, CT.set, VAR1]

/-- The value of slot `l` in the run for direction `k` and component `g`, restricted case. -/
def seedN (x : ℕ → V) (k : ℕ × ℕ × ℕ × ℕ) (g l : ℕ) : CT V 2 :=
  if l < 4 then seedG x (fun l => x (dpos k l)) g l else CT.const 2 0

theorem ggaN_x (hi : ∀ i < v.len, input[i]? = some (x i)) (hlen : v.len = 10) (m : Slots V 2)
    {k : ℕ × ℕ × ℕ × ℕ} (hk : k.1 < 10 ∧ k.2.1 < 10 ∧ k.2.2.1 < 10 ∧ k.2.2.2 < 10)
    {g : ℕ} (hg : 1 ≤ g ∧ g < 4)
    (hz : ∀ l, 4 ≤ l → l < 10 → m l = (CT.const 2 (0 : V)).map some) :
    ∃ m1 m2, seed4 input m 0 k = .ok m1 ∧ putCoef m1 g VAR1 1 = .ok m2 ∧
      Agree 10 m2 (seedN x k g) := by
  obtain ⟨m1, e1, s1, r1⟩ := seed4_ok (x := x) hi (by omega) m (off := 0) (k := k) (by omega)
    (by omega) (by omega) (by omega) (by omega)
  simp only [Nat.add_zero] at s1
  refine ⟨m1, _, e1, putVar1_ok (by omega) (s1 g hg.2), ?_⟩
  intro l hl
  simp only [upd, seedN]
  by_cases hlg : l = g
  · subst hlg
    simp [hg.2, seedG, Spec.unit]
  · have : ¬ g = l := fun h => hlg h.symm
    rw [if_neg hlg]
    by_cases h4 : l < 4
    · rw [if_pos h4, s1 l h4]; simp [seedG, Spec.unit, this]
    · rw [if_neg h4, r1 l (by omega), hz l (by omega) hl]

/-- The three runs of the restricted GGA potential, accumulated. -/
def ggaN (K : Kernel V) (s : State V) (v : Vars) (x : ℕ → V) : CT V 2 :=
  total K s v (total K s v (total K s v 0 (seedN x dirX 1)) (seedN x dirY 2)) (seedN x dirZ 3)

theorem evalPotentialGgaN_ok (h : Ready K v input x) (hlen : v.len = 10) (junk : Junk V)
    (s : State V) {output : List V} {e1 : V} (ho : output[1]? = some e1) :
    evalPotentialGgaN K junk s v input output =
      .ok (output.set 1 (e1 - (ggaN K s v x).get 3)) := by
  obtain ⟨ma, ea, sa, ra⟩ := seed4_ok (x := x) h.inp h.len (fresh junk 2) (off := 0) (k := dirX)
    (by omega) (by simp [dirX]; omega) (by simp [dirX]; omega) (by simp [dirX]; omega)
    (by simp [dirX]; omega)
  obtain ⟨mb, eb, sb, rb⟩ := zeroHessian_ok ma
  have hb1 : mb 1 = _ := (rb 1 (by omega)).trans (sa 1 (by omega))
  have ec := putVar1_ok (by omega) hb1
  have ac : Agree v.len (upd mb 1 ((CT.node (.node (.leaf (x (1 + 0))) (.leaf (x (dpos dirX 1 + 0))))
      (.node (.leaf 1) (.leaf 0)) : CT V 2).map some)) (seedN x dirX 1) := by
    intro l hl
    simp only [upd, seedN]
    by_cases hlg : l = 1
    · subst hlg; simp [seedG, Spec.unit]
    · have : ¬ 1 = l := fun h => hlg h.symm
      rw [if_neg hlg]
      by_cases h4 : l < 4
      · rw [if_pos h4, rb l (by omega)]
        have := sa l h4
        simp only [Nat.add_zero] at this
        rw [this]; simp [seedG, Spec.unit, *]
      · rw [if_neg h4, sb l (by omega) (by omega)]
  have hz : ∀ l, 4 ≤ l → l < 10 → (upd mb 1 ((CT.node (.node (.leaf (x (1 + 0)))
      (.leaf (x (dpos dirX 1 + 0)))) (.node (.leaf 1) (.leaf 0)) : CT V 2).map some)) l =
        (CT.const 2 (0 : V)).map some := by
    intro l h1 h2
    have : ¬ l = 1 := by omega
    simp only [upd, if_neg this]
    exact sb l h1 h2
  obtain ⟨my, my', ey, ey', ay⟩ := ggaN_x h.inp hlen _ (k := dirY) (by decide) (g := 2) (by omega) hz
  have hzy : ∀ l, 4 ≤ l → l < 10 → my' l = (CT.const 2 (0 : V)).map some := by
    intro l h1 h2
    rw [ay l h2, seedN, if_neg (by omega)]
  obtain ⟨mz, mz', ez, ez', az⟩ := ggaN_x h.inp hlen _ (k := dirZ) (by decide) (g := 3) (by omega) hzy
  rw [← hlen] at ay az
  have hr : rdBuf output 1 = .ok e1 := by simp [rdBuf, ho]
  have hl1 : 1 < output.length := by
    by_contra hc
    rw [List.getElem?_eq_none (by omega)] at ho; cases ho
  simp only [evalPotentialGgaN, ea, eb, ec, Outcome.ok_bind, h.acc s ac, ey, ey', h.acc s ay,
    ez, ez', h.acc s az, hr, wrBuf_ok hl1]
  rfl

/-- The value of slot `l` in the run for direction `k` and component `g`, unrestricted case;
    the slots 14 to 19 are whatever they were before (`old`). -/
def seedAB (x : ℕ → V) (old : ℕ → CT V 2) (k : ℕ × ℕ × ℕ × ℕ) (g l : ℕ) : CT V 2 :=
  if l < 4 then seedG x (fun l => x (dpos k l)) g l
  else if l < 10 then CT.const 2 0
  else if l < 14 then seedG x (fun l => x (dpos k (l - 10) + 10)) g l
  else old l

theorem ggaAB_step (hi : ∀ i < v.len, input[i]? = some (x i)) (hlen : v.len = 20) (m : Slots V 2)
    {k : ℕ × ℕ × ℕ × ℕ} (hk : k.1 < 10 ∧ k.2.1 < 10 ∧ k.2.2.1 < 10 ∧ k.2.2.2 < 10) :
    ∃ m1 m2, seed4 input m 0 k = .ok m1 ∧ seed4 input m1 10 k = .ok m2 ∧
      (∀ l < 4, m2 l = (CT.node (.node (.leaf (x l)) (.leaf (x (dpos k l))))
        (.node (.leaf 0) (.leaf 0)) : CT V 2).map some) ∧
      (∀ l, 10 ≤ l → l < 14 → m2 l = (CT.node (.node (.leaf (x l)) (.leaf (x (dpos k (l - 10) + 10))))
        (.node (.leaf 0) (.leaf 0)) : CT V 2).map some) ∧
      ∀ l, (4 ≤ l ∧ l < 10) ∨ 14 ≤ l → m2 l = m l := by
  obtain ⟨m1, e1, s1, r1⟩ := seed4_ok (x := x) hi (by omega) m (off := 0) (k := k) (by omega)
    (by omega) (by omega) (by omega) (by omega)
  obtain ⟨m2, e2, s2, r2⟩ := seed4_ok (x := x) hi (by omega) m1 (off := 10) (k := k) (by omega)
    (by omega) (by omega) (by omega) (by omega)
  refine ⟨m1, m2, e1, e2, ?_, ?_, ?_⟩
  · intro l hl
    rw [r2 l (by omega)]
    have := s1 l hl
    simpa using this
  · intro l h1 h2
    obtain ⟨l', rfl⟩ : ∃ l', l = l' + 10 := ⟨l - 10, by omega⟩
    rw [s2 l' (by omega)]; simp
  · intro l hl
    rw [r2 l (by omega), r1 l (by omega)]

theorem seedAB_agree {m : Slots V 2} {old : ℕ → CT V 2} {k : ℕ × ℕ × ℕ × ℕ} {g : ℕ}
    (hg : (1 ≤ g ∧ g < 4) ∨ (11 ≤ g ∧ g < 14))
    (h1 : ∀ l < 4, m l = (CT.node (.node (.leaf (x l)) (.leaf (x (dpos k l))))
        (.node (.leaf 0) (.leaf 0)) : CT V 2).map some)
    (h2 : ∀ l, 10 ≤ l → l < 14 → m l = (CT.node (.node (.leaf (x l)) (.leaf (x (dpos k (l - 10) + 10))))
        (.node (.leaf 0) (.leaf 0)) : CT V 2).map some)
    (h3 : ∀ l, 4 ≤ l → l < 10 → m l = (CT.const 2 (0 : V)).map some)
    (h4 : ∀ l, 14 ≤ l → l < 20 → m l = (old l).map some) :
    ∃ m', putCoef m g VAR1 1 = .ok m' ∧ Agree 20 m' (seedAB x old k g) := by
  obtain ⟨a, b, hab⟩ : ∃ a b, m g = (CT.node (.node (.leaf a) (.leaf b))
      (.node (.leaf 0) (.leaf 0)) : CT V 2).map some ∧ (seedAB x old k g g) =
      (CT.node (.node (.leaf a) (.leaf b)) (.node (.leaf 1) (.leaf 0)) : CT V 2) := by
    rcases hg with hg | hg
    · exact ⟨_, _, h1 g hg.2, by simp [seedAB, hg.2, seedG, Spec.unit]⟩
    · refine ⟨_, _, h2 g (by omega) hg.2, ?_⟩
      have : ¬ g < 4 := by omega
      have : ¬ g < 10 := by omega
      simp [seedAB, seedG, Spec.unit, *]
  refine ⟨_, putVar1_ok (by omega) hab.1, ?_⟩
  intro l hl
  simp only [upd]
  by_cases hlg : l = g
  · subst hlg; rw [if_pos rfl, hab.2]
  · rw [if_neg hlg]
    have hne : ¬ g = l := fun h => hlg h.symm
    simp only [seedAB]
    by_cases l4 : l < 4
    · rw [if_pos l4, h1 l l4]; simp [seedG, Spec.unit, hne]
    · rw [if_neg l4]
      by_cases l10 : l < 10
      · rw [if_pos l10, h3 l (by omega) l10]
      · rw [if_neg l10]
        by_cases l14 : l < 14
        · rw [if_pos l14, h2 l (by omega) l14]; simp [seedG, Spec.unit, hne]
        · rw [if_neg l14, h4 l (by omega) hl]

/-- The three runs of the unrestricted GGA potential for spin `j`, accumulated. -/
def ggaAB (K : Kernel V) (s : State V) (v : Vars) (x : ℕ → V) (old : ℕ → CT V 2) (j : ℕ) : CT V 2 :=
  total K s v (total K s v (total K s v 0 (seedAB x old dirX (1 + 10 * j)))
    (seedAB x old dirY (2 + 10 * j))) (seedAB x old dirZ (3 + 10 * j))

theorem ggaSpinBody_ok (h : Ready K v input x) (hlen : v.len = 20) (s : State V) {j : ℕ} (hj : j < 2)
    {m : Slots V 2} {old : ℕ → CT V 2} (hm : ∀ l, 14 ≤ l → l < 20 → m l = (old l).map some)
    {output : List V} {e : V} (ho : output[j + 1]? = some e) :
    ∃ m', ggaSpinBody K s v input j (m, output) =
        .ok (m', output.set (j + 1) (e - (ggaAB K s v x old j).get 3)) ∧
      ∀ l, 14 ≤ l → l < 20 → m' l = (old l).map some := by
  have hg : ∀ c, 1 ≤ c → c < 4 →
      (1 ≤ c + 10 * j ∧ c + 10 * j < 4) ∨ (11 ≤ c + 10 * j ∧ c + 10 * j < 14) := by omega
  obtain ⟨m1, m2, e1, e2, s1, s2, r⟩ := ggaAB_step (x := x) h.inp hlen m (k := dirX) (by decide)
  obtain ⟨m3, e3, s3, r3⟩ := zeroHessian_ok m2
  obtain ⟨m4, e4, a4⟩ := seedAB_agree (m := m3) (x := x) (old := old) (k := dirX) (g := 1 + 10 * j)
    (hg 1 (by omega) (by omega))
    (fun l hl => by rw [r3 l (by omega), s1 l hl])
    (fun l h1 h2 => by rw [r3 l (by omega), s2 l h1 h2])
    (fun l h1 h2 => s3 l h1 h2)
    (fun l h1 h2 => by rw [r3 l (by omega), r l (by omega), hm l h1 h2])
  obtain ⟨m5, m6, e5, e6, t1, t2, q⟩ := ggaAB_step (x := x) h.inp hlen m4 (k := dirY) (by decide)
  obtain ⟨m7, e7, a7⟩ := seedAB_agree (m := m6) (x := x) (old := old) (k := dirY) (g := 2 + 10 * j)
    (hg 2 (by omega) (by omega)) t1 t2
    (fun l h1 h2 => by
      rw [q l (by omega), a4 l (by omega), seedAB, if_neg (by omega), if_pos h2])
    (fun l h1 h2 => by
      rw [q l (by omega), a4 l (by omega), seedAB, if_neg (by omega), if_neg (by omega), if_neg (by omega)])
  obtain ⟨m8, m9, e8, e9, u1, u2, w⟩ := ggaAB_step (x := x) h.inp hlen m7 (k := dirZ) (by decide)
  obtain ⟨m10, e10, a10⟩ := seedAB_agree (m := m9) (x := x) (old := old) (k := dirZ) (g := 3 + 10 * j)
    (hg 3 (by omega) (by omega)) u1 u2
    (fun l h1 h2 => by
      rw [w l (by omega), a7 l (by omega), seedAB, if_neg (by omega), if_pos h2])
    (fun l h1 h2 => by
      rw [w l (by omega), a7 l (by omega), seedAB, if_neg (by omega), if_neg (by omega), if_neg (by omega)])
  have hr : rdBuf output (j + 1) = .ok e := by simp [rdBuf, ho]
  have hl1 : j + 1 < output.length := by
    by_contra hc
    rw [List.getElem?_eq_none (by omega)] at ho; cases ho
  refine ⟨m10, ?_, ?_⟩
  · rw [← hlen] at a4 a7 a10
    simp only [ggaSpinBody, e1, e2, e3, e4, Outcome.ok_bind, h.acc s a4, e5, e6, e7, h.acc s a7,
      e8, e9, e10, h.acc s a10, hr, wrBuf_ok hl1, Outcome.pure_eq]
    rfl
  · intro l h1 h2
    rw [a10 l h2, seedAB, if_neg (by omega), if_neg (by omega), if_neg (by omega)]

theorem evalPotentialGgaAB_ok (h : Ready K v input x) (hlen : v.len = 20)
    (j2 : (N : ℕ) → ℕ → CT V N) (s : State V) {output : List V} {e1 e2 : V}
    (h1 : output[1]? = some e1) (h2 : output[2]? = some e2) :
    evalPotentialGgaAB K (some j2) s v input output =
      .ok ((output.set 1 (e1 - (ggaAB K s v x (j2 2) 0).get 3)).set 2
        (e2 - (ggaAB K s v x (j2 2) 1).get 3)) := by
  obtain ⟨m1, b1, r1⟩ := ggaSpinBody_ok h hlen s (j := 0) (by omega) (m := fresh (some j2) 2)
    (old := j2 2) (fun l _ _ => rfl) h1
  obtain ⟨m2, b2, -⟩ := ggaSpinBody_ok h hlen s (j := 1) (by omega) (m := m1) (old := j2 2) r1
    (output := output.set 1 (e1 - (ggaAB K s v x (j2 2) 0).get 3)) (e := e2) (by
      rw [List.getElem?_set_ne (by omega)]; exact h2)
  simp only [evalPotentialGgaAB, forLoop, b1, b2, Outcome.ok_bind, Outcome.pure_eq, Nat.zero_add]

end

end XCFun
