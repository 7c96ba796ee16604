/-
The order in which `next_exponents` lists exponents.
-/
import Verif.Model.Funeval
import Verif.Spec.Exponents
import Mathlib.Data.List.Basic
import Mathlib.Tactic.Ring
import Mathlib.Tactic.NormNum

namespace XCFun.Props
open XCFun Spec

/-! ## What one call does -/

theorem foldl_add (m : ℕ → ℕ) (l : List ℕ) (a : ℕ) : l.foldl (fun k i => k + m i) a = a + (l.map m).sum := by
  induction l generalizing a with
  | nil => simp
  | cons x l ih => simp only [List.foldl_cons, ih, List.map_cons, List.sum_cons]; omega

theorem sum_eq_zero {m : ℕ → ℕ} {n : ℕ} : (List.range n).foldl (fun k i => k + m i) 0 = 0 ↔ ∀ i < n, m i = 0 := by
  rw [foldl_add, Nat.zero_add]
  induction n with
  | zero => simp
  | succ n ih =>
    rw [List.range_succ, List.map_append, List.sum_append, Nat.add_eq_zero_iff, ih]
    simp only [List.map_cons, List.map_nil, List.sum_cons, List.sum_nil, Nat.add_zero]
    constructor
    · intro ⟨h, h'⟩ i hi
      by_cases e : i = n
      · rw [e, h']
      · exact h i (by omega)
    · exact fun h => ⟨fun i hi => h i (by omega), h n (by omega)⟩

/-- The last index before `n` with a positive entry. -/
structure LastPos (m : ℕ → ℕ) (n j : ℕ) : Prop where
  lt : j < n
  pos : 0 < m j
  zero : ∀ i, j < i → i < n → m i = 0

theorem exists_lastPos {m : ℕ → ℕ} {n : ℕ} (h : ¬ ∀ i < n, m i = 0) : ∃ j, LastPos m n j := by
  induction n with
  | zero => exact absurd (fun i hi => absurd hi (by omega)) h
  | succ n ih =>
    by_cases hn : m n = 0
    · have h' : ¬ ∀ i < n, m i = 0 := by
        intro H
        refine h fun i hi => ?_
        by_cases e : i = n
        · rw [e, hn]
        · exact H i (by omega)
      obtain ⟨j, hj⟩ := ih h'
      refine ⟨j, Nat.lt_succ_of_lt hj.lt, hj.pos, fun i h1 h2 => ?_⟩
      by_cases e : i = n
      · rw [e, hn]
      · exact hj.zero i h1 (by omega)
    · exact ⟨n, Nat.lt_succ_self n, by omega, fun i h1 h2 => by omega⟩

theorem addToLast_eq {m : ℕ → ℕ} {n j : ℕ} (h : LastPos m n j) (c : ℕ) : addToLast n m c = setAt m j (m j + c) := by
  induction n with
  | zero => exact absurd h.lt (by omega)
  | succ n ih =>
    unfold addToLast
    by_cases e : j = n
    · subst e; rw [if_pos h.pos]
    · have hl := h.lt
      have hz := h.zero n (by omega) (by omega)
      rw [if_neg (by omega)]
      exact ih ⟨by omega, h.pos, fun i h1 h2 => h.zero i h1 (by omega)⟩

/-- The effect of a call when some entry before the last is positive: one derivative moves from the last such variable `j` to the next one, and those of the last
variable move there too. -/
def moved (m : ℕ → ℕ) (n j : ℕ) : ℕ → ℕ := fun i =>
  if i = j then m j - 1 else if i = j + 1 then m (n + 1) + 1 else if i = n + 1 then 0 else m i

theorem next_moved {m : ℕ → ℕ} {n j : ℕ} (h : LastPos m (n + 1) j) : nextExponents (n + 2) m = .ok (moved m n j) := by
  induction n generalizing j with
  | zero =>
    have hj : j = 0 := by have := h.lt; omega
    subst hj
    have hp := h.pos
    unfold nextExponents
    have hk : ¬ (List.range (0 + 1)).foldl (fun k i => k + m i) 0 = 0 := fun e => by have := sum_eq_zero.1 e 0 (by omega); omega
    dsimp only
    rw [if_neg hk, if_pos hp]
    congr 1; funext i
    simp only [setAt, moved]
    by_cases h0 : i = 0
    · subst h0; simp
    · by_cases h1 : i = 1
      · subst h1; simp
      · simp [h0, h1]
  | succ n ih =>
    have hp := h.pos
    have hl := h.lt
    unfold nextExponents
    have hk : ¬ (List.range (n + 1 + 1)).foldl (fun k i => k + m i) 0 = 0 := fun e => by have := sum_eq_zero.1 e j hl; omega
    dsimp only
    rw [if_neg hk]
    by_cases e : j = n + 1
    · subst e
      rw [if_pos hp]
      congr 1; funext i
      simp only [setAt, moved]
      by_cases h0 : i = n + 1
      · subst h0; simp
      · by_cases h1 : i = n + 1 + 1
        · subst h1; simp
        · simp [h0, h1]
    · have hz := h.zero (n + 1) (by omega) (by omega)
      rw [if_neg (by omega), ih ⟨by omega, hp, fun i h1 h2 => h.zero i h1 (by omega)⟩]
      simp only [Outcome.ok_bind]
      have hlast : LastPos (moved m n j) (n + 1 + 1) (j + 1) := by
        refine ⟨by omega, by simp [moved], fun i h1 h2 => ?_⟩
        have a1 : ¬ i = j := by omega
        have a2 : ¬ i = j + 1 := by omega
        simp only [moved, a1, a2, if_false]
        by_cases a3 : i = n + 1
        · simp [a3]
        · rw [if_neg a3]; exact h.zero i (by omega) (by omega)
      rw [addToLast_eq hlast]
      have hv : moved m n j (n + 1 + 1) = m (n + 1 + 1) := by
        simp only [moved]
        rw [if_neg (by omega), if_neg (by omega), if_neg (by omega)]
      have hw : moved m n j (j + 1) = 1 := by
        simp only [moved]
        rw [if_neg (by omega), if_pos trivial, hz]
      rw [hv, hw]
      congr 1; funext i
      unfold setAt
      by_cases h0 : i = n + 1 + 1
      · rw [if_pos h0]
        simp only [moved]
        rw [if_neg (by omega), if_neg (by omega), if_pos (by omega)]
      · rw [if_neg h0]
        by_cases h1 : i = j + 1
        · rw [if_pos h1]
          simp only [moved]
          rw [if_neg (by omega), if_pos h1, Nat.add_comm]
        · rw [if_neg h1]
          simp only [moved]
          by_cases h2 : i = j
          · rw [if_pos h2, if_pos h2]
          · rw [if_neg h2, if_neg h2, if_neg h1, if_neg h1, if_neg h0]
            by_cases h3 : i = n + 1
            · rw [if_pos h3, h3, hz]
            · rw [if_neg h3]

theorem next_degree {m : ℕ → ℕ} {n : ℕ} (h : ∀ i < n, m i = 0) : ∃ m', nextExponents (n + 1) m = .ok m' ∧ m' 0 = m n + 1 ∧ ∀ i, 0 < i → i ≤ n → m' i = 0 := by
  cases n with
  | zero => exact ⟨_, rfl, by simp [setAt], fun i h1 h2 => by omega⟩
  | succ n =>
    unfold nextExponents
    dsimp only
    rw [if_pos (sum_eq_zero.2 h)]
    refine ⟨_, rfl, by simp [setAt], fun i h1 h2 => ?_⟩
    by_cases e : i = n + 1
    · simp [setAt, e]
    · have : ¬ i = 0 := by omega
      simp only [setAt, e, this, if_false]; exact h i (by omega)

/-! ## The same on lists -/

/-- All derivatives are with respect to the last variable. -/
def Final (l : List ℕ) : Prop := ∀ x ∈ l.dropLast, x = 0

instance (l : List ℕ) : Decidable (Final l) := by unfold Final; infer_instance

/-- The next list of exponents. -/
def succL : List ℕ → List ℕ
  | [] => []
  | [c] => [c + 1]
  | a :: b :: l =>
    let rest := b :: l
    if Final rest then
      let c := rest.getLastD 0
      if a = 0 then (c + 1) :: List.replicate rest.length 0 else (a - 1) :: (c + 1) :: List.replicate (rest.length - 1) 0
    else a :: succL rest

theorem range_map_succ (m : ℕ → ℕ) (n : ℕ) : (List.range (n + 1)).map m = m 0 :: (List.range n).map fun i => m (i + 1) := by
  rw [List.range_succ_eq_map]; simp [Function.comp_def]

theorem final_range {m : ℕ → ℕ} {n : ℕ} : Final ((List.range (n + 1)).map m) ↔ ∀ i < n, m i = 0 := by
  unfold Final
  rw [List.range_succ]; simp

theorem getLast_range (m : ℕ → ℕ) (n : ℕ) : ((List.range (n + 1)).map m).getLastD 0 = m n := by
  rw [List.range_succ, List.map_append]; simp

theorem map_zero {m : ℕ → ℕ} {n : ℕ} (h : ∀ i < n, m i = 0) : (List.range n).map m = List.replicate n 0 := by
  rw [List.eq_replicate_iff]
  exact ⟨by simp, fun x hx => by obtain ⟨i, hi, e⟩ := List.mem_map.1 hx; rw [← e]; exact h i (List.mem_range.1 hi)⟩

theorem succL_range_moved {m : ℕ → ℕ} {n j : ℕ} (h : LastPos m (n + 1) j) :
    succL ((List.range (n + 2)).map m) = (List.range (n + 2)).map (moved m n j) := by
  induction n generalizing m j with
  | zero =>
    have hj : j = 0 := by have := h.lt; omega
    subst hj
    have hp := h.pos
    have : ¬ m 0 = 0 := by omega
    simp [List.range_succ, succL, Final, moved, this]
  | succ n ih =>
    have hp := h.pos
    have hl := h.lt
    rw [range_map_succ m, range_map_succ (fun i => m (i + 1))]
    unfold succL
    dsimp only
    rw [← range_map_succ (fun i => m (i + 1))]
    cases j with
    | zero =>
      have hf : ∀ i < n + 1, m (i + 1) = 0 := fun i hi => h.zero (i + 1) (by omega) (by omega)
      rw [if_pos (final_range.2 hf), if_neg (by omega), getLast_range, range_map_succ (moved m (n + 1) 0),
        range_map_succ (fun i => moved m (n + 1) 0 (i + 1))]
      simp only [List.length_map, List.length_range]
      rw [map_zero (m := fun i => moved m (n + 1) 0 (i + 1 + 1))]
      · simp [moved]
      · intro i hi
        by_cases e : i = n
        · subst e; simp [moved]
        · have h1 := h.zero (i + 1 + 1) (by omega) (by omega)
          simp [moved, e, h1]
    | succ j =>
      have hnf : ¬ ∀ i < n + 1, m (i + 1) = 0 := fun H => by have := H j (by omega); omega
      rw [if_neg (fun H => hnf (final_range.1 H)),
        ih (m := fun i => m (i + 1)) (j := j) ⟨by omega, hp, fun i h1 h2 => h.zero (i + 1) (by omega) (by omega)⟩, range_map_succ (moved m (n + 1) (j + 1))]
      congr 1
      refine List.map_congr_left fun i hi => ?_
      simp [moved]

theorem next_succL (m : ℕ → ℕ) (n : ℕ) : ∃ m', nextExponents (n + 1) m = .ok m' ∧ (List.range (n + 1)).map m' = succL ((List.range (n + 1)).map m) := by
  by_cases h : ∀ i < n, m i = 0
  · obtain ⟨m', e, h0, hz⟩ := next_degree h
    refine ⟨m', e, ?_⟩
    rw [range_map_succ m', map_zero (fun i hi => hz (i + 1) (by omega) (by omega)), h0]
    cases n with
    | zero => simp [succL]
    | succ n =>
      rw [range_map_succ m, range_map_succ (fun i => m (i + 1))]
      unfold succL
      dsimp only
      rw [← range_map_succ (fun i => m (i + 1)), if_pos (final_range.2 fun i hi => h (i + 1) (by omega)), if_pos (h 0 (by omega)), getLast_range]
      simp
  · obtain ⟨j, hj⟩ := exists_lastPos h
    cases n with
    | zero => exact absurd hj.lt (by omega)
    | succ n => exact ⟨_, next_moved hj, (succL_range_moved hj).symm⟩

/-! ## The list of all exponents of a degree -/

/-- One derivative more with respect to the first variable. -/
def incHead : List ℕ → List ℕ
  | [] => []
  | a :: l => (a + 1) :: l

/-- Exponents of degree `k` in `n` variables. -/
def degree : ℕ → ℕ → List (List ℕ)
  | n, 0 => [List.replicate n 0]
  | 0, _ + 1 => []
  | n + 1, k + 1 => (degree (n + 1) k).map incHead ++ (degree n (k + 1)).map (0 :: ·)

/-- Following `succL` from `s` one visits `L` and ends at `e`, and only `e` is final. -/
inductive Path : List ℕ → List (List ℕ) → List ℕ → Prop
  | one (e) (h : e ≠ []) : Path e [e] e
  | cons {s L e} (h : ¬ Final s) (p : Path (succL s) L e) : Path s (s :: L) e

theorem Path.append {s L e L' e'} (p : Path s L e) (h : ¬ Final e) (q : Path (succL e) L' e') : Path s (L ++ L') e' := by
  induction p with
  | one e _ => exact .cons h q
  | cons hs _ ih => exact .cons hs (ih h q)

theorem Path.map {f : List ℕ → List ℕ} (hne : ∀ l, l ≠ [] → f l ≠ []) (hf : ∀ l, ¬ Final l → ¬ Final (f l) ∧ succL (f l) = f (succL l)) {s L e} (p : Path s L e) :
    Path (f s) (L.map f) (f e) := by
  induction p with
  | one e h => exact .one _ (hne _ h)
  | cons hs _ ih =>
    rw [List.map_cons]
    refine .cons (hf _ hs).1 ?_
    rw [(hf _ hs).2]; exact ih

theorem final_cons {a b : ℕ} {l : List ℕ} : Final (a :: b :: l) ↔ a = 0 ∧ Final (b :: l) := by
  unfold Final; simp [List.dropLast_cons_of_ne_nil]

theorem inc_step (l : List ℕ) (h : ¬ Final l) : ¬ Final (incHead l) ∧ succL (incHead l) = incHead (succL l) := by
  match l with
  | [] => exact absurd (by simp [Final]) h
  | [c] => exact absurd (by simp [Final]) h
  | a :: b :: l =>
    refine ⟨fun H => by have := (final_cons.1 H).1; omega, ?_⟩
    by_cases hf : Final (b :: l)
    · have ha : a ≠ 0 := fun e => h (final_cons.2 ⟨e, hf⟩)
      simp only [incHead, succL, hf, if_true, ha, if_false, Nat.add_eq_zero_iff, one_ne_zero, and_false]
      congr 1; omega
    · simp only [incHead, succL, hf, if_false]

theorem zero_step (l : List ℕ) (h : ¬ Final l) : ¬ Final (0 :: l) ∧ succL (0 :: l) = 0 :: succL l := by
  match l with
  | [] => exact absurd (by simp [Final]) h
  | b :: l => exact ⟨fun H => h (final_cons.1 H).2, by simp [succL, h]⟩

theorem final_last (n k : ℕ) : Final (List.replicate n 0 ++ [k]) := by
  unfold Final; simp

/-- From all derivatives with respect to the first to all with respect to the last variable. -/
theorem degree_path (n k : ℕ) : Path (k :: List.replicate n 0) (degree (n + 1) k) (List.replicate n 0 ++ [k]) := by
  induction n generalizing k with
  | zero =>
    induction k with
    | zero => simpa [degree] using Path.one [0] (by simp)
    | succ k ih =>
      have e : degree 1 k = [[k]] := by
        clear ih
        induction k with
        | zero => simp [degree]
        | succ k ih => simp [degree, ih, incHead]
      simpa [degree, e, incHead] using Path.one [k + 1] (by simp)
  | succ n ihn =>
    induction k with
    | zero =>
      have e : (0 :: List.replicate (n + 1) 0 : List ℕ) = List.replicate (n + 1) 0 ++ [0] := by
        rw [← List.replicate_succ, List.replicate_succ']
      rw [degree, ← e]
      exact .one _ (by simp)
    | succ k ih =>
      rw [degree]
      have p := ih.map (f := incHead) (by intro l hl; cases l <;> simp_all [incHead]) inc_step
      have q := (ihn (k + 1)).map (f := (0 :: ·)) (by simp) zero_step
      have hl : incHead (List.replicate (n + 1) 0 ++ [k]) = 1 :: (List.replicate n 0 ++ [k]) := by
        rw [List.replicate_succ]; rfl
      rw [hl] at p
      have hm : ∃ b l, List.replicate n 0 ++ [k] = b :: l := by cases n <;> simp [List.replicate_succ]
      obtain ⟨b, l, hbl⟩ := hm
      have hfin := final_last n k
      have hlast : (List.replicate n 0 ++ [k]).getLastD 0 = k := by simp
      have hlen : (List.replicate n 0 ++ [k]).length = n + 1 := by simp
      have hq : succL (1 :: (List.replicate n 0 ++ [k])) = 0 :: (k + 1) :: List.replicate n 0 := by
        rw [hbl] at hfin hlen hlast ⊢
        unfold succL
        dsimp only
        rw [if_pos hfin, if_neg (by omega), hlast, hlen]; rfl
      have hnf : ¬ Final (1 :: (List.replicate n 0 ++ [k])) := by rw [hbl]; intro H; have := (final_cons.1 H).1; omega
      have q' : Path (succL (1 :: (List.replicate n 0 ++ [k]))) ((degree (n + 1) (k + 1)).map (0 :: ·)) (List.replicate (n + 1) 0 ++ [k + 1]) := by
        rw [hq, List.replicate_succ]; exact q
      exact p.append hnf q'

theorem succ_last (n k : ℕ) : succL (List.replicate n 0 ++ [k]) = (k + 1) :: List.replicate n 0 := by
  cases n with
  | zero => rfl
  | succ n =>
    have hm : ∃ b l, List.replicate n 0 ++ [k] = b :: l := by cases n <;> simp [List.replicate_succ]
    obtain ⟨b, l, hbl⟩ := hm
    have hfin := final_last n k
    have hlast : (List.replicate n 0 ++ [k]).getLastD 0 = k := by simp
    have hlen : (List.replicate n 0 ++ [k]).length = n + 1 := by simp
    rw [List.replicate_succ, List.cons_append]
    rw [hbl] at hfin hlen hlast ⊢
    unfold succL
    dsimp only
    rw [if_pos hfin, if_pos rfl, hlast, hlen, List.replicate_succ]

/-! ## The loop -/

variable {V : Type}

/-- Lines for a path, and the state after them. -/
theorem printLines_path {n : ℕ} {s : List ℕ} {L : List (List ℕ)} {e : List ℕ} (p : Path s L e) (m : ℕ → ℕ) (hm : (List.range (n + 1)).map m = s) (xs out : List V)
    (hx : xs.length = L.length) : ∃ m', (List.range (n + 1)).map m' = succL e ∧
      ∀ r, printLines (n + 1) out m' = .ok r → printLines (n + 1) (xs ++ out) m = .ok (L.zip xs ++ r) := by
  induction p generalizing m xs with
  | one e h =>
    obtain ⟨x, rfl⟩ := List.length_eq_one_iff.1 hx
    obtain ⟨m', e', hm'⟩ := next_succL m n
    refine ⟨m', by rw [hm', hm], fun r hr => ?_⟩
    simp [printLines, e', hr, hm]
  | cons hs p ih =>
    obtain ⟨x, xs, rfl⟩ := List.exists_cons_of_length_eq_add_one hx
    obtain ⟨m₁, e', hm₁⟩ := next_succL m n
    obtain ⟨m', hm', h⟩ := ih m₁ (by rw [hm₁, hm]) xs (by simpa using hx)
    refine ⟨m', hm', fun r hr => ?_⟩
    simp [printLines, e', h r hr, hm]

/-- Lines for one degree after the other. -/
theorem printLines_degrees {n : ℕ} (j : ℕ) (k : ℕ) (m : ℕ → ℕ) (hm : (List.range (n + 1)).map m = k :: List.replicate n 0) (xs : ℕ → List V)
    (hx : ∀ i, (xs i).length = (degree (n + 1) i).length) :
    printLines (n + 1) ((List.range' k j).flatMap xs) m = .ok ((List.range' k j).flatMap fun i => (degree (n + 1) i).zip (xs i)) := by
  induction j generalizing k m with
  | zero => rfl
  | succ j ih =>
    obtain ⟨m', hm', h⟩ := printLines_path (degree_path n k) m hm (xs k) ((List.range' (k + 1) j).flatMap xs) (hx k)
    rw [List.range'_succ, List.flatMap_cons, List.flatMap_cons]
    exact h _ (ih (k + 1) m' (by rw [hm', succ_last]))

/-! ## Exponents of multisets -/

theorem words_mem {al : List ℕ} {k : ℕ} {t : List ℕ} (h : t ∈ multisets al k) : ∀ x ∈ t, x ∈ al := by
  induction al generalizing k t with
  | nil => cases k <;> simp_all [multisets]
  | cons a al iha =>
    induction k generalizing t with
    | zero => simp_all [multisets]
    | succ k ihk =>
      simp only [multisets, List.mem_append, List.mem_map] at h
      rcases h with ⟨t, ht, rfl⟩ | h
      · intro x hx
        rcases List.mem_cons.1 hx with rfl | hx
        · exact List.mem_cons_self
        · exact ihk ht x hx
      · exact fun x hx => List.mem_cons_of_mem _ (iha h x hx)

theorem words_degree (s n k : ℕ) : (multisets (List.range' s n) k).map (fun t => (List.range' s n).map fun i => t.count i) = degree n k := by
  induction n generalizing s k with
  | zero => cases k <;> simp [multisets, degree]
  | succ n ihn =>
    induction k with
    | zero =>
      simp only [multisets, degree, List.map_cons, List.map_nil, List.count_nil, List.map_const', List.length_range']
    | succ k ihk =>
      rw [List.range'_succ] at ihk ⊢
      rw [multisets, degree, List.map_append, List.map_map, ← ihk, ← ihn (s + 1) (k + 1), List.map_map, List.map_map]
      congr 1
      · refine List.map_congr_left fun t ht => ?_
        simp only [Function.comp_def, List.map_cons, incHead, List.count_cons_self]
        congr 1
        refine List.map_congr_left fun i hi => ?_
        have : s ≠ i := by rw [List.mem_range'_1] at hi; omega
        rw [List.count_cons_of_ne this]
      · refine List.map_congr_left fun t ht => ?_
        simp only [Function.comp_def, List.map_cons]
        congr 1
        rw [List.count_eq_zero]
        intro hs
        have := words_mem ht s hs
        rw [List.mem_range'_1] at this; omega

theorem words_exponents (n k : ℕ) : (multisets (List.range n) k).map (exponents n) = degree n k := by
  have := words_degree 0 n k
  rwa [← List.range_eq_range'] at this

theorem words_one (al : List ℕ) : multisets al 1 = al.map fun i => [i] := by
  induction al with
  | nil => simp [multisets]
  | cons a al ih => simp [multisets, ih]

theorem words_two (s n : ℕ) : multisets (List.range' s n) 2 = (List.range' s n).flatMap fun i => (List.range' i (s + n - i)).map fun j => [i, j] := by
  induction n generalizing s with
  | zero => simp [multisets]
  | succ n ih =>
    rw [List.range'_succ, multisets, words_one, ih (s + 1), List.flatMap_cons, ← List.range'_succ, List.map_map]
    congr 1
    · congr 2; omega
    · refine List.flatMap_congr fun i hi => ?_
      rw [show s + 1 + n = s + (n + 1) by omega]

theorem words_three (s n : ℕ) : multisets (List.range' s n) 3 =
    (List.range' s n).flatMap fun i => (List.range' i (s + n - i)).flatMap fun j => (List.range' j (s + n - j)).map fun k => [i, j, k] := by
  induction n generalizing s with
  | zero => simp [multisets]
  | succ n ih =>
    rw [List.range'_succ, multisets, ih (s + 1), List.flatMap_cons, ← List.range'_succ, words_two, List.map_flatMap]
    congr 1
    · rw [show s + (n + 1) - s = n + 1 by omega]
      refine List.flatMap_congr fun i hi => ?_
      rw [List.map_map]; rfl
    · refine List.flatMap_congr fun i hi => ?_
      rw [show s + 1 + n = s + (n + 1) by omega]

theorem pairs_words (n : ℕ) : multisets (List.range n) 2 = (pairs n).map fun p => [p.1, p.2] := by
  rw [List.range_eq_range', words_two, pairs, List.map_flatMap, ← List.range_eq_range']
  refine List.flatMap_congr fun i hi => ?_
  rw [List.map_map, Nat.zero_add]; rfl

theorem triples_words (n : ℕ) : multisets (List.range n) 3 = (triples n).map fun p => [p.1, p.2.1, p.2.2] := by
  rw [List.range_eq_range', words_three, triples, List.map_flatMap, ← List.range_eq_range']
  refine List.flatMap_congr fun i hi => ?_
  rw [List.map_flatMap, Nat.zero_add]
  refine List.flatMap_congr fun j hj => ?_
  rw [List.map_map]; rfl

theorem cleared (n : ℕ) (m : ℕ → ℕ) : (List.range n).map ((List.range n).foldl (fun m i => setAt m i 0) m) = List.replicate n 0 := by
  have h : ∀ (l : List ℕ) (m : ℕ → ℕ) (i : ℕ), i ∈ l ∨ m i = 0 → l.foldl (fun m i => setAt m i 0) m i = 0 := by
    intro l
    induction l with
    | nil => intro m i h; simpa using h
    | cons a l ih =>
      intro m i h
      rw [List.foldl_cons]
      refine ih _ i ?_
      by_cases e : i = a
      · right; simp [setAt, e]
      · rcases h with h | h
        · left; exact (List.mem_cons.1 h).resolve_left e
        · right; simp [setAt, e, h]
  exact map_zero fun i hi => h _ _ _ (Or.inl (List.mem_range.2 hi))

end XCFun.Props
