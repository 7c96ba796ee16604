/-
Exponents, indices and tensors.
-/
import Verif.Proofs.PolymulDiff
import Verif.Props.Setup

namespace XCFun.Polymul
open XCFun Spec Finset Props

/-! ## The next term -/

theorem next_eq (n : ℕ) (m : ℕ → ℕ) : nextExponents (n + 2) m = XCFun.nextExponents (n + 2) m := by
  induction n generalizing m with
  | zero =>
    unfold nextExponents XCFun.nextExponents
    simp only [Nat.zero_add, List.range_one, List.foldl_cons, List.foldl_nil, Nat.sub_self, Nat.add_sub_cancel]
    by_cases h : m 0 = 0
    · rw [if_pos h, if_pos h]
    · rw [if_neg h, if_neg h, if_pos (by omega), if_pos (by omega)]
  | succ n ih =>
    rw [nextExponents, XCFun.nextExponents]
    simp only [ih]
    rfl

theorem path_step {s e : List ℕ} {l : List (List ℕ)} (p : Path s l e) : l.head? = some s ∧ l.getLast? = some e ∧ ∀ i x y, l[i]? = some x → l[i + 1]? = some y → y = succL x := by
  induction p with
  | one e h => exact ⟨rfl, rfl, fun i x y _ hy => by simp at hy⟩
  | @cons s l e h p ih =>
    obtain ⟨h1, h2, h3⟩ := ih
    refine ⟨rfl, ?_, fun i x y hx hy => ?_⟩
    · cases l with
      | nil => simp at h1
      | cons a l => rw [List.getLast?_cons_cons]; exact h2
    · cases i with
      | zero =>
        simp only [List.getElem?_cons_zero, Option.some.injEq] at hx
        rw [List.getElem?_cons_succ, ← List.head?_eq_getElem?, h1] at hy
        rw [← hx]; exact (Option.some.inj hy).symm
      | succ i => exact h3 i x y (by simpa using hx) (by simpa using hy)

theorem term_succ (n i : ℕ) : term (n + 1) (i + 1) = succL (term (n + 1) i) := by
  obtain ⟨k, j, hj, rfl⟩ := exists_split n i
  have get : ∀ {k j : ℕ}, j < L n k → (degree (n + 1) k)[j]? = some (term (n + 1) (st (n + 1) k + j)) := by
    intro k j hj
    rw [degree_eq, List.getElem?_map, List.getElem?_range hj]; rfl
  obtain ⟨-, h2, h3⟩ := path_step (degree_path n k)
  by_cases h : j + 1 < L n k
  · exact h3 j _ _ (get hj) (get h)
  · have hl : L n k = j + 1 := by omega
    have e1 : term (n + 1) (st (n + 1) k + j) = List.replicate n 0 ++ [k] := by
      rw [List.getLast?_eq_getElem?, show (degree (n + 1) k).length - 1 = j by rw [degree_eq]; simp; omega, get hj] at h2
      exact Option.some.inj h2
    obtain ⟨h1', -, -⟩ := path_step (degree_path n (k + 1))
    rw [List.head?_eq_getElem?, get (L_pos _ _)] at h1'
    have hs := st_succ n k
    rw [e1, succ_last, ← Option.some.inj h1', Nat.add_zero]
    congr 1; omega

/-- One step of the exponents. -/
theorem next_term {n i : ℕ} {m : ℕ → ℕ} (h : (List.range (n + 2)).map m = term (n + 2) i) :
    ∃ m', nextExponents (n + 2) m = .ok m' ∧ (List.range (n + 2)).map m' = term (n + 2) (i + 1) := by
  obtain ⟨m', e, h'⟩ := next_succL m (n + 1)
  exact ⟨m', by rw [next_eq]; exact e, by rw [h', h, term_succ]⟩

theorem exponents_run {n N i : ℕ} (hi : i < L (n + 1) N) (m : ℕ → ℕ) :
    ∃ m', exponents (n + 1) N i m = .ok m' ∧ (List.range (n + 1)).map m' = term (n + 1) i := by
  unfold exponents
  rw [if_neg (by omega)]
  cases n with
  | zero => exact ⟨_, by rw [if_pos rfl], by rw [Nat.zero_add, term_one]; simp [setAt]⟩
  | succ n =>
    rw [if_neg (by omega)]
    simp only
    rw [polylen_nat, if_neg (by omega), Int.toNat_natCast]
    obtain ⟨m', h1, h2⟩ := forLoop_inv (body := fun _ m => nextExponents (n + 1 + 1) m) (fun i m => (List.range (n + 2)).map m = term (n + 2) i) i 0
      ((List.range (n + 1 + 1)).foldl (fun m i => setAt m i 0) m) (by rw [cleared, term_zero])
      (fun j m _ _ h => next_term h)
    exact ⟨m', h1, by rw [Nat.zero_add] at h2; exact h2⟩

/-! ## Indices -/

theorem L_mono_left {m n : ℕ} (h : m ≤ n) (N : ℕ) : L m N ≤ L n N := by
  rw [L, L]; exact Nat.choose_le_choose _ (by omega)

theorem taylorlen_run {n d : ℕ} (h1 : n * L n d < 2 ^ 31) (h2 : n + d < 2 ^ 31) : taylorlen n d = .ok (L n d : ℤ) := by
  obtain ⟨e1, e2⟩ := C13_taylorlen n d h1 h2
  rw [e1, e2]; rfl

theorem int32_nat {k : ℕ} (h : k < 2 ^ 31) : int32 (k : ℤ) = .ok (k : ℤ) := by
  rw [int32, if_pos]; simp only [INT_MIN, INT_MAX]; omega

theorem indexLoop_run {n N : ℕ} (h1 : n * L n N < 2 ^ 31) (h2 : n + N < 2 ^ 31) {e : List ℕ} (he : e.length = n) (k fuel i idx j : ℕ) (hk : i + k = n) (hf : k < fuel)
    (hd : e.drop i = term k j) (hN : (term k j).sum ≤ N) (hidx : idx + j < 2 ^ 31) (hj0 : k = 0 → j = 0) :
    indexLoop n e fuel i (((term k j).sum : ℤ) - 1) idx = .ok ((idx + j : ℕ) : ℤ) := by
  induction k generalizing fuel i idx j with
  | zero =>
    obtain ⟨fuel, rfl⟩ : ∃ f, fuel = f + 1 := ⟨fuel - 1, by omega⟩
    rw [hj0 rfl, term, indexLoop, if_neg (by simp)]; rfl
  | succ k ih =>
    obtain ⟨fuel, rfl⟩ : ∃ f, fuel = f + 1 := ⟨fuel - 1, by omega⟩
    obtain ⟨r, j', hj', rfl⟩ := exists_split k j
    rw [term_sum hj'] at hN ⊢
    rw [indexLoop]
    cases r with
    | zero =>
      have : j' = 0 := by rw [L_zero_right] at hj'; omega
      subst this
      rw [if_neg (by simp)]; rfl
    | succ r =>
      have hl : L (k + 1) r ≤ L n N := (L_mono_left (by omega) r).trans (L_mono _ (by omega))
      have hm : (k + 1) * L (k + 1) r ≤ n * L n N := Nat.mul_le_mul (by omega) hl
      have hs : st (k + 1) (r + 1) = L (k + 1) r := rfl
      rw [if_pos (by push_cast; omega), show (n : ℤ) - i = ((k + 1 : ℕ) : ℤ) by omega, show ((r + 1 : ℕ) : ℤ) - 1 = (r : ℤ) by push_cast; ring,
        taylorlen_run (by omega) (by omega)]
      show (int32 ((idx : ℤ) + (L (k + 1) r : ℤ))).bind _ = _
      rw [← Nat.cast_add, int32_nat (by omega)]
      show (rdBuf e i).bind _ = _
      have hi : i < e.length := by omega
      have hd' := hd
      rw [List.drop_eq_getElem_cons hi, term_split hj'] at hd'
      obtain ⟨hd1, hd2⟩ := List.cons.inj hd'
      have hr : rdBuf e i = .ok (r + 1 - (term k j').sum) := by
        rw [← hd1, rdBuf, List.getElem?_eq_getElem hi]
      rw [hr]
      show indexLoop n e fuel (i + 1) ((r : ℤ) - ((r + 1 - (term k j').sum : ℕ) : ℤ)) _ = _
      have hle := term_sum_le hj'
      rw [show (r : ℤ) - ((r + 1 - (term k j').sum : ℕ) : ℤ) = ((term k j').sum : ℤ) - 1 by omega]
      rw [ih fuel (i + 1) (idx + L (k + 1) r) j' (by omega) (by omega) hd2 (by omega) (by omega) (fun h => by subst h; rw [L_zero_left] at hj'; omega), hs, Nat.add_assoc]

theorem foldlM_snoc {α β : Type} (f : β → α → Outcome β) (l : List α) (a : α) (s : β) : (l ++ [a]).foldlM f s = (l.foldlM f s).bind fun s => f s a := by
  induction l generalizing s with
  | nil =>
    show (f s a).bind Outcome.ok = f s a
    cases f s a <;> rfl
  | cons x l ih =>
    show (f s x).bind (fun s => (l ++ [a]).foldlM f s) = ((f s x).bind fun s => l.foldlM f s).bind _
    cases f s x with
    | ok s' => exact ih s'
    | _ => rfl

theorem sum_take {e : List ℕ} (b : e.sum < 2 ^ 31) (k : ℕ) (hk : k ≤ e.length) :
    (List.range k).foldlM (fun (N : ℤ) i => do
      let x ← rdBuf e i
      int32 (N + x)) (0 : ℤ) = .ok ((e.take k).sum : ℤ) := by
  induction k with
  | zero => rfl
  | succ k ih =>
    have hs : (e.take (k + 1)).sum ≤ e.sum := (List.take_sublist _ _).sum_le_sum (by simp)
    rw [List.take_succ_eq_append_getElem (by omega)] at hs ⊢
    rw [List.sum_append, List.sum_singleton] at hs ⊢
    rw [List.range_succ, foldlM_snoc, ih (by omega)]
    have hr : rdBuf e k = .ok e[k] := by rw [rdBuf, List.getElem?_eq_getElem (by omega)]
    show ((rdBuf e k).bind fun x => int32 (((e.take k).sum : ℤ) + x)) = _
    rw [hr]
    show int32 (((e.take k).sum : ℤ) + (e[k] : ℤ)) = _
    rw [← Nat.cast_add, int32_nat (by omega)]

theorem termIndex_run {n N i : ℕ} (h1 : (n + 1) * L (n + 1) N < 2 ^ 31) (h2 : n + 1 + N < 2 ^ 31) (hi : i < L (n + 1) N) : termIndex (n + 1) (term (n + 1) i) = .ok (i : ℤ) := by
  have hs := lt_iff.1 hi
  have hL : L (n + 1) N ≤ (n + 1) * L (n + 1) N := Nat.le_mul_of_pos_left _ (by omega)
  have hl := term_length (n + 1) i
  have hh := sum_take (e := term (n + 1) i) (by omega) (n + 1) hl.ge
  rw [List.take_of_length_le hl.le] at hh
  rw [termIndex, hh]
  show indexLoop (n + 1) _ (n + 1 + 2) 0 _ 0 = _
  have := indexLoop_run h1 h2 hl (n + 1) (n + 1 + 2) 0 0 i (by omega) (by omega) (by rw [List.drop_zero]) hs (by omega) (by omega)
  rw [Nat.zero_add] at this
  exact this

/-! ## Tensors -/

theorem packed_append (K : ℕ) (e : List ℕ) (x : ℕ) : packed K (e ++ [x]) = packed K e * K + x := by simp [packed]

theorem packed_lt {K : ℕ} {e : List ℕ} (h : ∀ x ∈ e, x < K) : packed K e < K ^ e.length := by
  induction e using List.reverseRecOn with
  | nil => simp [packed]
  | append_singleton e x ih =>
    rw [packed_append, List.length_append, List.length_singleton, pow_succ]
    have h1 := ih fun y hy => h y (by simp [hy])
    have h2 := h x (by simp)
    calc packed K e * K + x < packed K e * K + K := by omega
      _ = (packed K e + 1) * K := by ring
      _ ≤ K ^ e.length * K := Nat.mul_le_mul_right _ h1

theorem packed_inj {K : ℕ} {e f : List ℕ} (he : ∀ x ∈ e, x < K) (hf : ∀ x ∈ f, x < K) (hl : e.length = f.length) (h : packed K e = packed K f) : e = f := by
  induction e using List.reverseRecOn generalizing f with
  | nil => symm; simpa using hl.symm
  | append_singleton e x ih =>
    rcases List.eq_nil_or_concat f with rfl | ⟨f, y, rfl⟩
    · simp at hl
    · rw [List.concat_eq_append] at *
      rw [packed_append, packed_append] at h
      have hx := he x (by simp)
      have hy := hf y (by simp)
      have hxy : x = y := by
        have := congrArg (· % K) h
        simpa [Nat.add_mod, Nat.mod_eq_of_lt hx, Nat.mod_eq_of_lt hy] using this
      subst hxy
      have hp : packed K e = packed K f := by
        have : packed K e * K = packed K f * K := by omega
        exact Nat.eq_of_mul_eq_mul_right (by omega) this
      rw [ih (fun z hz => he z (by simp [hz])) (fun z hz => hf z (by simp [hz])) (by simpa using hl) hp]

theorem tensorIndex_eq (K : ℕ) (m : ℕ → ℕ) (n base it : ℕ) :
    tensorIndex K m n base it = if ∀ x ∈ (List.range n).map m, x < K then some (it + base * packed K ((List.range n).map m)) else none := by
  induction n generalizing base it with
  | zero => simp [tensorIndex, packed]
  | succ n ih =>
    rw [tensorIndex, List.range_succ, List.map_append, List.map_singleton, packed_append]
    split
    · rename_i h
      rw [if_neg]
      intro H
      have := H (m n) (by simp)
      omega
    · rename_i h
      rw [ih]
      refine if_congr ?_ ?_ rfl
      · constructor
        · intro H x hx
          rw [List.mem_append, List.mem_singleton] at hx
          rcases hx with hx | rfl
          · exact H x hx
          · omega
        · exact fun H x hx => H x (by simp [hx])
      · congr 1; ring

section
variable {V : Type} [CommSemiring V]

theorem fromTensor_run {n N K : ℕ} {tensor c : List V} (hc : L (n + 2) N ≤ c.length) (ht : K ^ (n + 2) ≤ tensor.length) :
    ∃ out, fromTensor (n + 2) N K tensor c = .ok out ∧ out.length = c.length ∧
      ∀ i, at' out i = if i < L (n + 2) N then (if ∀ x ∈ term (n + 2) i, x < K then at' tensor (packed K (term (n + 2) i)) else 0) else at' c i := by
  obtain ⟨s, h1, ⟨h2, h3⟩, -⟩ := forLoop_inv (body := fun term (s : List V × (ℕ → ℕ)) => do
    let c ← match tensorIndex K s.2 (n + 2) 1 0 with
      | none => wrBuf s.1 term 0
      | some it => do
        let x ← rdBuf tensor it
        wrBuf s.1 term x
    let m ← nextExponents (n + 2) s.2
    Outcome.ok (c, m))
    (fun i s => (s.1.length = c.length ∧ ∀ x, at' s.1 x = if x < i then (if ∀ y ∈ term (n + 2) x, y < K then at' tensor (packed K (term (n + 2) x)) else 0) else at' c x) ∧
      (List.range (n + 2)).map s.2 = term (n + 2) i) (L (n + 2) N) 0 (c, fun _ => 0)
    ⟨⟨rfl, fun x => by rw [if_neg (by omega)]⟩, by rw [term_zero]; simp⟩
    (fun i s _ hi ⟨⟨hl, hx⟩, hm⟩ => by
      obtain ⟨m', e1, e2⟩ := next_term hm
      have hlt : i < s.1.length := by omega
      have key : ∀ v, v = (if ∀ y ∈ term (n + 2) i, y < K then at' tensor (packed K (term (n + 2) i)) else 0) → ∀ x,
          at' (s.1.set i v) x = if x < i + 1 then (if ∀ y ∈ term (n + 2) x, y < K then at' tensor (packed K (term (n + 2) x)) else 0) else at' c x := by
        intro v hv x
        rw [at_set _ hlt, hx]
        by_cases e : x = i
        · subst e; rw [if_pos rfl, if_pos (by omega), hv]
        · rw [if_neg e]; exact if_congr (by omega) rfl rfl
      rw [tensorIndex_eq, hm, e1]
      by_cases hk : ∀ y ∈ term (n + 2) i, y < K
      · rw [if_pos hk]
        simp only [Nat.zero_add, Nat.one_mul]
        rw [rd_at ((packed_lt hk).trans_le (by rw [term_length]; exact ht)), Outcome.ok_bind, wrBuf_ok hlt]
        exact ⟨_, rfl, ⟨by rw [List.length_set, hl], key _ (by rw [if_pos hk])⟩, e2⟩
      · rw [if_neg hk]
        simp only
        rw [wrBuf_ok hlt]
        exact ⟨_, rfl, ⟨by rw [List.length_set, hl], key _ (by rw [if_neg hk])⟩, e2⟩)
  rw [Nat.zero_add] at h3
  refine ⟨s.1, ?_, h2, h3⟩
  rw [fromTensor, polylen_nat]
  exact congrArg (fun r => Outcome.bind r fun r => Outcome.ok r.1) h1

theorem toTensor_run {n N K : ℕ} {tensor c : List V} (hc : L (n + 2) N ≤ c.length) (ht : K ^ (n + 2) ≤ tensor.length) :
    ∃ out, toTensor (n + 2) N K c tensor = .ok out ∧ out.length = tensor.length ∧
      (∀ i < L (n + 2) N, (∀ x ∈ term (n + 2) i, x < K) → at' out (packed K (term (n + 2) i)) = at' c i) ∧
      ∀ k, (∀ i < L (n + 2) N, (∀ x ∈ term (n + 2) i, x < K) → packed K (term (n + 2) i) ≠ k) → at' out k = at' tensor k := by
  obtain ⟨s, h1, ⟨h2, h3, h4⟩, -⟩ := forLoop_inv (body := fun term (s : List V × (ℕ → ℕ)) => do
    let t ← match tensorIndex K s.2 (n + 2) 1 0 with
      | none => .ok s.1
      | some it => do
        let x ← rdBuf c term
        wrBuf s.1 it x
    let m ← nextExponents (n + 2) s.2
    Outcome.ok (t, m))
    (fun j s => (s.1.length = tensor.length ∧ (∀ i < j, (∀ x ∈ term (n + 2) i, x < K) → at' s.1 (packed K (term (n + 2) i)) = at' c i) ∧
      ∀ k, (∀ i < j, (∀ x ∈ term (n + 2) i, x < K) → packed K (term (n + 2) i) ≠ k) → at' s.1 k = at' tensor k) ∧
      (List.range (n + 2)).map s.2 = term (n + 2) j) (L (n + 2) N) 0 (tensor, fun _ => 0)
    ⟨⟨rfl, fun i hi => absurd hi (by omega), fun k _ => rfl⟩, by rw [term_zero]; simp⟩
    (fun j s _ hj ⟨⟨hl, hx, hy⟩, hm⟩ => by
      obtain ⟨m', e1, e2⟩ := next_term hm
      rw [tensorIndex_eq, hm, e1]
      by_cases hk : ∀ y ∈ term (n + 2) j, y < K
      · rw [if_pos hk]
        simp only [Nat.zero_add, Nat.one_mul]
        have hlt : packed K (term (n + 2) j) < s.1.length := by
          rw [hl]; exact (packed_lt hk).trans_le (by rw [term_length]; exact ht)
        rw [rd_at (by omega : j < c.length), Outcome.ok_bind, wrBuf_ok hlt]
        refine ⟨_, rfl, ⟨by rw [List.length_set, hl], fun i hi hi' => ?_, fun k hk' => ?_⟩, e2⟩
        · rw [at_set _ hlt]
          by_cases e : i = j
          · subst e; rw [if_pos rfl]
          · rw [if_neg (fun h => e (term_inj (packed_inj hi' hk (by rw [term_length, term_length]) h)))]
            exact hx i (by omega) hi'
        · rw [at_set _ hlt, if_neg (fun h => hk' j (by omega) hk h.symm)]
          exact hy k fun i hi => hk' i (by omega)
      · rw [if_neg hk]
        refine ⟨_, rfl, ⟨hl, fun i hi hi' => ?_, fun k hk' => hy k fun i hi => hk' i (by omega)⟩, e2⟩
        by_cases e : i = j
        · subst e; exact absurd hi' hk
        · exact hx i (by omega) hi')
  rw [Nat.zero_add] at h3 h4
  refine ⟨s.1, ?_, h2, h3, h4⟩
  rw [toTensor, polylen_nat]
  exact congrArg (fun r => Outcome.bind r fun r => Outcome.ok r.1) h1

/-! ## One variable -/

theorem next_one (m : ℕ → ℕ) : ∃ m', nextExponents 1 m = .ok m' ∧ m' 0 = 0 := ⟨_, rfl, by simp [setAt]⟩

theorem fromTensor_one {N K : ℕ} (hK : 0 < K) {tensor c : List V} (hc : N + 1 ≤ c.length) (ht : K ≤ tensor.length) :
    ∃ out, fromTensor 1 N K tensor c = .ok out ∧ out.length = c.length ∧ ∀ i, at' out i = if i < N + 1 then at' tensor 0 else at' c i := by
  obtain ⟨s, h1, ⟨h2, h3⟩, -⟩ := forLoop_inv (body := fun term (s : List V × (ℕ → ℕ)) => do
    let c ← match tensorIndex K s.2 1 1 0 with
      | none => wrBuf s.1 term 0
      | some it => do
        let x ← rdBuf tensor it
        wrBuf s.1 term x
    let m ← nextExponents 1 s.2
    Outcome.ok (c, m))
    (fun i s => (s.1.length = c.length ∧ ∀ x, at' s.1 x = if x < i then at' tensor 0 else at' c x) ∧ s.2 0 = 0) (N + 1) 0 (c, fun _ => 0)
    ⟨⟨rfl, fun x => by rw [if_neg (by omega)]⟩, rfl⟩
    (fun i s _ hi ⟨⟨hl, hx⟩, hm⟩ => by
      obtain ⟨m', e1, e2⟩ := next_one s.2
      have hlt : i < s.1.length := by omega
      rw [e1, tensorIndex, if_neg (by omega), tensorIndex, hm]
      simp only [Nat.zero_mul, Nat.zero_add]
      rw [rd_at (by omega : 0 < tensor.length), Outcome.ok_bind, wrBuf_ok hlt]
      refine ⟨_, rfl, ⟨by rw [List.length_set, hl], fun x => ?_⟩, e2⟩
      rw [at_set _ hlt, hx]
      by_cases e : x = i
      · subst e; rw [if_pos rfl, if_pos (by omega)]
      · rw [if_neg e]; exact if_congr (by omega) rfl rfl)
  rw [Nat.zero_add] at h3
  refine ⟨s.1, ?_, h2, h3⟩
  rw [fromTensor, polylen_nat, L_one]
  exact congrArg (fun r => Outcome.bind r fun r => Outcome.ok r.1) h1

end

end XCFun.Polymul
