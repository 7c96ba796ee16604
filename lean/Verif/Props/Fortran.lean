/-
C48: the Fortran module.
-/
import Verif.Model.Fortran
import Verif.Proofs.Python
import Verif.Props.Settings

namespace XCFun.Props
open XCFun Spec

theorem cString_append {l rest : List Char} (h : '\x00' ∉ l) : cString (l ++ '\x00' :: rest) = .ok (String.ofList l) := by
  induction l with
  | nil => rfl
  | cons c l ih =>
    have hc : ¬ c = '\x00' := fun e => h (by simp [e])
    simp only [List.cons_append, cString, if_neg hc, ih fun hm => h (List.mem_cons_of_mem _ hm)]
    simp

theorem cString_no_nul {l : List Char} (h : '\x00' ∉ l) : cString l = .ub := by
  induction l with
  | nil => rfl
  | cons c l ih =>
    have hc : ¬ c = '\x00' := fun e => h (by simp [e])
    simp only [cString, if_neg hc, ih fun hm => h (List.mem_cons_of_mem _ hm)]
    rfl

section
variable {V : Type} [Add V] [Mul V] [Lit V]

/-- **C48, `xcfun_set` and `xcfun_get`.** A Fortran string without NUL reaches the library character by character. -/
theorem C48_names (s : State V) (param : String) (val : V) (h : '\x00' ∉ param.toList) :
    fSet s param val = xcfunSet s param val ∧ fGet s param = .ok (xcfunGet s param) := by
  have := cString_append (rest := []) h
  simp only [fSet, fGet, fstringToCarray, this, Outcome.ok_bind, String.ofList_toList, Outcome.pure_eq, and_self]

theorem no_blank_functional : ∀ f ∈ funs, ' ' ∉ f.name.toList.map Char.toLower := by decide +kernel
theorem no_blank_parameter : ∀ f ∈ params, ' ' ∉ f.name.toList.map Char.toLower := by decide +kernel
theorem no_blank_alias : ∀ f ∈ aliases, ' ' ∉ f.name.toList.map Char.toLower := by decide +kernel

theorem known_no_blank {name : String} (h : IsKnown name) : ' ' ∉ name.toList := by
  have key : ∀ n : String, SameName name n → ' ' ∉ n.toList.map Char.toLower → ' ' ∉ name.toList := by
    intro n hs hn hb
    rw [← hs] at hn
    exact hn (List.mem_map.2 ⟨' ', hb, by decide⟩)
  rcases h with (⟨f, hf, hs⟩ | ⟨p, hp, hs⟩) | ⟨a, ha, hs⟩
  · exact key _ hs (no_blank_functional f hf)
  · exact key _ hs (no_blank_parameter p hp)
  · exact key _ hs (no_blank_alias a ha)

/-- **C48, no trimming.** The wrapper does not remove trailing blanks: a name held in a longer variable, padded with blanks as Fortran
does, is rejected, whatever the name; the object is unchanged. -/
theorem C48_padded_name_rejected (h : List (Call V)) (s : State V) (hr : run State.init h = .ok s) (param : String) (val : V)
    (hn : '\x00' ∉ param.toList) (hb : ' ' ∈ param.toList) :
    fSet s param val = .ok (-1, s) ∧ fGet s param = .ok (-1, none) := by
  obtain ⟨h1, h2⟩ := C48_names s param val hn
  have hk : ¬ IsKnown param := fun hk => known_no_blank hk hb
  obtain ⟨s', e1, e2⟩ := C03_set_total h s hr param val
  rw [h1, h2, e1, e2 hk, if_neg hk, (C03_get s param).2 fun he => hk (Or.inl he)]
  exact ⟨rfl, rfl⟩

end

/-- A name in a `character(len=10)` variable. -/
example : ∃ s : State ℚ, run State.init [] = .ok s ∧ fSet s "pbex      " 1 = .ok (-1, s) ∧
    (∃ s', fSet s "pbex" 1 = .ok (0, s') ∧ s'.active = [5]) := by
  obtain ⟨s', e1, e2⟩ : ∃ s' : State ℚ, xcfunSet State.init "pbex" 1 = .ok (0, s') ∧ s'.active = [5] := ⟨_, rfl, rfl⟩
  exact ⟨_, rfl, (C48_padded_name_rejected [] _ rfl _ 1 (by decide) (by decide)).1, s',
    (C48_names _ _ _ (by decide)).1.trans e1, e2⟩

/-- **C48, descriptions.** `xcfun_describe_short` and `xcfun_describe_long` pass the name on without a terminating NUL: unless the
caller's own string contains one, the library reads past its end.  With an explicit NUL the answer is that of the C function. -/
theorem C48_describe (name : List Char) :
    ('\x00' ∉ name → fDescribeShort name = .ub ∧ fDescribeLong name = .ub) ∧
    ∀ n rest : List Char, '\x00' ∉ n → name = n ++ '\x00' :: rest →
      fDescribeShort name = .ok (describeShort (String.ofList n)) ∧ fDescribeLong name = .ok (describeLong (String.ofList n)) := by
  refine ⟨fun h => ?_, ?_⟩
  · simp [fDescribeShort, fDescribeLong, cString_no_nul h]
  · rintro n rest hn rfl
    simp [fDescribeShort, fDescribeLong, cString_append hn]

example : fDescribeShort "pbex".toList = .ub ∧ fDescribeShort "pbex\x00".toList = .ok (some (.funShort 5)) := by
  refine ⟨((C48_describe _).1 (by decide)).1, ?_⟩
  rw [((C48_describe _).2 "pbex".toList [] (by decide) (by decide)).1]
  decide +kernel

/-- **C48, returned text.** As written, `text_handler` has no defined behaviour for any argument: its last assignment is outside
`msg`. -/
theorem C48_text_handler_undefined (mem : Option (List Char)) (length : ℕ) (hl : 0 < length) :
    textHandler true mem length = .ub := by
  unfold textHandler
  split
  · rfl
  · split
    · rfl
    · simp [hl]

/-- **C48, returned text, without bounds checking.** Suppose the stray store has no effect.  Then the result is the C string padded with
blanks, provided the string with its NUL has at most `length` characters and `length` characters can be read; reading fewer is
undefined, and so is the null pointer that the enumeration functions return for numbers out of range; a longer string gives
blanks only. -/
theorem C48_text_handler (length : ℕ) :
    (∀ str rest : List Char, '\x00' ∉ str → str.length < length → length ≤ (str ++ '\x00' :: rest).length →
      textHandler false (some (str ++ '\x00' :: rest)) length = .ok (str ++ List.replicate (length - str.length) ' ')) ∧
    (∀ mem : List Char, mem.length < length → textHandler false (some mem) length = .ub) ∧
    textHandler false none length = .ub ∧
    (∀ str rest : List Char, '\x00' ∉ str → length ≤ str.length →
      textHandler false (some (str ++ rest)) length = .ok (List.replicate length ' ')) := by
  refine ⟨fun str rest hs hl hm => ?_, fun mem h => ?_, rfl, fun str rest hs hl => ?_⟩
  · have ht : (str ++ '\x00' :: rest).take length = str ++ '\x00' :: rest.take (length - str.length - 1) := by
      rw [List.take_append, List.take_of_length_le (by omega)]
      obtain ⟨k, hk⟩ : ∃ k, length - str.length = k + 1 := ⟨length - str.length - 1, by omega⟩
      rw [hk]; rfl
    have hi : (str ++ '\x00' :: rest.take (length - str.length - 1)).idxOf '\x00' = str.length := by
      rw [List.idxOf_append_of_notMem hs]; simp
    have hu : (str ++ '\x00' :: rest.take (length - str.length - 1)).take (str.length + 1) = str ++ ['\x00'] := by
      rw [List.take_append, List.take_of_length_le (by omega)]; simp
    unfold textHandler
    simp only [not_lt.2 hm, if_false, Bool.false_eq_true, false_and, ht, List.mem_append, List.mem_cons, true_or, or_true,
      if_true, hi, hu]
    simp
  · simp [textHandler, h]
  · have ht : (str ++ rest).take length = str.take length := by
      rw [List.take_append_of_le_length hl]
    have hn : '\x00' ∉ str.take length := fun h => hs (List.mem_of_mem_take h)
    have hm : ¬ (str ++ rest).length < length := by simp; omega
    unfold textHandler
    simp only [hm, ht, hn, if_false, Bool.false_eq_true, false_and]
    simp

/-- The name of a functional with its NUL, alone in memory, is shorter than the 5000 characters `xcfun_enumerate_parameters` reads. -/
example : textHandler false (some "pbex\x00".toList) 5000 = .ub ∧
    textHandler false (some "ab\x00xyz".toList) 5 = .ok "ab   ".toList :=
  ⟨(C48_text_handler 5000).2.1 _ (by decide), (C48_text_handler 5).1 "ab".toList "xyz".toList (by decide) (by decide) (by decide)⟩

/-- **C48, `xcfun_eval` on arrays.** Columns are points.  If `density` has as many rows as the input, `res` as many rows as the output, and
both at least `n` columns, then column `j < n` of `res` receives what `xcfun_eval` returns for column `j` of `density`; all other
columns keep their values. -/
theorem C48_eval_vec (s : State ℝ) {v : Vars} (hvs : s.vars = some v) (hsup : DV.reads v ≠ none)
    (hm : s.mode = PARTIAL_DERIVATIVES) {k M : ℕ} (hk : s.order = k) (hk3 : k ≤ 3) (hM : outputLength s = .ok (M : ℤ))
    (junk : Junk ℝ) (density res : FArray ℝ) {n : ℕ} (hd : density.rows = v.len) (hrr : res.rows = M)
    (hnd : n ≤ density.cols) (hnr : n ≤ res.cols) (h1 : density.cols ≠ 0) (h2 : res.cols ≠ 0)
    (hsmall : n * v.len < 2147483648 ∧ n * M < 2147483648) :
    ∃ out, fEvalVec codeKernel junk s n density res = .ok out ∧ out.length = res.cols * M ∧
      (∀ j < n, ∃ r, (∀ o : List ℝ, o.length = M →
        xcfunEval codeKernel junk s ((List.range v.len).map fun i => density.elem i j) o = .ok r) ∧
          r.length = M ∧ ∀ i < M, out[j * M + i]? = r[i]?) ∧
      ∀ j < res.cols, n ≤ j → ∀ i < M, out[j * M + i]? = some (res.elem i j) := by
  have hc : ∀ j < n, ∀ w : ℕ, (j + 1) * w ≤ n * w := fun j hj w => Nat.mul_le_mul_right _ hj
  set R : ℕ → List ℝ := fun j => layout v.len k (energyAt s v fun i => density.elem i j)
        (fun i => (energyOn s v (seed1 (fun i => density.elem i j) (some i))).get 1)
        (fun i l => (energyOn s v (seed2 (fun i => density.elem i j) (some i) (some l))).get 3)
        (fun i l m => (energyOn s v (seed3 (fun i => density.elem i j) (some i) (some l) (some m))).get 7) with hR
  have hE : ∀ j rest out, M ≤ out.length →
      xcfunEval codeKernel junk s ((List.range v.len).map (fun i => density.elem i j) ++ rest) out =
        .ok (R j ++ out.drop M) := fun j rest out ho =>
    C15_order_of_derivatives s v hvs hm k hk hk3 hsup _ rest out junk M hM ho
  have hRl : ∀ j, (R j).length = M := by
    intro j
    have hL : outputLength s = taylorlen v.len k := by
      have h1 : ¬ (PARTIAL_DERIVATIVES = MODE_UNSET) := by decide
      have h2 : ¬ ((k : ℤ) = -1) := by omega
      simp only [outputLength, hm, h1, hvs, hk, h2, if_false, if_true]
    have hl := outlen_eq v hk3 (energyAt s v fun i => density.elem i j)
        (fun i => (energyOn s v (seed1 (fun i => density.elem i j) (some i))).get 1)
        (fun i l => (energyOn s v (seed2 (fun i => density.elem i j) (some i) (some l))).get 3)
        (fun i l m => (energyOn s v (seed3 (fun i => density.elem i j) (some i) (some l) (some m))).get 7)
    rw [← hL, hM] at hl
    have := Outcome.ok.inj hl
    exact_mod_cast this.symm
  have hdl : density.flat.length = density.cols * v.len := by
    rw [FArray.flat, rows_length density.cols density.rows fun j i => density.elem i j, hd]
  have hrl : res.flat.length = res.cols * M := by
    rw [FArray.flat, rows_length res.cols res.rows fun j i => res.elem i j, hrr]
  have hcast : ∀ a b : ℕ, ((a : ℤ) * b) = ((a * b : ℕ) : ℤ) := fun a b => by push_cast; rfl
  obtain ⟨out, e1, e2, e3⟩ := vec_core codeKernel junk s density.flat 0 v.len 0 M M n R
    (res.cols * M) (fun j _ => (hRl j).le)
    (fun j hj => by
      have a1 := hc j hj v.len
      have a2 : n * v.len ≤ density.cols * v.len := Nat.mul_le_mul_right _ hnd
      rw [hdl, hcast]
      rw [Nat.add_mul] at a1
      unfold inInt
      omega)
    (fun j hj => by
      have a1 := hc j hj M
      have a2 : n * M ≤ res.cols * M := Nat.mul_le_mul_right _ hnr
      rw [hcast]
      rw [Nat.add_mul] at a1
      unfold inInt
      omega)
    (fun j hj out ho => by
      obtain ⟨rest, hr⟩ := drop_rows density.cols v.len (fun j i => density.elem i j) (i := j) (by omega)
      rw [show (0 + (j : ℤ) * v.len).toNat = j * v.len by rw [hcast]; omega, FArray.flat, hd, hr, hE j rest out ho, hRl])
    n 0 res.flat hrl (by omega)
  have key : ∀ j' < n, ∀ j i, i < M → j' ≠ j →
      ¬ (0 + (j' : ℤ) * M ≤ ((j * M + i : ℕ) : ℤ) ∧ ((j * M + i : ℕ) : ℤ) < 0 + (j' : ℤ) * M + (R j').length) := by
    intro j' hj' j i hi hne hcc
    rw [hRl, hcast] at hcc
    have c1 := hcc.1
    have c2 := hcc.2
    rcases Nat.lt_or_gt_of_ne hne with h | h
    · have : (j' + 1) * M ≤ j * M := Nat.mul_le_mul_right _ h
      rw [Nat.add_mul] at this; omega
    · have : (j + 1) * M ≤ j' * M := Nat.mul_le_mul_right _ h
      rw [Nat.add_mul] at this; omega
  refine ⟨out, ?_, e2, fun j hj => ⟨R j, fun o ho => ?_, hRl j, fun i hi => ?_⟩, fun j hj hnj i hi => ?_⟩
  · unfold fEvalVec xcfunEvalVec
    rw [if_neg (by simp [h1, h2]), Int.toNat_natCast, hd, hrr]
    exact e1
  · have := hE j [] o ho.ge
    rw [List.append_nil] at this
    rw [this, List.drop_of_length_le ho.le, List.append_nil]
  · rw [(e3 (j * M + i)).1 j (by omega) (by omega) (by push_cast; omega) (by rw [hRl]; push_cast; omega)
      (fun j' q1 q2 => key j' (by omega) j i hi (by omega))]
    congr 1
    push_cast
    omega
  · rw [(e3 (j * M + i)).2 fun j' _ q2 => key j' (by omega) j i hi (by omega)]
    obtain ⟨rest, hr⟩ := drop_rows res.cols M (fun j i => res.elem i j) (i := j) hj
    have : res.flat[j * M + i]? = (res.flat.drop (j * M))[i]? := by rw [List.getElem?_drop]
    rw [this, FArray.flat, hrr, hr, List.getElem?_append_left (by simpa using hi)]
    simp [hi]

/-- Slater exchange at two points, derivatives up to order 1, in an array with a spare column. -/
example (junk : Junk ℝ) : ∃ s : State ℝ,
    run State.init [.set "slaterx" (1 : ℝ), .evalSetup Vars.A_B.code PARTIAL_DERIVATIVES 1] = .ok s ∧
    ∃ out, fEvalVec codeKernel junk s 2 ⟨2, 2, fun i j => i + j + 1⟩ ⟨3, 3, fun _ _ => 7⟩ = .ok out ∧
      out.length = 9 ∧ out[8]? = some 7 := by
  obtain ⟨s, hr, hv, hm, ho⟩ : ∃ s : State ℝ,
      run State.init [.set "slaterx" (1 : ℝ), .evalSetup Vars.A_B.code PARTIAL_DERIVATIVES 1] = .ok s ∧
        s.vars = some .A_B ∧ s.mode = PARTIAL_DERIVATIVES ∧ s.order = 1 := ⟨_, rfl, rfl, rfl, rfl⟩
  have hl : outputLength s = .ok ((3 : ℕ) : ℤ) := by
    have h1 : ¬ (PARTIAL_DERIVATIVES = MODE_UNSET) := by decide
    have h2 : ¬ ((1 : ℤ) = -1) := by decide
    simp only [outputLength, hm, h1, hv, ho, h2, if_false, if_true]
    decide
  obtain ⟨out, e1, e2, -, e3⟩ := C48_eval_vec s hv (by decide) hm (k := 1) ho (by decide) hl junk
    ⟨2, 2, fun i j => i + j + 1⟩ ⟨3, 3, fun _ _ => 7⟩ (n := 2) rfl rfl (by decide) (by decide) (by decide) (by decide)
    (by decide)
  exact ⟨s, hr, out, e1, e2, e3 2 (by decide) (by decide) 2 (by decide)⟩

end XCFun.Props
