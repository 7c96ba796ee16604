/-
Lemmas on the Python layer: rows of a two-dimensional array, `xcfun_eval_vec` on consecutive rows.
-/
import Verif.Model.Python
import Verif.Props.Vec
import Verif.Props.Potential
import Verif.Props.Scaling

namespace XCFun.Props
open XCFun Spec

variable {V : Type}

theorem toInt_of_lt {n : ℕ} (h : n < 2147483648) : toInt n = n := by
  unfold toInt; omega

/-- Row `i` of a two-dimensional array with `L` columns. -/
def NdArray.row (a : NdArray V) (i : ℕ) (k : ℕ) : V := a.elem [i, k]

theorem flat_two {a : NdArray V} {n L : ℕ} (h : a.shape = [n, L]) :
    a.flat = (List.range n).flatMap fun i => (List.range L).map (NdArray.row a i) := by
  simp only [NdArray.flat, h, NdArray.flat.go]
  congr 1
  funext i
  exact (List.map_eq_flatMap).symm

theorem flat_one {a : NdArray V} {n : ℕ} (h : a.shape = [n]) :
    a.flat = (List.range n).map fun i => a.elem [i] := by
  simp only [NdArray.flat, h, NdArray.flat.go]
  exact (List.map_eq_flatMap).symm

theorem drop_rows (n L : ℕ) (f : ℕ → ℕ → V) {i : ℕ} (hi : i < n) :
    ∃ rest, ((List.range n).flatMap fun i => (List.range L).map (f i)).drop (i * L) =
      (List.range L).map (f i) ++ rest := by
  obtain ⟨m, rfl⟩ : ∃ m, n = i + (m + 1) := ⟨n - i - 1, by omega⟩
  rw [List.range_add, List.flatMap_append]
  refine ⟨?_, ?_⟩
  rotate_left
  · rw [List.drop_left' (by simp [List.length_flatMap])]
    rw [List.range_succ_eq_map, List.map_cons, List.flatMap_cons]
    rfl

theorem rows_length (n L : ℕ) (f : ℕ → ℕ → V) :
    ((List.range n).flatMap fun i => (List.range L).map (f i)).length = n * L := by
  simp [List.length_flatMap]

section
variable [Zero V] [One V] [Add V] [Sub V] [Mul V]

/-- `xcfun_eval_vec` over consecutive rows: every row of the output starts with what `xcfun_eval` writes for the point. -/
theorem vec_rows (K : Kernel V) (junk : Junk V) (s : State V) {n L M : ℕ} (f : ℕ → ℕ → V) (buf : List V)
    (hb : buf.length = n * M) (hnL : n * L < 2147483648) (hnM : n * M < 2147483648) (hn : n < 2147483648)
    (res : ℕ → List V) (hres : ∀ i < n, (res i).length ≤ M)
    (he : ∀ i < n, ∀ rest out, M ≤ out.length →
      xcfunEval K junk s ((List.range L).map (f i) ++ rest) out = .ok (res i ++ out.drop (res i).length)) :
    ∃ out, xcfunEvalVec K junk s (toInt n) ((List.range n).flatMap fun i => (List.range L).map (f i)) 0 L buf 0 M
        = .ok out ∧ out.length = n * M ∧
      ∀ i < n, ∀ j < M, out[i * M + j]? = if j < (res i).length then (res i)[j]? else buf[i * M + j]? := by
  have hin : ∀ i < n, ∀ w : ℕ, (i + 1) * w ≤ n * w := fun i hi w => Nat.mul_le_mul_right _ hi
  obtain ⟨out, e1, e2, e3⟩ := vec_core K junk s ((List.range n).flatMap fun i => (List.range L).map (f i)) 0 L 0 M M n res
    (n * M) hres
    (fun i hi => by
      have := hin i hi L
      rw [rows_length, Nat.add_mul] at *
      have h2 : ((i * L : ℕ) : ℤ) = (i : ℤ) * L := by push_cast; rfl
      rw [← h2]
      unfold inInt
      omega)
    (fun i hi => by
      have := hin i hi M
      rw [Nat.add_mul] at *
      have h2 : ((i * M : ℕ) : ℤ) = (i : ℤ) * M := by push_cast; rfl
      rw [← h2]
      unfold inInt
      omega)
    (fun i hi out ho => by
      obtain ⟨rest, hr⟩ := drop_rows n L f hi
      have h2 : (0 + (i : ℤ) * L).toNat = i * L := by
        have : (i : ℤ) * L = ((i * L : ℕ) : ℤ) := by push_cast; rfl
        rw [this]; omega
      rw [h2, hr]
      exact he i hi rest out ho) n 0 buf hb (by omega)
  refine ⟨out, ?_, e2, fun i hi j hj => ?_⟩
  · unfold xcfunEvalVec
    rw [toInt_of_lt hn, Int.toNat_natCast]
    exact e1
  · obtain ⟨g1, g2⟩ := e3 (i * M + j)
    have key : ∀ i' < n, i' ≠ i →
        ¬ (0 + (i' : ℤ) * M ≤ ((i * M + j : ℕ) : ℤ) ∧ ((i * M + j : ℕ) : ℤ) < 0 + (i' : ℤ) * M + (res i').length) := by
      intro i' hi' hne hc
      have hl := hres i' hi'
      have c1 : i' * M ≤ i * M + j := by have := hc.1; push_cast at this; exact_mod_cast (by linarith)
      have c2 : i * M + j < i' * M + M := by
        have := hc.2; push_cast at this
        have hl' : ((res i').length : ℤ) ≤ M := by exact_mod_cast hl
        exact_mod_cast (by linarith)
      rcases Nat.lt_or_gt_of_ne hne with h | h
      · have : (i' + 1) * M ≤ i * M := Nat.mul_le_mul_right _ h
        rw [Nat.add_mul] at this; omega
      · have : (i + 1) * M ≤ i' * M := Nat.mul_le_mul_right _ h
        rw [Nat.add_mul] at this; omega
    by_cases hw : j < (res i).length
    · rw [if_pos hw, g1 i (by omega) (by omega) (by push_cast; omega) (by push_cast; omega)
        (fun i' q1 q2 => key i' (by omega) (by omega))]
      congr 1
      push_cast
      omega
    · rw [if_neg hw, g2 fun i' _ q2 => ?_]
      by_cases hii : i' = i
      · subst hii
        intro hc
        have := hc.2
        push_cast at this
        omega
      · exact key i' (by omega) hii

instance : LawfulMonad Outcome := LawfulMonad.mk' Outcome
  (id_map := fun x => by cases x <;> rfl)
  (pure_bind := fun _ _ => rfl)
  (bind_assoc := fun x _ _ => by cases x <;> rfl)

/-- `[:, 0]` of an array with at least one column. -/
theorem column0_eq {a : PyArray V} (e : ℕ → V) (h : ∀ i < a.rows, a.data[i * a.cols]? = some (e i)) :
    column0 a = .ok ((List.range a.rows).map e) := by
  unfold column0
  have : ∀ l : List ℕ, (∀ i ∈ l, a.data[i * a.cols]? = some (e i)) →
      l.mapM (fun i => rdBuf a.data (i * a.cols)) = .ok (l.map e) := by
    intro l
    induction l with
    | nil => intro _; rfl
    | cons i l ih =>
      intro hl
      rw [List.mapM_cons, ih fun i hi => hl i (List.mem_cons_of_mem _ hi)]
      simp only [rdBuf, hl i List.mem_cons_self]
      rfl
  exact this _ fun i hi => h i (by simpa using hi)

/-- The binding's `xcfun_eval` on a two-dimensional array of the right width. -/
theorem pyEval_two {K : Kernel V} {junk : Junk V} {uninit : ℕ → V} {s : State V} {a : NdArray V} {n M : ℕ} {v : Vars}
    (hv : s.vars = some v) (ho : outputLength s = .ok (M : ℤ)) (ha : a.shape = [n, v.len])
    (hnL : n * v.len < 2147483648) (hnM : n * M < 2147483648) (hn : n < 2147483648)
    (res : ℕ → List V) (hres : ∀ i < n, (res i).length ≤ M)
    (he : ∀ i < n, ∀ rest out, M ≤ out.length →
      xcfunEval K junk s ((List.range v.len).map (NdArray.row a i) ++ rest) out =
        .ok (res i ++ out.drop (res i).length)) :
    ∃ data, pyEval K junk uninit s a = .ok (.ok ⟨n, M, data⟩) ∧ data.length = n * M ∧
      ∀ i < n, ∀ j < M, data[i * M + j]? = if j < (res i).length then (res i)[j]? else some (uninit (i * M + j)) := by
  obtain ⟨out, e1, e2, e3⟩ := vec_rows K junk s (NdArray.row a) ((List.range (n * M)).map uninit) (by simp) hnL hnM hn
    res hres he
  refine ⟨out, ?_, e2, fun i hi j hj => ?_⟩
  · have hi : inputLength s = .ok (v.len : ℤ) := by simp [inputLength, hv]
    unfold pyEval
    rw [hi, ho, ha, flat_two ha]
    simp [e1]
  · rw [e3 i hi j hj]
    have : i * M + j < n * M := by
      have : (i + 1) * M ≤ n * M := Nat.mul_le_mul_right _ hi
      rw [Nat.add_mul] at this; omega
    rw [show ((List.range (n * M)).map uninit)[i * M + j]? = some (uninit (i * M + j)) by simp [this]]

end

end XCFun.Props
