/-
C59, C60: rounding errors of the differentiation arithmetic and of the sum over the functionals.

`A : Rounded V` is any arithmetic whose operations have relative error at most `A.u`; `A.val x`
is the real number that `x` stands for.  `Bits.rounded 53` is binary arithmetic with 53 bits
rounded to nearest (`double`, without its limits on the exponent), with `u = 2^(-53)`.
-/
import Verif.Proofs.RoundingEval
import Verif.Props.Ctaylor

namespace XCFun.Props
open XCFun Spec

variable {V : Type} [Zero V] [One V] [Add V] [Sub V] [Mul V] [Neg V] (A : Rounded V)

/-! ### C59 -/

/-- Reads the coefficients at `p` as exact numbers. -/
def vals (m : Mem V) (p : ℕ) : ℕ → ℝ := fun j => A.val (m (p + j))

/-- Absolute values. -/
def mag (f : ℕ → ℝ) : ℕ → ℝ := fun j => |f j|

section
variable {A}

private theorem nearB_self (n : ℕ) (m : Mem V) (p : ℕ) :
    NearB A n 0 m (fun q => A.val (m q)) (fun q => |A.val (m q)|) p :=
  fun _ _ => Near.refl _

end

/-- **C59.** The product of two expansions in `n` variables, computed with rounding by `mul_set`
(`operator*`): every coefficient differs from the exact one by at most
`(1+u)^(3+2^(n-2)) - 1` times the same coefficient of the product of the absolute values. -/
theorem C59_product (n dst x y : ℕ) (m : Mem V) (hx : Apart dst (2 ^ n) x (2 ^ n))
    (hy : Apart dst (2 ^ n) y (2 ^ n)) (i : ℕ) (hi : i < 2 ^ n) :
    |A.val (recMulSet n dst x y m (dst + i)) - subsetProduct n (vals A m x) (vals A m y) i| ≤
      ((1 + A.u) ^ (3 + 2 ^ (n - 2)) - 1) *
        subsetProduct n (mag (vals A m x)) (mag (vals A m y)) i := by
  have h := (recMulSet_near n dst x y m _ _ hx hy (nearB_self (A := A) n m x) (nearB_self n m y) i hi).1
  rw [(C25_product n dst x y (fun q => A.val (m q)) hx hy).1 i hi,
    (C25_product n dst x y (fun q => |A.val (m q)|) hx hy).1 i hi] at h
  simp only [Nat.add_zero, Nat.zero_add] at h
  exact h

/-- **C59.** The same for the in-place product `multo` (`operator*=`). -/
theorem C59_product_in_place (n dst y : ℕ) (m : Mem V) (hy : Apart dst (2 ^ n) y (2 ^ n)) (i : ℕ)
    (hi : i < 2 ^ n) :
    |A.val (recMulto n dst y m (dst + i)) - subsetProduct n (vals A m dst) (vals A m y) i| ≤
      ((1 + A.u) ^ (3 + 2 ^ (n - 2)) - 1) *
        subsetProduct n (mag (vals A m dst)) (mag (vals A m y)) i := by
  have h := (recMulto_near n dst y m _ _ hy (nearB_self (A := A) n m dst) (nearB_self n m y) i hi).1
  rw [(C27_in_place n dst y (fun q => A.val (m q)) hy).1 i hi,
    (C27_in_place n dst y (fun q => |A.val (m q)|) hy).1 i hi] at h
  simp only [Nat.add_zero, Nat.zero_add] at h
  exact h

/-- **C59.** Composition with a power series, as done for every elementary function: every
coefficient differs from the exact one by at most `(1+u)^(n*(4+2^(n-2))) - 1` times the same
coefficient of the composition of the absolute values. -/
theorem C59_compose (n res x coeff : ℕ) (m : Mem V) (hx : Apart res (2 ^ n) x (2 ^ n))
    (hc : Apart res (2 ^ n) coeff (n + 1)) (i : ℕ) (hi : i < 2 ^ n) :
    |A.val (recCompose n res x coeff m (res + i)) -
      (∑ k ∈ Finset.range (n + 1), CT.const n (vals A m coeff k) *
        (CT.ofFn n (vals A m x) - CT.const n (vals A m x 0)) ^ k).get i| ≤
      ((1 + A.u) ^ (n * (4 + 2 ^ (n - 2))) - 1) *
      (∑ k ∈ Finset.range (n + 1), CT.const n (mag (vals A m coeff) k) *
        (CT.ofFn n (mag (vals A m x)) - CT.const n (mag (vals A m x) 0)) ^ k).get i := by
  have h := (recCompose_near n res x coeff m _ _ hx hc (nearB_self (A := A) n m x)
    (fun j _ => Near.refl (m (coeff + j))) i hi).1
  have e1 := congrArg (fun t => CT.get t i) (C28_compose n res x coeff (fun q => A.val (m q)) hx hc).1
  have e2 := congrArg (fun t => CT.get t i) (C28_compose n res x coeff (fun q => |A.val (m q)|) hx hc).1
  simp only [get_rd _ _ hi] at e1 e2
  rw [e1, e2] at h
  simp only [Nat.zero_add] at h
  exact h

-- `double` precision: relative error `2^(-53)`.
example : (Bits.rounded 53).u = 1 / 9007199254740992 := by norm_num [Bits.rounded]

-- The operations do round: with 2 bits, 1 + 1/8 is 1.
example : (⟨1⟩ + ⟨1 / 8⟩ : Bits 2) = ⟨1⟩ := by
  show (⟨roundBits 2 (1 + 1 / 8)⟩ : Bits 2) = ⟨1⟩
  have h : Int.log 2 |(1 + 1 / 8 : ℝ)| = 0 := by
    refine le_antisymm ?_ ?_
    · rw [← Int.lt_add_one_iff, ← Int.lt_zpow_iff_log_lt (by norm_num) (by norm_num)]
      norm_num [abs_of_pos]
    · rw [← Int.zpow_le_iff_le_log (by norm_num) (by norm_num)]
      norm_num [abs_of_pos]
  unfold roundBits
  rw [h]
  norm_num [round_eq]

-- Coefficient 7 of a product of two expansions in three variables has eight terms; five roundings
-- bound the error.
example (m : Mem (Bits 53)) (h8 : ∀ q, 8 ≤ q → m q = ⟨1 / 3⟩) :
    |(recMulSet 3 0 8 16 m 7).real - 8 / 9| ≤ ((1 + (1 / 2) ^ 53) ^ 5 - 1) * (8 / 9) := by
  have h := C59_product (Bits.rounded 53) 3 0 8 16 m (by unfold Apart; omega) (by unfold Apart; omega)
    7 (by norm_num)
  have v1 : vals (Bits.rounded 53) m 8 = fun _ => 1 / 3 := funext fun j => by
    rw [vals, h8 _ (by omega)]; rfl
  have v2 : vals (Bits.rounded 53) m 16 = fun _ => 1 / 3 := funext fun j => by
    rw [vals, h8 _ (by omega)]; rfl
  have v3 : mag (fun _ => (1 / 3 : ℝ)) = fun _ => 1 / 3 := funext fun j => by
    rw [mag]; norm_num
  have v4 : subsetProduct 3 (fun _ => (1 / 3 : ℝ)) (fun _ => 1 / 3) 7 = 8 / 9 := by
    simp [subsetProduct, Finset.sum_range_succ]; norm_num
  rw [v1, v2, v3, v4] at h
  exact h

/-! ### C60 -/

/-- **C60.** Partial-derivative mode, order 0 to 3.  Let `K` be the functionals as computed with
rounding, `K'` the exact ones, and suppose that at the given inputs each coefficient computed for
functional `id` is within `ε id` of the exact one, which is at most `B id`.  Then `xcfun_eval` on the
rounded inputs writes, up to `sumBound`, the numbers that it would write in exact arithmetic: `n`
active functionals contribute `(1+u)^(n+1) - 1` times the size of their terms, and their own errors
times the weights. -/
theorem C60_partial_derivatives (K : Kernel V) (hK : K.Local) (K' : Kernel ℝ) (hK' : K'.Local)
    (s : State V) (s' : State ℝ) (hs : Matches A s s') (v : Vars) (hv : s.vars = some v)
    (hm : s.mode = PARTIAL_DERIVATIVES) (ho : 0 ≤ s.order ∧ s.order ≤ 3)
    (hsup : K.reads v ≠ none) (hsup' : K'.reads v ≠ none) (x : ℕ → V) (B ε : ℕ → ℝ)
    (h : ∀ N ≤ 3, ∀ ρ : ℕ → CT V N, UnitSeed x ρ → Tracks A K K' s s' v B ε ρ) :
    ∃ (res : List V) (res' : List ℝ), outputLength s = .ok (res.length : ℤ) ∧
      (∀ rest output junk, res.length ≤ output.length →
        xcfunEval K junk s ((List.range v.len).map x ++ rest) output =
          .ok (res ++ output.drop res.length)) ∧
      (∀ rest output junk, res.length ≤ output.length →
        xcfunEval K' junk s' ((List.range v.len).map (fun l => A.val (x l)) ++ rest) output =
          .ok (res' ++ output.drop res.length)) ∧
      List.Forall₂ (fun a b => |A.val a - b| ≤
        sumBound A.u s.active (fun id => A.val (s.settings id)) B ε) res res' := by
  obtain ⟨k, hk⟩ : ∃ k : ℕ, s.order = k := ⟨s.order.toNat, by omega⟩
  have hk3 : k ≤ 3 := by omega
  have hr := resultOf_err hs hk3 h
  refine ⟨resultOf K s v x k, resultOf K' s' v (fun l => A.val (x l)) k, ?_, ?_, ?_, hr⟩
  · have h1 : ¬ (PARTIAL_DERIVATIVES = MODE_UNSET) := by decide
    have h2 : ¬ ((k : ℤ) = -1) := by omega
    simp only [outputLength, hm, h1, hv, hk, h2, if_false, if_true]
    exact length_resultOf K s v _ hk3
  · intro rest output junk hlen
    rw [xcfunEval_partial hv hm ho.1]
    have hR : Ready K v ((List.range v.len).map x ++ rest) x :=
      ⟨hK, Option.ne_none_iff_exists'.mp hsup, len_le v, fun i hi => by
        rw [List.getElem?_append_left (by simpa using hi)]; simp [hi]⟩
    rw [eval_resultOf hR junk hk3 hk hlen, splice_zero]
  · intro rest output junk hlen
    rw [hr.length_eq] at hlen ⊢
    rw [xcfunEval_partial (hs.vars.trans hv) (hs.mode.trans hm) (by rw [hs.order]; exact ho.1)]
    have hR : Ready K' v ((List.range v.len).map (fun l => A.val (x l)) ++ rest)
        (fun l => A.val (x l)) :=
      ⟨hK', Option.ne_none_iff_exists'.mp hsup', len_le v, fun i hi => by
        rw [List.getElem?_append_left (by simpa using hi)]; simp [hi]⟩
    rw [eval_resultOf hR junk hk3 (hs.order.trans hk) hlen, splice_zero]

/-- **C60.** Contracted mode, order 0 to 6: the same for the `2^N` coefficients written. -/
theorem C60_contracted (K : Kernel V) (hK : K.Local) (K' : Kernel ℝ) (hK' : K'.Local)
    (s : State V) (s' : State ℝ) (hs : Matches A s s') (v : Vars) (hv : s.vars = some v)
    (hm : s.mode = CONTRACTED) (N : ℕ) (ho : s.order = N) (hN : N ≤ 6)
    (hsup : K.reads v ≠ none) (hsup' : K'.reads v ≠ none) (y : ℕ → V) (B ε : ℕ → ℝ)
    (h : Tracks A K K' s s' v B ε fun i => CT.ofFn N fun c => y (i * 2 ^ N + c)) :
    ∃ (res : List V) (res' : List ℝ), res.length = 2 ^ N ∧
      (∀ rest output junk, 2 ^ N ≤ output.length →
        xcfunEval K junk s ((List.range (v.len * 2 ^ N)).map y ++ rest) output =
          .ok (res ++ output.drop (2 ^ N))) ∧
      (∀ rest output junk, 2 ^ N ≤ output.length →
        xcfunEval K' junk s' ((List.range (v.len * 2 ^ N)).map (fun l => A.val (y l)) ++ rest) output =
          .ok (res' ++ output.drop (2 ^ N))) ∧
      List.Forall₂ (fun a b => |A.val a - b| ≤
        sumBound A.u s.active (fun id => A.val (s.settings id)) B ε) res res' := by
  obtain ⟨sl, hsl⟩ := Option.ne_none_iff_exists'.mp hsup
  obtain ⟨sl', hsl'⟩ := Option.ne_none_iff_exists'.mp hsup'
  refine ⟨(List.range (2 ^ N)).map (total K s v 0 (seedC N y)).get,
    (List.range (2 ^ N)).map (total K' s' v 0 (seedC N fun l => A.val (y l))).get, by simp,
    ?_, ?_, ?_⟩
  · intro rest output junk hlen
    rw [xcfunEval_contracted hv hm ho hN, evalContractedN_ok hK hsl (len_le v) (y := y)
      (fun k hk => by rw [List.getElem?_append_left (by simpa using hk)]; simp [hk]) junk s hlen,
      splice_zero]
    simp
  · intro rest output junk hlen
    rw [xcfunEval_contracted (hs.vars.trans hv) (hs.mode.trans hm) (hs.order.trans ho) hN,
      evalContractedN_ok hK' hsl' (len_le v) (y := fun l => A.val (y l))
      (fun k hk => by rw [List.getElem?_append_left (by simpa using hk)]; simp [hk]) junk s' hlen,
      splice_zero]
    simp
  · have e : (fun l => (seedC N y l).map A.val) = seedC N fun l => A.val (y l) := by
      funext l; unfold seedC; rw [CT.map_ofFn']
    rw [← e]
    have : ∀ l : List ℕ, (∀ i ∈ l, i < 2 ^ N) → List.Forall₂ (fun a b => |A.val a - b| ≤
        sumBound A.u s.active (fun id => A.val (s.settings id)) B ε)
        (l.map (total K s v 0 (seedC N y)).get)
        (l.map (total K' s' v 0 fun l => (seedC N y l).map A.val).get) := by
      intro l
      induction l with
      | nil => intro _; exact .nil
      | cons i l ih =>
        intro hl
        exact .cons (tracks_total hs h (hl i List.mem_cons_self))
          (ih fun j hj => hl j (List.mem_cons_of_mem _ hj))
    exact this _ fun i hi => List.mem_range.mp hi

/-- A kernel for the example: functional 0 is the alpha density, functional 1 the beta density. -/
private def densityKernel (W : Type) : Kernel W where
  reads v := if v = .A_B then some [0, 1] else none
  fp _ _ id _ ρ := ρ (if id = 0 then 0 else 1)

private theorem densityKernel_local (W : Type) : (densityKernel W).Local where
  lt v sl h i hi := by
    simp only [densityKernel] at h
    split at h
    · subst_vars; obtain rfl := Option.some.inj h
      simp at hi; rcases hi with rfl | rfl <;> decide
    · simp at h
  congr v sl h par id N ρ ρ' hρ := by
    simp only [densityKernel] at h ⊢
    split at h
    · obtain rfl := Option.some.inj h
      split <;> exact hρ _ (by simp)
    · simp at h

private noncomputable def mixState (W : Type) (c : ℝ → W) : State W :=
  { active := [0, 1], order := 1, depends := 1, mode := PARTIAL_DERIVATIVES, vars := some .A_B,
    settings := fun id => if id = 0 then c (1 / 5) else c (4 / 5) }

-- Two functionals with weights 1/5 and 4/5 at densities 1/3 and 2/3, first derivatives, 53 bits:
-- the three numbers written are within 4*2^(-53) of the exact ones.
example : ∃ (res : List (Bits 53)) (res' : List ℝ),
    (∀ rest output junk, 3 ≤ output.length →
      xcfunEval (densityKernel (Bits 53)) junk (mixState _ Bits.mk) ([⟨1 / 3⟩, ⟨2 / 3⟩] ++ rest) output =
        .ok (res ++ output.drop 3)) ∧
    (∀ rest output junk, 3 ≤ output.length →
      xcfunEval (densityKernel ℝ) junk (mixState _ id) ([1 / 3, 2 / 3] ++ rest) output =
        .ok (res' ++ output.drop 3)) ∧
    List.Forall₂ (fun a b => |a.real - b| ≤ 4 * (1 / 2) ^ 53) res res' := by
  obtain ⟨res, res', h0, h1, h2, h3⟩ := C60_partial_derivatives (Bits.rounded 53)
    (densityKernel (Bits 53)) (densityKernel_local _) (densityKernel ℝ) (densityKernel_local _)
    (mixState _ Bits.mk) (mixState _ id)
    ⟨rfl, rfl, rfl, rfl, fun i => by simp only [mixState]; split <;> rfl⟩ .A_B rfl rfl
    (by simp [mixState]) (by simp [densityKernel]) (by simp [densityKernel])
    (fun l => if l = 0 then ⟨1 / 3⟩ else ⟨2 / 3⟩) (fun _ => 1) (fun _ => 0)
    (fun N _ ρ hρ id _ i hi => by
      simp only [densityKernel]
      rw [CT.get_map, sub_self, abs_zero]
      refine ⟨le_rfl, ?_⟩
      obtain ⟨ha, hb⟩ := hρ (if id = 0 then 0 else 1)
      rcases Nat.eq_zero_or_pos i with rfl | hpos
      · rw [ha]; split <;> norm_num [Bits.rounded]
      · rcases hb i hpos hi with h | h <;> rw [h]
        · rw [(Bits.rounded 53).val_zero]; norm_num
        · rw [(Bits.rounded 53).val_one]; norm_num)
  have hl : res.length = 3 := by
    have : (Outcome.ok (3 : ℤ)) = .ok (res.length : ℤ) := by rw [← h0]; rfl
    have := Outcome.ok.inj this
    omega
  rw [hl] at h1 h2
  refine ⟨res, res', h1, h2, h3.imp fun a b hab => hab.trans ?_⟩
  simp only [sumBound, mixState, Bits.rounded, List.map_cons, List.map_nil, List.sum_cons,
    List.sum_nil, List.length_cons, List.length_nil]
  norm_num [abs_of_pos]

end XCFun.Props
