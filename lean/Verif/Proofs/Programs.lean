/-
The bundled programs: running them statement by statement, and the numbers they compare.
-/
import Verif.Model.Programs
import Verif.Proofs.EnergyNum
import Verif.Proofs.SelfTestChecks
import Verif.Proofs.Members
import Verif.Props.Modes
import Verif.Props.Output

namespace XCFun
open Spec

/-! ## Statements -/

namespace Prog
section
variable {V α β : Type}

/-- One statement after another. -/
theorem next {m : Prog V α} {f : α → Prog V β} {w w' : Proc V} {a : α} (h : m w = .ok (.ok a, w')) : (m >>= f) w = f a w' := by
  show Prog.bind m f w = _
  unfold Prog.bind
  rw [h]
  rfl

theorem pure_run (a : α) (w : Proc V) : (Pure.pure a : Prog V α) w = .ok (.ok a, w) := rfl

theorem ofOutcome_run {x : Outcome α} {a : α} (h : x = .ok a) (w : Proc V) : Prog.ofOutcome x w = .ok (.ok a, w) := by
  rw [h]; rfl

variable [Zero V] [One V] [Add V] [Sub V] [Mul V] [Lit V] (K : Kernel V)

theorem new_run {w : Proc V} (hw : w.tabs.Consistent) {a : ℕ} (ha : w.heap a = none) :
    Prog.new K a w = .ok (.ok (), ⟨.filled, upd w.heap a (some State.init)⟩) := by
  unfold Prog.new
  rw [opStep, assure_consistent hw, ha]
  simp only
  rw [filled_construct]
  rfl

theorem delete_run {w : Proc V} {p : ℕ} {s : State V} (hs : w.heap p = some s) :
    Prog.delete K p w = .ok (.ok (), ⟨w.tabs, upd w.heap p none⟩) := by
  unfold Prog.delete
  rw [opStep, hs]
  rfl

theorem call_run {w : Proc V} {p : ℕ} {s s' : State V} {c : ObjCall V} {r : Ret V} {t : Tables} (hs : w.heap p = some s)
    (h : objStep K w.tabs s c = .ok (r, s', t)) : Prog.call K p c w = .ok (.ok r, ⟨t, upd w.heap p (some s')⟩) := by
  unfold Prog.call
  rw [opStep, hs]
  simp only [h]
  rfl

omit [Zero V] [One V] [Add V] [Sub V] [Mul V] [Lit V] in
theorem int_run {m : Prog V (Ret V)} {w w' : Proc V} {c : ℤ} (h : m w = .ok (.ok (.code c), w')) : Prog.int m w = .ok (.ok c, w') := by
  unfold Prog.int
  rw [next h]
  rfl

omit [Zero V] [One V] [Add V] [Sub V] [Mul V] [Lit V] in
theorem buffer_run {m : Prog V (Ret V)} {w w' : Proc V} {l : List V} (h : m w = .ok (.ok (.buffer l), w')) : Prog.buffer m w = .ok (.ok l, w') := by
  unfold Prog.buffer
  rw [next h]
  rfl

omit [Zero V] [One V] [Add V] [Sub V] [Mul V] [Lit V] in
theorem value_run {m : Prog V (Ret V)} {w w' : Proc V} {c : ℤ} {v : Option V} (h : m w = .ok (.ok (.value c v), w')) :
    Prog.value m w = .ok (.ok (c, v), w') := by
  unfold Prog.value
  rw [next h]
  rfl

variable {h : ℕ → Option (State V)} {p : ℕ} {s : State V}

theorem set_run (hs : h p = some s) {name : String} {v : V} {c : ℤ} {s' : State V} (e : xcfunSet s name v = .ok (c, s')) :
    Prog.call K p (.set name v) ⟨.filled, h⟩ = .ok (.ok (.code c), ⟨.filled, upd h p (some s')⟩) := by
  refine call_run K hs ?_
  rw [objStep, setFuel_consistent 2 filled_consistent]
  rw [xcfunSet] at e
  rw [e]
  rfl

theorem get_run (hs : h p = some s) (name : String) :
    Prog.call K p (.get name) ⟨.filled, h⟩ = .ok (.ok (.value (xcfunGet s name).1 (xcfunGet s name).2), ⟨.filled, h⟩) := by
  have := call_run K (w := ⟨.filled, h⟩) (c := .get name) hs (s' := s) (r := .value (xcfunGet s name).1 (xcfunGet s name).2) (t := .filled) (by
    rw [objStep, get_consistent filled_consistent]; rfl)
  rw [this]
  dsimp only
  rw [← hs, upd_self]

theorem setup_run (hs : h p = some s) {v m o c : ℤ} {s' : State V} (e : evalSetup s v m o = .ok (c, s')) :
    Prog.call K p (.evalSetup v m o) ⟨.filled, h⟩ = .ok (.ok (.code c), ⟨.filled, upd h p (some s')⟩) := by
  refine call_run K hs ?_
  rw [objStep, e]
  rfl

theorem user_run (hs : h p = some s) {o : ℤ} {f d m l k u x : ℕ} {c : ℤ} {s' : State V} (e : userEvalSetup s o f d m l k u x = .ok (c, s')) :
    Prog.call K p (.userEvalSetup o f d m l k u x) ⟨.filled, h⟩ = .ok (.ok (.code c), ⟨.filled, upd h p (some s')⟩) := by
  refine call_run K hs ?_
  rw [objStep, e]
  rfl

theorem length_run (hs : h p = some s) {n : ℤ} (e : outputLength s = .ok n) :
    Prog.call K p .outputLength ⟨.filled, h⟩ = .ok (.ok (.code n), ⟨.filled, h⟩) := by
  have := call_run K (w := ⟨.filled, h⟩) (c := .outputLength) hs (s' := s) (r := .code n) (t := .filled) (by rw [objStep, e]; rfl)
  rw [this]
  dsimp only
  rw [← hs, upd_self]

theorem eval_run (hs : h p = some s) {junk : Junk V} {input buf out : List V} (e : xcfunEval K junk s input buf = .ok out) :
    Prog.buffer (Prog.call K p (.eval junk input buf)) ⟨.filled, h⟩ = .ok (.ok out, ⟨.filled, h⟩) := by
  refine buffer_run ?_
  have := call_run K (w := ⟨.filled, h⟩) (c := .eval junk input buf) hs (s' := s) (r := .buffer out) (t := .filled) (by rw [objStep, e]; rfl)
  rw [this]
  dsimp only
  rw [← hs, upd_self]

end
end Prog

/-! ## Numbers -/

namespace Num
open XCFun.Props

reify Fun.pbex

/-- Inputs of contracted mode. -/
noncomputable def pathT (N : ℕ) (x : List Dec) (i : ℕ) : T := T.ofFn N fun S => entry x (Nat.add (Nat.mul i (Nat.pow 2 N)) S)

/-- Is the number close to `r`, up to `10^-6`? -/
noncomputable def close6 (q : Q) (r : Dec) : Bool := ((ofDec r).sub q).small (Nat.div (Nat.pow 2 192) (Nat.pow 10 6))

theorem close6_le {q : Q} {x : ℝ} {r : Dec} (h : Near q x) (hc : close6 q r = true) : |(lit r.1 r.2 : ℝ) - x| ≤ 1e-6 := by
  have := Q.small_le (Q.near_sub (near_ofDec r) h) hc
  have hb : ((Nat.div (Nat.pow 2 192) (Nat.pow 10 6) : ℕ) : ℝ) ≤ 1e-6 * U := by
    refine (Nat.cast_div_le (α := ℝ)).trans ?_
    simp only [Nat.pow_eq, Nat.cast_pow, Nat.cast_ofNat, U]
    norm_num
  exact le_of_mul_le_mul_right (this.trans hb) U_pos

/-- Is the number closer to `r` than `10^-6`? -/
noncomputable def close7 (q : Q) (r : Dec) : Bool := ((ofDec r).sub q).small (Nat.div (Nat.pow 2 192) (Nat.pow 10 7))

theorem close7_lt {q : Q} {x : ℝ} {r : Dec} (h : Near q x) (hc : close7 q r = true) : |(lit r.1 r.2 : ℝ) - x| < 1e-6 := by
  have := Q.small_le (Q.near_sub (near_ofDec r) h) hc
  have hb : ((Nat.div (Nat.pow 2 192) (Nat.pow 10 7) : ℕ) : ℝ) < 1e-6 * U := by
    refine (Nat.cast_div_le (α := ℝ)).trans_lt ?_
    simp only [Nat.pow_eq, Nat.cast_pow, Nat.cast_ofNat, U]
    norm_num
  exact lt_of_mul_lt_mul_right (this.trans_lt hb) U_pos.le

/-- Is the number less than `10^-14`? -/
noncomputable def tiny (q : Q) : Bool := q.small (Nat.div (Nat.pow 2 192) (Nat.pow 10 15))

theorem tiny_lt {q : Q} {x : ℝ} (h : Near q x) (hc : tiny q = true) : |x| < 1e-14 := by
  have := Q.small_le h hc
  have hb : ((Nat.div (Nat.pow 2 192) (Nat.pow 10 15) : ℕ) : ℝ) < 1e-14 * U := by
    refine (Nat.cast_div_le (α := ℝ)).trans_lt ?_
    simp only [Nat.pow_eq, Nat.cast_pow, Nat.cast_ofNat, U]
    norm_num
  exact lt_of_mul_lt_mul_right (this.trans_lt hb) U_pos.le

/-- Contracted mode: the last entry of the output. -/
theorem near_contracted {s : State ℝ} {v : Vars} {c : Codes} (hc : CodeOf v c) (hv : DV.reads v ≠ none) {l : List (Dec × IE Field)} (hl : Terms s l) {N : ℕ}
    (hN : N ≤ 3) (x : List Dec) : Near (sumT c N (pathT N x) l).last
      ((energyOn s v (fun i => CT.ofFn N fun S => ((x.map fun d => (lit d.1 d.2 : ℝ)).getD (i * 2 ^ N + S) 0))).get (2 ^ N - 1)) :=
  nearT_last (nearT_energy hc hv hl hN fun _ => nearT_ofFn fun _ => near_entry _ _)

/-- Inputs of partial-derivative mode, with a perturbation of input `i`. -/
noncomputable def seedT (x : List Dec) (i l : ℕ) : T := .node (.leaf (entry x l)) (.leaf (Bool.rec .z (ofDec (1, 0)) (Nat.beq i l)))

theorem near_seed (x : List Dec) (i l : ℕ) : NearT (seedT x i l) (seed1 (fun k => (x.map fun d => (lit d.1 d.2 : ℝ)).getD k 0) (some i) l) := by
  refine .node (.leaf (near_entry _ _)) (.leaf ?_)
  unfold unit
  by_cases h : i = l
  · subst h
    rw [if_pos rfl, show Nat.beq i i = true by simp]
    have := near_ofDec (1, 0)
    simpa [lit, XCFun.Lit.lit] using this
  · rw [if_neg (by simpa using h), show Nat.beq i l = false from Bool.eq_false_iff.2 fun hb => h (Nat.eq_of_beq_eq_true hb)]
    exact near_z.2 rfl

/-- The output of order 1: energy and first derivatives. -/
noncomputable def outR (s : State ℝ) (v : Vars) (x : List Dec) : ℕ → ℝ
  | 0 => energyAt s v fun k => (x.map fun d => (lit d.1 d.2 : ℝ)).getD k 0
  | i + 1 => (energyOn s v (seed1 (fun k => (x.map fun d => (lit d.1 d.2 : ℝ)).getD k 0) (some i))).get 1

/-- The same in numbers. -/
noncomputable def outQ (c : Codes) (x : List Dec) (l : List (Dec × IE Field)) (i : ℕ) : Q :=
  Nat.casesOn i (sumT c 0 (fun k => .leaf (entry x k)) l).last fun i => (sumT c 1 (seedT x i) l).last

theorem near_out {s : State ℝ} {v : Vars} {c : Codes} (hc : CodeOf v c) (hv : DV.reads v ≠ none) {l : List (Dec × IE Field)} (hl : Terms s l) (x : List Dec)
    (i : ℕ) : Near (outQ c x l i) (outR s v x i) := by
  cases i with
  | zero =>
    have := nearT_last (nearT_energy hc hv hl (N := 0) (by omega) (ρ := fun k => .leaf (entry x k))
      (σ := fun i => CT.const 0 ((x.map fun d => (lit d.1 d.2 : ℝ)).getD i 0)) fun k => .leaf (near_entry _ _))
    rw [energyAt_energyOn] at this
    exact this
  | succ i => exact nearT_last (nearT_energy hc hv hl (N := 1) (by omega) (near_seed x i))

theorem eval_out {s : State ℝ} {v : Vars} (hv : s.vars = some v) (hm : s.mode = PARTIAL_DERIVATIVES) (ho : s.order = 1) (hsup : DV.reads v ≠ none) (x : List Dec)
    (hx : x.length = v.len) (junk : Junk ℝ) (buf : List ℝ) (hb : buf.length = v.len + 1) :
    xcfunEval codeKernel junk s (x.map fun d => (lit d.1 d.2 : ℝ)) buf = .ok ((List.range (v.len + 1)).map (outR s v x)) := by
  have hlen : outputLength s = .ok ((v.len + 1 : ℕ) : ℤ) := by
    have h1 : ¬ (PARTIAL_DERIVATIVES = MODE_UNSET) := by decide
    simp only [outputLength, hm, h1, hv, ho, if_false, if_true]
    rw [if_neg (by decide)]
    cases v <;> rfl
  have := C15_order_of_derivatives s v hv hm 1 ho (by omega) hsup (fun k => (x.map fun d => (lit d.1 d.2 : ℝ)).getD k 0) [] buf junk (v.len + 1) hlen (by omega)
  have hin : (List.range v.len).map (fun k => (x.map fun d => (lit d.1 d.2 : ℝ)).getD k 0) = x.map fun d => (lit d.1 d.2 : ℝ) := by
    refine List.ext_getElem (by simp [hx]) fun i h1 h2 => ?_
    have hi : i < x.length := by simpa using h2
    simp [hi]
  rw [List.append_nil, hin] at this
  rw [this, List.drop_of_length_le (by omega)]
  simp only [layout, List.range_succ_eq_map, List.map_cons, List.map_map, le_refl, if_true, show ¬ (2 ≤ 1) by omega, show ¬ (3 ≤ 1) by omega, if_false,
    List.append_nil]
  rfl

end Num
end XCFun
