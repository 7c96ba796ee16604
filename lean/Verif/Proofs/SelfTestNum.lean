/-
Numerical verification of the reference values of the self test.
-/
import Verif.Proofs.Reify
import Verif.Proofs.SelfTest
import Verif.Props.SelfTest

namespace XCFun.Num
open XCFun Spec

/-! ## Density variables -/

namespace Dens
open IE

noncomputable def a : IE ℕ := .reg (.var 0)
noncomputable def b : IE ℕ := .reg (.var 1)
noncomputable def n : IE ℕ := a.add b
noncomputable def s : IE ℕ := a.sub b
noncomputable def zeta : IE ℕ := .mul (.prim .inv n) s
noncomputable def r_s : IE ℕ :=
  .prim (.pow (.div (.nat 1) (.nat 3))) (.mul (.prim .inv (.mul (.mul n (.lit (.nat 4))) (.lit .pi))) (.lit (.nat 3)))
noncomputable def n_m13 : IE ℕ := .prim (.pow (.div (.neg (.nat 1)) (.nat 3))) n
noncomputable def a_43 : IE ℕ := .prim (.pow (.div (.nat 4) (.nat 3))) a
noncomputable def b_43 : IE ℕ := .prim (.pow (.div (.nat 4) (.nat 3))) b
noncomputable def gnn : IE ℕ := .add (.add (.var 2) (.mul (.lit (.nat 2)) (.var 3))) (.var 4)
noncomputable def gss : IE ℕ := .add (.sub (.var 2) (.mul (.lit (.nat 2)) (.var 3))) (.var 4)
noncomputable def gns : IE ℕ := .sub (.var 2) (.var 4)
noncomputable def tau : IE ℕ := .add (.var 5) (.var 6)

end Dens

/-- `A` if `b`. -/
noncomputable def guard (b : Bool) (A : J) : J := Bool.casesOn b .bad A

/-- The density variables, for the sets of variables of the self test; `RANGESEP_MU` has its default. -/
noncomputable def fieldJ (n : ℕ) (sh : List Q × List (List Q)) (ρ : ℕ → J) (k : Field) : J :=
  Field.casesOn (motive := fun _ => J) k (Dens.a.eval sh ρ) (Dens.b.eval sh ρ) (guard (Nat.blt 4 n) (ρ 2)) (guard (Nat.blt 4 n) (ρ 3))
    (guard (Nat.blt 4 n) (ρ 4)) (Dens.n.eval sh ρ) (Dens.s.eval sh ρ) (guard (Nat.blt 4 n) (Dens.gnn.eval sh ρ))
    (guard (Nat.blt 4 n) (Dens.gns.eval sh ρ)) (guard (Nat.blt 4 n) (Dens.gss.eval sh ρ)) (guard (Nat.blt 6 n) (Dens.tau.eval sh ρ))
    (guard (Nat.blt 6 n) (ρ 5)) (guard (Nat.blt 6 n) (ρ 6)) .bad .bad (Dens.zeta.eval sh ρ) (Dens.r_s.eval sh ρ) (Dens.n_m13.eval sh ρ)
    (Dens.a_43.eval sh ρ) (Dens.b_43.eval sh ρ) .bad .bad fun i => guard (Nat.beq i 78) (.const sh ((Q.ofNat 4).divn 10))

theorem enc_guard {i j : ℕ} {b : Bool} {A : J} {c : CT ℝ 2} (h : b = true → Enc i j A c) : Enc i j (guard b A) c := by
  cases b
  · exact enc_bad
  · exact h rfl

/-- The sets of variables of the self test. -/
def Known (v : Vars) : Prop := v = .A_B ∨ v = .A_B_GAA_GAB_GBB ∨ v = .A_B_GAA_GAB_GBB_TAUA_TAUB

theorem enc_den {i j : ℕ} (hij : i ≤ j) {sh : List Q × List (List Q)} (hs : Zeros sh) {ρ : ℕ → J} {σ : ℕ → CT ℝ 2} (h : ∀ k, Enc i j (ρ k) (σ k))
    (e : IE ℕ) {e' : Expr ℕ} (he : e.den = e') : Enc i j (e.eval sh ρ) (e'.evalCT σ) := he ▸ IE.enc_eval hij hs h e

theorem field_enc {v : Vars} (hv : Known v) {par : ℕ → ℝ} (hp : par 78 = 4 / 10) {f : Field → Expr ℕ} (hf : densvars par v = some f) {i j : ℕ} (hij : i ≤ j)
    {sh : List Q × List (List Q)} (hs : Zeros sh) {ρ : ℕ → J} {σ : ℕ → CT ℝ 2} (h : ∀ k, Enc i j (ρ k) (σ k)) (k : Field) :
    Enc i j (fieldJ v.len sh ρ k) ((f k).evalCT σ) := by
  obtain ⟨n, hn⟩ : ∃ n, n = v.len := ⟨_, rfl⟩
  rw [← hn]
  have key := fun (e : IE ℕ) (e' : Expr ℕ) he => enc_den hij hs h e (e' := e') he
  have par_enc : ∀ m : ℕ, Enc i j (guard (Nat.beq m 78) (.const sh ((Q.ofNat 4).divn 10))) ((Expr.lit (par m) : Expr ℕ).evalCT σ) := by
    intro m
    refine enc_guard fun hm => ?_
    have : m = 78 := Nat.eq_of_beq_eq_true hm
    subst this
    refine enc_const hs ?_
    rw [hp]
    simpa using Q.near_divn (Q.near_ofNat 4) (d := 10) (by norm_num)
  obtain rfl | rfl | rfl := hv
  all_goals
    simp only [densvars, DV.select, DV.selectFrom, Option.map_some, Option.some.injEq] at hf
    subst hf
    cases k with
    | param m => exact par_enc m
    | a => exact key Dens.a _ rfl
    | b => exact key Dens.b _ rfl
    | n => exact key Dens.n _ rfl
    | s => exact key Dens.s _ rfl
    | zeta => exact key Dens.zeta _ rfl
    | r_s => refine key Dens.r_s _ ?_; simp only [Dens.r_s, Dens.n, Dens.a, Dens.b, IE.den, IPrim.den, RE.den, Nat.cast_ofNat, Nat.cast_one]; rfl
    | n_m13 => refine key Dens.n_m13 _ ?_; simp only [Dens.n_m13, Dens.n, Dens.a, Dens.b, IE.den, IPrim.den, RE.den, Nat.cast_ofNat, Nat.cast_one]; rfl
    | a_43 => refine key Dens.a_43 _ ?_; simp only [Dens.a_43, Dens.a, IE.den, IPrim.den, RE.den, Nat.cast_ofNat]; rfl
    | b_43 => refine key Dens.b_43 _ ?_; simp only [Dens.b_43, Dens.b, IE.den, IPrim.den, RE.den, Nat.cast_ofNat]; rfl
    | lapa => exact enc_bad
    | lapb => exact enc_bad
    | jpaa => exact enc_bad
    | jpbb => exact enc_bad
    | gaa => refine enc_guard (b := Nat.blt 4 n) (A := ρ 2) fun hb => ?_; first | exact absurd (hn ▸ hb) (by decide) | exact h 2
    | gab => refine enc_guard (b := Nat.blt 4 n) (A := ρ 3) fun hb => ?_; first | exact absurd (hn ▸ hb) (by decide) | exact h 3
    | gbb => refine enc_guard (b := Nat.blt 4 n) (A := ρ 4) fun hb => ?_; first | exact absurd (hn ▸ hb) (by decide) | exact h 4
    | taua => refine enc_guard (b := Nat.blt 6 n) (A := ρ 5) fun hb => ?_; first | exact absurd (hn ▸ hb) (by decide) | exact h 5
    | taub => refine enc_guard (b := Nat.blt 6 n) (A := ρ 6) fun hb => ?_; first | exact absurd (hn ▸ hb) (by decide) | exact h 6
    | gnn =>
      refine enc_guard (b := Nat.blt 4 n) (A := Dens.gnn.eval sh ρ) fun hb => ?_
      first
        | exact absurd (hn ▸ hb) (by decide)
        | refine key Dens.gnn _ ?_; simp only [Dens.gnn, IE.den, RE.den, Nat.cast_ofNat]; rfl
    | gss =>
      refine enc_guard (b := Nat.blt 4 n) (A := Dens.gss.eval sh ρ) fun hb => ?_
      first
        | exact absurd (hn ▸ hb) (by decide)
        | refine key Dens.gss _ ?_; simp only [Dens.gss, IE.den, RE.den, Nat.cast_ofNat]; rfl
    | gns => refine enc_guard (b := Nat.blt 4 n) (A := Dens.gns.eval sh ρ) fun hb => ?_; first | exact absurd (hn ▸ hb) (by decide) | exact key Dens.gns _ rfl
    | tau => refine enc_guard (b := Nat.blt 6 n) (A := Dens.tau.eval sh ρ) fun hb => ?_; first | exact absurd (hn ▸ hb) (by decide) | exact key Dens.tau _ rfl

/-! ## Inputs -/

noncomputable def ofDec (d : Dec) : Q := Int.casesOn d.1 (fun m => (Q.ofNat m).divn (Nat.pow 10 d.2)) (fun m => ((Q.ofNat (Nat.succ m)).divn (Nat.pow 10 d.2)).neg)

theorem near_ofDec (d : Dec) : Near (ofDec d) (lit d.1 d.2 : ℝ) := by
  obtain ⟨m | m, e⟩ := d
  · refine IPrim.Near.congr (Q.near_divn (Q.near_ofNat m) (d := Nat.pow 10 e) (by rw [Nat.pow_eq]; positivity)) ?_
    simp [lit, XCFun.Lit.lit]
  · refine IPrim.Near.congr (Q.near_neg (Q.near_divn (Q.near_ofNat (Nat.succ m)) (d := Nat.pow 10 e) (by rw [Nat.pow_eq]; positivity))) ?_
    simp [lit, XCFun.Lit.lit]
    ring

/-- `n` zeros. -/
noncomputable def zeros (n : ℕ) : List Q := Nat.rec [] (fun _ l => .z :: l) n

/-- The unit vector. -/
noncomputable def unitJ (n i : ℕ) : List Q :=
  Nat.rec (motive := fun _ => ℕ → List Q) (fun _ => []) (fun n ih i => Nat.casesOn i (.ofNat 1 :: zeros n) fun i => .z :: ih i) n i

/-- Zero second derivatives. -/
noncomputable def zeroH (n : ℕ) : List (List Q) := Nat.rec [] (fun n l => zeros (Nat.succ n) :: l) n

noncomputable def shape (n order : ℕ) : List Q × List (List Q) := (zeros n, Nat.casesOn order [] fun o => Nat.casesOn o [] fun _ => zeroH n)

noncomputable def inputJ (n order : ℕ) (x : List Dec) (i : ℕ) : J :=
  Option.casesOn (x[i]?) .bad fun d => ⟨ofDec d, unitJ n i, (shape n order).2⟩

theorem zeros_z (n : ℕ) : ∀ a ∈ zeros n, a = .z := by
  induction n with
  | zero => simp [zeros]
  | succ n ih =>
    intro a ha
    rcases List.mem_cons.1 (show a ∈ Q.z :: zeros n from ha) with rfl | ha
    · rfl
    · exact ih a ha

theorem zeroH_z (n : ℕ) : ∀ row ∈ zeroH n, ∀ a ∈ row, a = .z := by
  induction n with
  | zero => simp [zeroH]
  | succ n ih =>
    intro row hr
    rcases List.mem_cons.1 (show row ∈ zeros (n + 1) :: zeroH n from hr) with rfl | hr
    · exact zeros_z _
    · exact ih row hr

theorem shape_zeros (n order : ℕ) : Zeros (shape n order) := by
  refine ⟨zeros_z n, ?_⟩
  obtain _ | _ | o := order
  · intro row h; cases h
  · intro row h; cases h
  · exact zeroH_z n

theorem unitJ_get {n l i : ℕ} {a : Q} (h : (unitJ n l)[i]? = some a) : Near a (unit (some i) l) := by
  induction n generalizing l i with
  | zero => simp [unitJ] at h
  | succ n ih =>
    cases l with
    | zero =>
      replace h : (Q.ofNat 1 :: zeros n)[i]? = some a := h
      cases i with
      | zero =>
        rw [← Option.some.inj h]
        simpa [unit] using Q.near_ofNat 1
      | succ i =>
        rw [zeros_z n a (List.mem_of_getElem? (show (zeros n)[i]? = some a from h))]
        simp [unit]
    | succ l =>
      replace h : (Q.z :: unitJ n l)[i]? = some a := h
      cases i with
      | zero =>
        rw [← Option.some.inj h]
        simp [unit]
      | succ i =>
        have := ih (show (unitJ n l)[i]? = some a from h)
        simpa [unit] using this

theorem input_enc (n order : ℕ) (x : List Dec) (i j l : ℕ) :
    Enc i j (inputJ n order x l) (seed2 (fun l => (x.map fun d => (lit d.1 d.2 : ℝ)).getD l 0) (some i) (some j) l) := by
  unfold inputJ
  cases hx : x[l]? with
  | none => exact enc_bad
  | some d =>
    refine ⟨?_, fun a ha => ?_, fun a ha => ?_, fun row a hr ha => ?_⟩
    · refine IPrim.Near.congr (near_ofDec d) ?_
      simp [seed2, CT.get, hx]
    · refine IPrim.Near.congr (unitJ_get ha) ?_
      simp [seed2, CT.get]
    · refine IPrim.Near.congr (unitJ_get ha) ?_
      simp [seed2, CT.get]
    · rw [(shape_zeros n order).2 row (List.mem_of_getElem? hr) a (List.mem_of_getElem? ha)]
      simp [seed2, CT.get]

/-! ## The comparison -/

/-- `q` is within the permitted fraction of `r`. -/
noncomputable def close (t r : Dec) (q : Q) : Bool :=
  and ((((ofDec (r.1.natAbs, r.2)).mul (ofDec t)).sub (q.sub (ofDec r))).pos) ((((ofDec (r.1.natAbs, r.2)).mul (ofDec t)).add (q.sub (ofDec r))).pos)

/-- The same, where zero may be expected. -/
noncomputable def within (t r : Dec) (q : Q) : Bool :=
  Q.casesOn (motive := fun _ => Bool) q (Int.casesOn r.1 (fun m => Nat.beq m 0) fun _ => false) (fun n k => close t r (.p n k)) (fun n k => close t r (.m n k)) false

theorem close_le {t r : Dec} {q : Q} {o : ℝ} (h : close t r q = true) (hq : Near q o) :
    |o - lit r.1 r.2| ≤ |(lit r.1 r.2 : ℝ) * lit t.1 t.2| := by
  rw [close, Bool.and_eq_true] at h
  have h1 := Q.pos_lt (Q.near_sub (Q.near_mul (near_ofDec (r.1.natAbs, r.2)) (near_ofDec t)) (Q.near_sub hq (near_ofDec r))) h.1
  have h2 := Q.pos_lt (Q.near_add (Q.near_mul (near_ofDec (r.1.natAbs, r.2)) (near_ofDec t)) (Q.near_sub hq (near_ofDec r))) h.2
  have e : (lit ((r.1.natAbs : ℕ) : ℤ) r.2 : ℝ) = |lit r.1 r.2| := by
    simp only [lit, XCFun.Lit.lit]
    rw [abs_div, abs_of_pos (show (0 : ℝ) < 10 ^ r.2 by positivity)]
    simp
  dsimp only at h1 h2
  rw [e] at h1 h2
  have h3 : |(lit r.1 r.2 : ℝ)| * lit t.1 t.2 ≤ |(lit r.1 r.2 : ℝ) * lit t.1 t.2| := by
    rw [abs_mul]; exact mul_le_mul_of_nonneg_left (le_abs_self _) (abs_nonneg _)
  rw [abs_le]
  constructor <;> linarith

theorem within_le {t r : Dec} {q : Q} {o : ℝ} (h : within t r q = true) (hq : Near q o) :
    |o - lit r.1 r.2| ≤ |(lit r.1 r.2 : ℝ) * lit t.1 t.2| := by
  cases q with
  | p n k => exact close_le h hq
  | m n k => exact close_le h hq
  | bad => cases h
  | z =>
    obtain ⟨m | m, e⟩ := r
    · have : m = 0 := Nat.eq_of_beq_eq_true h
      subst this
      rw [near_z] at hq
      simp [hq, lit, XCFun.Lit.lit]
    · cases h

/-- All values are within the permitted fraction. -/
noncomputable def withins (t : Dec) (l : List Q) : List Dec → Bool :=
  List.rec (motive := fun _ => List Dec → Bool) (fun _ => true)
    (fun q _ ih l' => List.casesOn l' false fun r rs => Bool.casesOn (within t r q) false (ih rs)) l

theorem withins_get {t : Dec} {l : List Q} {l' : List Dec} (h : withins t l l' = true) {i : ℕ} {q : Q} (hq : l[i]? = some q) :
    ∃ r, l'[i]? = some r ∧ within t r q = true := by
  induction l generalizing l' i with
  | nil => simp at hq
  | cons a as ih =>
    cases l' with
    | nil => cases h
    | cons r rs =>
      replace h : (Bool.casesOn (within t r a) false (withins t as rs) : Bool) = true := h
      cases hw : within t r a with
      | false => rw [hw] at h; cases h
      | true =>
        rw [hw] at h
        cases i with
        | zero => exact ⟨r, rfl, by rw [← Option.some.inj hq]; exact hw⟩
        | succ i => exact ih h hq

/-- All values, in the order of the output. -/
noncomputable def flat (n order : ℕ) (A : J) : List Q :=
  layout n order A.v (fun i => (A.g[i]?).getD .bad) (fun i j => ((A.h[i]?).bind fun row => row[j - i]?).getD .bad) fun _ _ _ => .bad

noncomputable def result (n order : ℕ) (x : List Dec) (e : IE Field) : J := e.eval (shape n order) (fieldJ n (shape n order) (inputJ n order x))

/-- The values of the code `e` are near the reference values of functional `id`. -/
noncomputable def check (id n order : ℕ) (e : IE Field) : Bool :=
  Option.casesOn (testTable[id]?) false fun d => withins d.threshold (flat n order (result n order d.input e)) d.output

theorem layout_near {n k : ℕ} {v : Q} {e : ℝ} {d1 : ℕ → Q} {f1 : ℕ → ℝ} {d2 : ℕ → ℕ → Q} {f2 : ℕ → ℕ → ℝ} {d3 : ℕ → ℕ → ℕ → Q} {f3 : ℕ → ℕ → ℕ → ℝ}
    (h0 : Near v e) (h1 : ∀ i, Near (d1 i) (f1 i)) (h2 : ∀ i j, i ≤ j → Near (d2 i j) (f2 i j)) (h3 : ∀ i j k, Near (d3 i j k) (f3 i j k)) :
    List.Forall₂ Near (layout n k v d1 d2 d3) (layout n k e f1 f2 f3) := by
  unfold layout
  refine List.rel_append (List.rel_append (List.rel_append (.cons h0 .nil) ?_) ?_) ?_
  · split
    · rw [List.forall₂_map_left_iff, List.forall₂_map_right_iff]
      exact List.forall₂_same.2 fun i _ => h1 i
    · exact .nil
  · split
    · rw [List.forall₂_map_left_iff, List.forall₂_map_right_iff]
      refine List.forall₂_same.2 fun p hp => h2 _ _ ?_
      simp only [pairs, List.mem_flatMap, List.mem_map, List.mem_range, List.mem_range'_1] at hp
      obtain ⟨i, hi, j, hj, rfl⟩ := hp
      exact hj.1
    · exact .nil
  · split
    · rw [List.forall₂_map_left_iff, List.forall₂_map_right_iff]
      exact List.forall₂_same.2 fun p _ => h3 _ _ _
    · exact .nil


theorem params_mu : ∃ p, params[78 - NR_FUNCTIONALS]? = some p ∧ p.mant = 4 ∧ p.exp = 1 := ⟨_, rfl, rfl, rfl⟩

theorem init_mu : (State.init : State ℝ).settings 78 = 4 / 10 := by
  obtain ⟨p, h, h1, h2⟩ := params_mu
  unfold State.init paramDefault
  dsimp only
  rw [if_neg (show ¬ (78 < NR_FUNCTIONALS) by decide), h]
  dsimp only
  rw [h1, h2]
  simp [lit, XCFun.Lit.lit]

/-- The state of the object of the self test, parameters. -/
theorem tested_param {t : Tested} (ht : t ∈ tested) {s₀ s : State ℝ} (h₀ : run State.init [.set t.name (lit 1 0)] = .ok s₀)
    (h : evalSetup s₀ t.vars.code PARTIAL_DERIVATIVES t.order = .ok (0, s)) : s.settings 78 = 4 / 10 := by
  have h78 : t.id < 78 := by
    have : t.id ∈ tested.map Tested.id := List.mem_map_of_mem ht
    rw [tested_ids] at this
    simpa using (List.mem_filter.1 this).1
  obtain ⟨d, fd, h1, h2, h3, ⟨he, -⟩ | ⟨u, he, a1, a2, a3, a4, a5, a6, a7, a9, a10⟩⟩ := row_of h78
  · have : t ∈ tested.filter fun u => u.id == t.id := by simp [ht]
    rw [he] at this; cases this
  · have hu : t = u := by
      have : t ∈ tested.filter fun u => u.id == t.id := by simp [ht]
      rw [he] at this; simpa using this
    subst hu
    rw [← a10] at h₀
    have e : run State.init [.set fd.name (lit 1 0 : ℝ)] = .ok (afterSet t.id) := by
      show (Call.step State.init (.set fd.name (lit 1 0)) >>= fun s => run s []) = _
      rw [Call.step, set_own h3]; rfl
    rw [e] at h₀
    cases h₀
    rw [setup_own a4 a6] at h
    cases h
    show upd _ _ _ 78 = _
    rw [upd, if_neg (by omega)]
    exact init_mu

theorem eval_enc {v : Vars} (hv : Known v) {par : ℕ → ℝ} (hp : par 78 = 4 / 10) {id : ℕ} {c : IE Field} (hc : Fun.energy id = some c.den) {i j : ℕ} (hij : i ≤ j)
    (order : ℕ) (x : List Dec) :
    Enc i j (result v.len order x c) ((fullExpr par v id).evalCT (seed2 (fun l => (x.map fun d => (lit d.1 d.2 : ℝ)).getD l 0) (some i) (some j))) := by
  obtain ⟨f, hf⟩ : ∃ f, densvars par v = some f := by
    obtain rfl | rfl | rfl := hv <;> exact ⟨_, rfl⟩
  rw [fullExpr, hf, hc]
  dsimp only
  rw [Expr.evalCT_subst]
  exact IE.enc_eval hij (shape_zeros _ _) (fun k => field_enc hv hp hf hij (shape_zeros _ _) (fun l => input_enc _ _ _ _ _ l) k) c

/-- The values of a functional whose code has passed the check. -/
theorem user_close {t : Tested} (ht : t ∈ tested) (hv : Known t.vars) {c : IE Field} (hc : Fun.energy t.id = some c.den)
    (h : check t.id t.vars.len t.order c = true) {res : List ℝ} (hu : UserValues codeKernel t.name t.vars t.order (refPoint t.id) res) {i : ℕ} {o : ℝ}
    (ho : res[i]? = some o) : |o - (refValues t.id).getD i 0| ≤ |(refValues t.id).getD i 0 * refThreshold t.id| := by
  obtain ⟨s₀, s, a1, a2, a3, a4⟩ := hu
  obtain ⟨b1, b2, b3, b4, b5, b6, b7⟩ := tested_state ht a1 a2
  have hp := tested_param ht a1 a2
  unfold check at h
  cases hd : testTable[t.id]? with
  | none => rw [hd] at h; cases h
  | some d =>
  rw [hd] at h
  replace h : withins d.threshold (flat t.vars.len t.order (result t.vars.len t.order d.input c)) d.output = true := h
  obtain ⟨x, hx⟩ : ∃ x : ℕ → ℝ, x = fun l => (d.input.map fun d => (lit d.1 d.2 : ℝ)).getD l 0 := ⟨_, rfl⟩
  have hpt : (refPoint t.id : List ℝ) = (List.range t.vars.len).map x := by
    have hl : (refPoint (V := ℝ) t.id).length = t.vars.len := by
      obtain ⟨n, h1, h2, h3⟩ := Props.C55_reference_lengths (V := ℝ) t ht
      exact h2
    refine List.ext_getElem? fun l => ?_
    by_cases hll : l < t.vars.len
    · rw [List.getElem?_map, List.getElem?_range hll, Option.map_some, hx, List.getElem?_eq_getElem (by omega)]
      have hl' : l < d.input.length := by
        rw [refPoint, hd] at hl
        simp only [Option.map_some, Option.getD_some, List.length_map] at hl
        omega
      simp [refPoint, hd, List.getElem?_eq_getElem hl']
    · rw [List.getElem?_eq_none (by omega), List.getElem?_eq_none (by simpa using hll)]
  have h4 := a4 [] res none le_rfl
  rw [hpt, Props.C15_order_of_derivatives s t.vars b4 b2 t.order b3 b7 b6 x [] res none res.length a3 le_rfl] at h4
  replace h4 := Outcome.ok.inj h4
  rw [List.append_cancel_right_eq] at h4
  have hw : s.settings t.id = 1 := by rw [b5]; simp [lit, XCFun.Lit.lit]
  have hon : ∀ {N : ℕ} (ρ : ℕ → CT ℝ N), energyOn s t.vars ρ = (fullExpr s.settings t.vars t.id).evalCT ρ := by
    intro N ρ
    rw [energyOn, b1]
    simp [hw, CT.const_one_eq]
  have hat : energyAt s t.vars x = (fullExpr s.settings t.vars t.id).evalR x := by
    rw [energyAt, b1]; simp [hw]
  have henc := fun {i j : ℕ} (hij : i ≤ j) => eval_enc hv hp hc hij t.order d.input
  rw [← hx] at henc
  have hF := layout_near (n := t.vars.len) (k := t.order) (v := (result t.vars.len t.order d.input c).v) (e := energyAt s t.vars x)
    (d1 := fun i => ((result t.vars.len t.order d.input c).g[i]?).getD .bad) (f1 := fun i => (energyOn s t.vars (seed1 x (some i))).get 1)
    (d2 := fun i j => (((result t.vars.len t.order d.input c).h[i]?).bind fun row => row[j - i]?).getD .bad)
    (f2 := fun i j => (energyOn s t.vars (seed2 x (some i) (some j))).get 3)
    (d3 := fun _ _ _ => .bad) (f3 := fun i j k => (energyOn s t.vars (seed3 x (some i) (some j) (some k))).get 7)
    (by
      refine IPrim.Near.congr (henc (le_refl 0)).v ?_
      rw [hat, ← CT.c0_eq_get, Expr.evalCT_c0 (by norm_num)]
      rfl)
    (by
      intro i
      cases hg : (result t.vars.len t.order d.input c).g[i]? with
      | none => exact near_bad
      | some a =>
        refine IPrim.Near.congr ((henc (le_refl i)).gi a hg) ?_
        rw [hon]
        have := Expr.evalCT_hom (N := 2) (M := 1) (by norm_num) (by norm_num) (CT.Hom.dropLast 1) (seed2 x (some i) (some i)) (fullExpr s.settings t.vars t.id)
        have e : (fun l => (CT.Hom.dropLast 1).toRingHom (seed2 x (some i) (some i) l)) = seed1 x (some i) := rfl
        rw [e] at this
        rw [← this]
        obtain ⟨p, q, r, u, e⟩ := ct2_cases ((fullExpr s.settings t.vars t.id).evalCT (seed2 x (some i) (some i)))
        rw [e]; rfl)
    (by
      intro i j hij
      cases hg : (result t.vars.len t.order d.input c).h[i]? with
      | none => exact near_bad
      | some row =>
        cases hr : row[j - i]? with
        | none => simp [hr]
        | some a =>
          simp only [Option.bind_some, hr, Option.getD_some]
          rw [hon]
          exact (henc hij).h row a hg hr)
    fun _ _ _ => near_bad
  rw [h4] at hF
  have hlen : i < res.length := by
    by_contra hc; rw [List.getElem?_eq_none (by omega)] at ho; cases ho
  obtain ⟨q, hq⟩ : ∃ q, (flat t.vars.len t.order (result t.vars.len t.order d.input c))[i]? = some q :=
    ⟨_, List.getElem?_eq_getElem (by rw [flat, hF.length_eq]; exact hlen)⟩
  obtain ⟨r, hr, hwi⟩ := withins_get h hq
  have hnear : Near q o := by
    have := List.Forall₂.get hF (i := i) (by
      rw [hF.length_eq]; exact hlen) hlen
    rw [List.get_eq_getElem, List.get_eq_getElem] at this
    rw [List.getElem?_eq_getElem hlen] at ho
    rw [flat, List.getElem?_eq_getElem (by rw [hF.length_eq]; exact hlen)] at hq
    rw [← Option.some.inj hq, ← Option.some.inj ho]
    exact this
  have := within_le hwi hnear
  simpa [refValues, refThreshold, hd, hr] using this

end XCFun.Num
