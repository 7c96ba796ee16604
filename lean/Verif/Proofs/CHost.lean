/-
The C programs, statement by statement.
-/
import Verif.Spec.CommandLine
import Verif.Proofs.ProgramsRun
import Verif.Props.Funeval
import Verif.Props.Settings
import Verif.Props.Setup

namespace XCFun
open Spec

variable {V : Type} [Zero V] [One V] [Add V] [Sub V] [Mul V] [Lit V] (K : Kernel V)

theorem Prog.inputLength_run {h : ℕ → Option (State V)} {p : ℕ} {s : State V} (hs : h p = some s) {n : ℤ} (e : inputLength s = .ok n) :
    Prog.call K p .inputLength ⟨.filled, h⟩ = .ok (.ok (.code n), ⟨.filled, h⟩) := by
  have := Prog.call_run K (w := ⟨.filled, h⟩) (c := .inputLength) hs (s' := s) (r := .code n) (t := .filled) (by rw [objStep, e]; rfl)
  rw [this]
  dsimp only
  rw [← hs, upd_self]

/-! ## The command line -/

variable (E : FunevalEnv V) (p : ℕ)

/-- Options after some words. -/
def optsAfter (o : FunevalOpts) (ws : List (Word V)) : FunevalOpts :=
  { mode := ((ws.filterMap fun w => w.density?.map fun v => (v.code : ℤ)).getLast?).getD o.mode
    quiet := o.quiet || isQuiet ws
    order := ((ws.filterMap Word.order?).getLast?).getD o.order
    rep := ((ws.filterMap Word.rep?).getLast?).getD o.rep }

omit [Zero V] [One V] [Add V] [Sub V] [Mul V] [Lit V] in
theorem optsAfter_init (ws : List (Word V)) : optsAfter {} ws = ⟨(varsOf ws).code, isQuiet ws, derivOrder ws, repOf ws⟩ := by
  unfold optsAfter varsOf derivOrder repOf
  rw [show (ws.filterMap fun w => w.density?.map fun v => (v.code : ℤ)) = (ws.filterMap Word.density?).map fun v => (v.code : ℤ) from (List.map_filterMap ..).symm,
    List.getLast?_map]
  cases (ws.filterMap Word.density?).getLast? <;> simp

theorem args_then {ws : List (Word V)} {args : List String} (h : CommandLine E ws args) (tail : List String) : ∀ (o : FunevalOpts) (s s' : State V)
    (g : ℕ → Option (State V)), g p = some s → run s (settingsOf ws) = .ok s' →
    funevalArgs K E p (args ++ tail) o ⟨.filled, g⟩ = funevalArgs K E p tail (optsAfter o ws) ⟨.filled, upd g p (some s')⟩ := by
  induction h with
  | nil =>
    intro o s s' g hg hr
    simp only [settingsOf, List.filterMap_nil, run, Outcome.ok.injEq] at hr
    subst hr
    rw [← hg, upd_self]
    simp [optsAfter, isQuiet, Word.density?, Word.order?, Word.rep?]
  | @cons w ws a as hw _ ih =>
    intro o s s' g hg hr
    rw [List.append_assoc]
    cases hw with
    | quiet =>
      rw [show ["--quiet"] ++ (as ++ tail) = "--quiet" :: (as ++ tail) from rfl, funevalArgs.eq_def]
      simp only [if_true]
      rw [ih _ s s' g hg hr]
      simp [optsAfter, isQuiet, Word.density?, Word.order?, Word.rep?]
    | ab =>
      rw [show ["--ab"] ++ (as ++ tail) = "--ab" :: (as ++ tail) from rfl, funevalArgs.eq_def]; simp only [String.reduceEq, if_false, if_true]
      rw [ih _ s s' g hg hr]
      simp [optsAfter, isQuiet, Word.density?, Word.order?, Word.rep?, List.getLast?_cons]
    | ns =>
      rw [show ["--ns"] ++ (as ++ tail) = "--ns" :: (as ++ tail) from rfl, funevalArgs.eq_def]; simp only [String.reduceEq, if_false, if_true]
      rw [ih _ s s' g hg hr]
      simp [optsAfter, isQuiet, Word.density?, Word.order?, Word.rep?, List.getLast?_cons]
    | n =>
      rw [show ["--n"] ++ (as ++ tail) = "--n" :: (as ++ tail) from rfl, funevalArgs.eq_def]; simp only [String.reduceEq, if_false, if_true]
      rw [ih _ s s' g hg hr]
      simp [optsAfter, isQuiet, Word.density?, Word.order?, Word.rep?, List.getLast?_cons]
    | ngnn =>
      rw [show ["--ngnn"] ++ (as ++ tail) = "--ngnn" :: (as ++ tail) from rfl, funevalArgs.eq_def]; simp only [String.reduceEq, if_false, if_true]
      rw [ih _ s s' g hg hr]
      simp [optsAfter, isQuiet, Word.density?, Word.order?, Word.rep?, List.getLast?_cons]
    | ngnntaun =>
      rw [show ["--ngnntaun"] ++ (as ++ tail) = "--ngnntaun" :: (as ++ tail) from rfl, funevalArgs.eq_def]; simp only [String.reduceEq, if_false, if_true]
      rw [ih _ s s' g hg hr]
      simp [optsAfter, isQuiet, Word.density?, Word.order?, Word.rep?, List.getLast?_cons]
    | order t k ht =>
      rw [show ["--order", t] ++ (as ++ tail) = "--order" :: t :: (as ++ tail) from rfl, funevalArgs.eq_def]
      simp only [String.reduceEq, if_false, if_true, ht]
      rw [ih _ s s' g hg hr]
      simp [optsAfter, isQuiet, Word.density?, Word.order?, Word.rep?, List.getLast?_cons]
    | rep t r ht =>
      rw [show ["--rep", t] ++ (as ++ tail) = "--rep" :: t :: (as ++ tail) from rfl, funevalArgs.eq_def]
      simp only [String.reduceEq, if_false, if_true, ht]
      rw [ih _ s s' g hg hr]
      simp [optsAfter, isQuiet, Word.density?, Word.order?, Word.rep?, List.getLast?_cons]
    | weight a t x ha ht =>
      simp only [optionNames, List.mem_cons, List.not_mem_nil, or_false, not_or] at ha
      obtain ⟨h1, h2, h3, h4, h5, h6, h7, h8⟩ := ha
      rw [show [a, t] ++ (as ++ tail) = a :: t :: (as ++ tail) from rfl, funevalArgs.eq_def]
      simp only [h1, h2, h3, h4, h5, h6, h7, h8, if_false, ht]
      change run s (Call.set a x :: settingsOf ws) = _ at hr
      rw [run] at hr
      obtain ⟨q, hq⟩ : ∃ q, xcfunSet s a x = .ok q := by
        rw [Call.step] at hr
        cases hx : xcfunSet s a x with
        | ok q => exact ⟨q, rfl⟩
        | die => rw [hx] at hr; cases hr
        | ub => rw [hx] at hr; cases hr
        | diverge => rw [hx] at hr; cases hr
      rw [Call.step, hq] at hr
      rw [Prog.next (Prog.int_run (Prog.set_run K hg (c := q.1) (s' := q.2) (by rw [hq])))]
      rw [ih _ q.2 s' _ (by rw [upd_same]) hr]
      simp [optsAfter, isQuiet, Word.density?, Word.order?, Word.rep?, upd_upd]

theorem args_run {ws : List (Word V)} {args : List String} (h : CommandLine E ws args) (o : FunevalOpts) {s s' : State V} {g : ℕ → Option (State V)}
    (hg : g p = some s) (hr : run s (settingsOf ws) = .ok s') :
    funevalArgs K E p args o ⟨.filled, g⟩ = .ok (.ok (.ok (optsAfter o ws)), ⟨.filled, upd g p (some s')⟩) := by
  have := args_then K E p h [] o s s' g hg hr
  rw [List.append_nil] at this
  rw [this, funevalArgs.eq_def]
  rfl

/-- Every history of settings runs to its end. -/
theorem settings_run (ws : List (Word V)) : ∃ s, run State.init (settingsOf ws) = .ok s := by
  obtain ⟨s, hs⟩ := Props.C01_applicable (V := V) (ws.filterMap fun | .weight a w => some (a, w) | _ => none)
  refine ⟨s, ?_⟩
  rw [← hs, List.map_filterMap]
  congr 1
  unfold settingsOf
  congr 1
  funext w
  cases w <;> rfl

/-! ## The loop -/

theorem repeat_run {g : ℕ → Option (State V)} {s : State V} (hs : g p = some s) (junk : ℕ → Junk V) (inp res : List V)
    (hev : ∀ k out, out.length = res.length → xcfunEval K (junk k) s inp out = .ok res) : ∀ cnt k out, out.length = res.length →
    funevalRepeat K p junk inp (cnt + 1) k out ⟨.filled, g⟩ = .ok (.ok res, ⟨.filled, g⟩) := by
  intro cnt
  induction cnt with
  | zero =>
    intro k out hl
    rw [funevalRepeat, Prog.next (Prog.eval_run K hs (hev k out hl)), funevalRepeat, Prog.pure_run]
  | succ cnt ih =>
    intro k out hl
    rw [funevalRepeat, Prog.next (Prog.eval_run K hs (hev k out hl))]
    exact ih (k + 1) res rfl

/-- Rounds of the loop: `res x` is the output for the point `x`, `tab x` the table. -/
theorem loop_run {g : ℕ → Option (State V)} {s : State V} (hs : g p = some s) (o : FunevalOpts) (ho : 0 < o.rep) (halloc : ∀ k, E.alloc k = true)
    (v : Vars) (hv : s.vars = some v) (nout : ℕ) (hout : outputLength s = .ok (nout : ℤ)) (res : (ℕ → V) → List V) (hlen : ∀ x, (res x).length = nout)
    (lines : (ℕ → V) → List (Line V)) (hpr : ∀ x m, funevalPrint o v.len (res x) m = .ok (lines x)) (rest : List V) (hrest : rest.length < v.len) :
    ∀ (points : List (ℕ → V)) (fuel k : ℕ), points.length < fuel →
    (∀ x ∈ points, ∀ junk out, out.length = nout → xcfunEval K junk s ((List.range v.len).map x) out = .ok (res x)) →
    funevalLoop K E p o v.len fuel k ((points.flatMap fun x => (List.range v.len).map x) ++ rest) ⟨.filled, g⟩ =
      .ok (.ok (1, (points.flatMap fun x => (if o.quiet then [] else [.header o.mode o.order nout v.len]) ++ lines x) ++
        ((if o.quiet then [] else [.header o.mode o.order nout v.len]) ++ if !o.quiet && !E.eof then [.readError] else [])), ⟨.filled, g⟩) := by
  have hin : inputLength s = .ok (v.len : ℤ) := by rw [inputLength, hv]
  intro points
  induction points with
  | nil =>
    intro fuel k hf hev
    obtain ⟨fuel, rfl⟩ : ∃ f, fuel = f + 1 := ⟨fuel - 1, by simp at hf; omega⟩
    rw [funevalLoop, Prog.next (Prog.int_run (Prog.length_run K hs hout)), Prog.next (Prog.int_run (Prog.inputLength_run K hs hin))]
    simp only [halloc, if_true, List.flatMap_nil, List.nil_append, Int.toNat_natCast]
    rw [if_pos hrest]
    rfl
  | cons x points ih =>
    intro fuel k hf hev
    obtain ⟨fuel, rfl⟩ : ∃ f, fuel = f + 1 := ⟨fuel - 1, by simp at hf; omega⟩
    have hf' : points.length < fuel := by simpa using hf
    rw [funevalLoop, Prog.next (Prog.int_run (Prog.length_run K hs hout)), Prog.next (Prog.int_run (Prog.inputLength_run K hs hin))]
    have hl : ((List.range v.len).map x).length = v.len := by simp
    simp only [halloc, if_true, List.flatMap_cons, List.append_assoc, Int.toNat_natCast]
    rw [if_neg (by simp), List.take_left' hl, List.drop_left' hl]
    obtain ⟨c, hc⟩ : ∃ c, o.rep.toNat = c + 1 := ⟨o.rep.toNat - 1, by omega⟩
    rw [hc]
    rw [Prog.next (repeat_run K p hs (E.junk k) ((List.range v.len).map x) (res x) (fun j out ho => hev x (by simp) _ out (by rw [ho, hlen])) c 0 _ (by simp [hlen]))]
    rw [Prog.next (Prog.ofOutcome_run (hpr x (E.m k)) _), Prog.next (ih fuel (k + 1) hf' fun y hy => hev y (by simp [hy])), Prog.pure_run]

/-! ## Return values -/

/-- Whenever the program part is over, it has returned a value with the property; it has not called `exit`. -/
def Prog.Returns {α : Type} (P : α → Prop) (m : Prog V α) : Prop := ∀ w r w', m w = .ok (r, w') → ∃ a, r = .ok a ∧ P a

namespace Prog.Returns
variable {α β : Type}

omit [Zero V] [One V] [Add V] [Sub V] [Mul V] [Lit V] in
theorem pure {P : α → Prop} {a : α} (h : P a) : Prog.Returns P (Pure.pure a : Prog V α) := by
  intro w r w' e
  rw [Prog.pure_run] at e
  cases e
  exact ⟨a, rfl, h⟩

omit [Zero V] [One V] [Add V] [Sub V] [Mul V] [Lit V] in
theorem bind {P : β → Prop} {Q : α → Prop} {m : Prog V α} {f : α → Prog V β} (hm : Prog.Returns Q m) (hf : ∀ a, Q a → Prog.Returns P (f a)) : Prog.Returns P (m >>= f) := by
  intro w r w' e
  change Prog.bind m f w = _ at e
  unfold Prog.bind at e
  cases hw : m w with
  | ok q =>
    obtain ⟨x, w1⟩ := q
    obtain ⟨a, rfl, ha⟩ := hm w x w1 hw
    rw [hw] at e
    exact hf a ha w1 r w' e
  | die => rw [hw] at e; cases e
  | ub => rw [hw] at e; cases e
  | diverge => rw [hw] at e; cases e

omit [Zero V] [One V] [Add V] [Sub V] [Mul V] [Lit V] in
theorem ofOutcome (x : Outcome α) : Prog.Returns (fun _ => True) (Prog.ofOutcome x : Prog V α) := by
  intro w r w' e
  unfold Prog.ofOutcome at e
  cases x with
  | ok a => cases e; exact ⟨a, rfl, trivial⟩
  | die => cases e
  | ub => cases e
  | diverge => cases e

theorem new (a : ℕ) : Prog.Returns (fun _ => True) (Prog.new K a) := by
  intro w r w' e
  unfold Prog.new at e
  cases hx : opStep K w (.new (some a)) <;> rw [hx] at e <;> cases e
  exact ⟨_, rfl, trivial⟩

theorem call (p : ℕ) (c : ObjCall V) : Prog.Returns (fun _ => True) (Prog.call K p c) := by
  intro w r w' e
  unfold Prog.call at e
  cases hx : opStep K w (.call (some p) c) <;> rw [hx] at e <;> cases e
  exact ⟨_, rfl, trivial⟩

theorem int (p : ℕ) (c : ObjCall V) : Prog.Returns (fun _ => True) (Prog.int (Prog.call K p c)) := by
  unfold Prog.int
  refine (call K p c).bind fun a _ => ?_
  cases a <;> first | exact pure trivial | exact ofOutcome _

theorem buffer (p : ℕ) (c : ObjCall V) : Prog.Returns (fun _ => True) (Prog.buffer (Prog.call K p c)) := by
  unfold Prog.buffer
  refine (call K p c).bind fun a _ => ?_
  cases a <;> first | exact pure trivial | exact ofOutcome _

end Prog.Returns

theorem repeat_returns (junk : ℕ → Junk V) (inp : List V) : ∀ cnt k out, Prog.Returns (fun _ => True) (funevalRepeat K p junk inp cnt k out) := by
  intro cnt
  induction cnt with
  | zero => intro k out; exact .pure trivial
  | succ cnt ih => intro k out; exact (Prog.Returns.buffer K p _).bind fun a _ => ih _ _

/-- The loop never returns anything but 1. -/
theorem loop_returns (o : FunevalOpts) (nvar : ℤ) : ∀ (fuel k : ℕ) (input : List V), Prog.Returns (fun r => r.1 = 1) (funevalLoop K E p o nvar fuel k input) := by
  intro fuel
  induction fuel with
  | zero => intro k input w r w' e; cases e
  | succ fuel ih =>
    intro k input
    rw [funevalLoop]
    refine (Prog.Returns.int K p _).bind fun nout _ => (Prog.Returns.int K p _).bind fun nin _ => ?_
    dsimp only
    split
    · split
      · exact .pure rfl
      · refine (repeat_returns K p _ _ _ _ _).bind fun out _ => (Prog.Returns.ofOutcome _).bind fun l _ => (ih _ _).bind fun q hq => .pure hq
    · intro w r w' e; cases e

theorem args_returns : ∀ (n : ℕ) (args : List String) (_ : args.length ≤ n) (o : FunevalOpts), Prog.Returns (fun _ => True) (funevalArgs K E p args o) := by
  intro n
  induction n with
  | zero =>
    intro args h o
    obtain rfl : args = [] := List.length_eq_zero_iff.1 (by omega)
    rw [funevalArgs.eq_def]; exact .pure trivial
  | succ n ih =>
    intro args h o
    cases args with
    | nil => rw [funevalArgs.eq_def]; exact .pure trivial
    | cons a rest =>
      have hr : rest.length ≤ n := by simpa using h
      rw [funevalArgs.eq_def]
      dsimp only
      iterate 6 (split; · exact ih _ hr _)
      have h1 : ∀ b l, rest = b :: l → l.length ≤ n := by rintro b l rfl; simp at hr; omega
      split
      · split
        · exact .pure trivial
        · rename_i b l
          split
          · exact .pure trivial
          · exact ih _ (h1 b l rfl) _
      · split
        · split
          · exact .pure trivial
          · rename_i b l
            split
            · exact .pure trivial
            · exact ih _ (h1 b l rfl) _
        · split
          · exact .pure trivial
          · rename_i b l
            split
            · exact .pure trivial
            · exact (Prog.Returns.int K p _).bind fun _ _ => ih _ (h1 b l rfl) _

end XCFun
