/-
C73, C74: the C programs that come with the library.
-/
import Verif.Proofs.CHost
import Verif.Proofs.ProgramsTest
import Verif.Props.Smooth
import Verif.Props.LiteratureDeriv

namespace XCFun.Props
open XCFun Spec Lit Filter Topology

/-- The lines written for a point, or for the end. -/
def headerOf (quiet : Bool) (v : Vars) (k nout : ℕ) : List (Line ℝ) := if quiet then [] else [.header v.code k nout v.len]

/-- The numbers in the table for a point: energy and derivatives with the exponents. -/
def rowsOf (v : Vars) (k : ℕ) (e : ℝ) (d1 : ℕ → ℝ) (d2 : ℕ → ℕ → ℝ) (d3 : ℕ → ℕ → ℕ → ℝ) (quiet : Bool) : Line ℝ :=
  if quiet then .values (layout v.len k e d1 d2 d3)
  else .table (layout v.len k (exponents v.len [], e) (fun i => (exponents v.len [i], d1 i)) (fun i j => (exponents v.len [i, j], d2 i j))
    (fun i j l => (exponents v.len [i, j, l], d3 i j l)))

theorem print_rows (o : FunevalOpts) (ho : 0 < o.rep) (v : Vars) (k : ℕ) (hk : k ≤ 3) (e : ℝ) (d1 : ℕ → ℝ) (d2 : ℕ → ℕ → ℝ) (d3 : ℕ → ℕ → ℕ → ℝ) (m : ℕ → ℕ) :
    funevalPrint o v.len (layout v.len k e d1 d2 d3) m = .ok [rowsOf v k e d1 d2 d3 o.quiet] := by
  unfold funevalPrint rowsOf
  rw [if_neg (by omega)]
  split
  · rfl
  · obtain ⟨n, hn⟩ : ∃ n, v.len = n + 1 := by cases v <;> exact ⟨_, rfl⟩
    let f : List ℕ → ℝ := fun
      | [] => e
      | [i] => d1 i
      | [i, j] => d2 i j
      | i :: j :: l :: _ => d3 i j l
    have h1 := layout_words v.len k hk f
    have h2 := layout_words v.len k hk fun t => (exponents v.len t, f t)
    simp only [f] at h1 h2
    rw [h1, h2, Int.toNat_natCast, hn, C66_labels n k f m]
    rfl

theorem written_ne {E : FunevalEnv ℝ} {w : Word ℝ} {a : List String} (h : Written E w a) : a ≠ [] := by cases h <;> simp

theorem command_ne {E : FunevalEnv ℝ} {ws : List (Word ℝ)} {args : List String} (h : CommandLine E ws args) (hne : ws ≠ []) : args ≠ [] := by
  cases h with
  | nil => exact absurd rfl hne
  | cons hw _ => intro e; exact written_ne hw (List.append_eq_nil_iff.1 e).1

/-- Up to `xcfun_eval_setup`. -/
theorem funeval_setup (E : FunevalEnv ℝ) (p : ℕ) {ws : List (Word ℝ)} {args : List String} (h : CommandLine E ws args) (hne : ws ≠ []) {s s' : State ℝ}
    (hr : run State.init (settingsOf ws) = .ok s) (rc : ℤ) (hset : evalSetup s (varsOf ws).code PARTIAL_DERIVATIVES (derivOrder ws) = .ok (rc, s')) (input : List ℝ) :
    funevalMain codeKernel E p args input Proc.start =
      (if rc ≠ 0 then (return (1, [.setupError rc]) : Prog ℝ (ℤ × List (Line ℝ))) else do
        let nvar ← Prog.int (Prog.call codeKernel p .inputLength)
        funevalLoop codeKernel E p ⟨(varsOf ws).code, isQuiet ws, derivOrder ws, repOf ws⟩ nvar (input.length + 1) 0 input)
      ⟨.filled, upd (fun _ => none) p (some s')⟩ := by
  unfold funevalMain
  rw [Prog.next (Prog.new_run codeKernel (w := Proc.start) (Or.inl rfl) rfl)]
  have hn := command_ne h hne
  cases args with
  | nil => exact absurd rfl hn
  | cons a args =>
    simp only
    rw [Prog.next (args_run codeKernel E p h {} (upd_same _ _ _) hr)]
    simp only [optsAfter_init]
    rw [Prog.next (Prog.int_run (Prog.setup_run codeKernel (upd_same _ _ _) hset))]
    simp only [upd_upd]
    rfl

/-- Up to the loop. -/
theorem funeval_run (E : FunevalEnv ℝ) (p : ℕ) {ws : List (Word ℝ)} {args : List String} (h : CommandLine E ws args) (hne : ws ≠ []) {s : State ℝ}
    (hr : run State.init (settingsOf ws) = .ok s) (hs : Sufficient s (varsOf ws)) (ho : 0 ≤ derivOrder ws ∧ derivOrder ws ≤ 4) (input : List ℝ) :
    funevalMain codeKernel E p args input Proc.start =
      funevalLoop codeKernel E p ⟨(varsOf ws).code, isQuiet ws, derivOrder ws, repOf ws⟩ (varsOf ws).len (input.length + 1) 0 input
        ⟨.filled, upd (fun _ => none) p (some { s with mode := PARTIAL_DERIVATIVES, vars := some (varsOf ws), order := derivOrder ws })⟩ := by
  obtain ⟨rc, s', hset, h0, -, -, -, -, -, h1⟩ := C09_decision_table (settingsOf ws) s hr (varsOf ws) PARTIAL_DERIVATIVES (derivOrder ws)
  have hrc : rc = 0 := h0.2 ⟨hs, ⟨ho.1, by omega, fun _ => ho.2⟩, fun hp => absurd hp (by decide)⟩
  rw [funeval_setup E p h hne hr rc hset, if_neg (by simp [hrc]), h1 hrc]
  rw [Prog.next (Prog.int_run (Prog.inputLength_run codeKernel (upd_same _ _ _) (n := (varsOf ws).len) rfl))]

theorem supported_vars (E : FunevalEnv ℝ) {ws : List (Word ℝ)} {args : List String} (h : CommandLine E ws args) : DV.reads (varsOf ws) ≠ none := by
  have key : ∀ v ∈ (ws.filterMap Word.density?), DV.reads v ≠ none := by
    induction h with
    | nil => simp
    | cons hw _ ih =>
      cases hw <;> simp only [List.filterMap_cons, Word.density?, List.mem_cons, forall_eq_or_imp] <;> first | exact ih | exact ⟨by decide, ih⟩
  unfold varsOf
  cases hl : (ws.filterMap Word.density?).getLast? with
  | none => decide
  | some v => exact key v (List.mem_of_getLast? hl)

/-! ## C73 -/

/-- **C73.** A command line that names variables for which the functionals have all they need, an order up to 3 and at least one repetition: for every complete point of
the standard input, funeval prints the energy and all derivatives in those variables with the right exponents (with `--quiet`: the numbers only), in the order of the
input, and stops at the first incomplete point, always with status 1.  The object is never deleted.  The settings are made in the order of the command line; of the
options, the last one counts. -/
theorem C73_funeval (E : FunevalEnv ℝ) (halloc : ∀ k, E.alloc k = true) (p : ℕ) (ws : List (Word ℝ)) (args : List String) (h : CommandLine E ws args) (hne : ws ≠ [])
    (s s' : State ℝ) (hr : run State.init (settingsOf ws) = .ok s) (v : Vars) (hv : varsOf ws = v) (hs : Sufficient s v) (k : ℕ) (hk : derivOrder ws = k) (hk3 : k ≤ 3)
    (hs' : s' = { s with mode := PARTIAL_DERIVATIVES, vars := some v, order := k }) (hrep : 0 < repOf ws)
    (points : List (ℕ → ℝ)) (rest : List ℝ) (hrest : rest.length < v.len) :
    ∃ nout : ℕ, outputLength s' = .ok (nout : ℤ) ∧
    funevalMain codeKernel E p args ((points.flatMap fun x => (List.range v.len).map x) ++ rest) Proc.start =
      .ok (.ok (1, (points.flatMap fun x => headerOf (isQuiet ws) v k nout ++
          [rowsOf v k (energyAt s' v x) (fun i => (energyOn s' v (seed1 x (some i))).get 1) (fun i j => (energyOn s' v (seed2 x (some i) (some j))).get 3)
            (fun i j l => (energyOn s' v (seed3 x (some i) (some j) (some l))).get 7) (isQuiet ws)]) ++
        (headerOf (isQuiet ws) v k nout ++ if !isQuiet ws && !E.eof then [.readError] else [])),
        ⟨.filled, upd (fun _ => none) p (some s')⟩) := by
  subst hv hs'
  have hsup := supported_vars E h
  have hlen := outlen_eq (V := ℝ) (varsOf ws) hk3
  generalize hS : ({ s with mode := PARTIAL_DERIVATIVES, vars := some (varsOf ws), order := (k : ℤ) } : State ℝ) = s'
  have hout : outputLength s' = .ok ((layout (varsOf ws).len k (0 : ℝ) (fun _ => 0) (fun _ _ => 0) (fun _ _ _ => 0)).length : ℤ) := by
    rw [← hlen, ← hS]
    have : ¬ ((k : ℤ) = -1) := by omega
    have h1 : ¬ (PARTIAL_DERIVATIVES = MODE_UNSET) := by decide
    simp [outputLength, this, h1]
  refine ⟨_, hout, ?_⟩
  have hn : ∀ e d1 d2 d3, (layout (varsOf ws).len k (e : ℝ) d1 d2 d3).length = (layout (varsOf ws).len k (0 : ℝ) (fun _ => 0) (fun _ _ => 0) (fun _ _ _ => 0)).length := by
    intro e d1 d2 d3
    have := (hlen e d1 d2 d3).symm.trans (hlen 0 (fun _ => 0) (fun _ _ => 0) (fun _ _ _ => 0))
    simpa using this
  rw [funeval_run E p h hne hr hs ⟨by omega, by omega⟩, hk, hS]
  have hpl : points.length ≤ (points.flatMap fun x => (List.range (varsOf ws).len).map x).length := by
    have h0 : 1 ≤ (varsOf ws).len := by cases varsOf ws <;> decide
    simp only [List.length_flatMap, List.length_map, List.length_range, List.map_const', List.sum_replicate, smul_eq_mul]
    exact Nat.le_mul_of_pos_right _ h0
  rw [loop_run codeKernel E p (s := s') (upd_same _ _ _) ⟨_, isQuiet ws, k, repOf ws⟩ hrep halloc (varsOf ws) (by rw [← hS]) _ hout
    (fun x => layout (varsOf ws).len k (energyAt s' (varsOf ws) x) (fun i => (energyOn s' (varsOf ws) (seed1 x (some i))).get 1)
      (fun i j => (energyOn s' (varsOf ws) (seed2 x (some i) (some j))).get 3) (fun i j l => (energyOn s' (varsOf ws) (seed3 x (some i) (some j) (some l))).get 7))
    (fun x => hn _ _ _ _) _ (fun x m => print_rows _ hrep _ k hk3 _ _ _ _ m) rest hrest points _ 0 (by rw [List.length_append]; omega) ?_]
  · rfl
  · intro x hx junk out ho
    have := C15_order_of_derivatives s' (varsOf ws) (by rw [← hS]) (by rw [← hS]) k (by rw [← hS]) hk3 hsup x [] out junk _ hout (by omega)
    rw [List.append_nil] at this
    rw [this, List.drop_eq_nil_of_le (by omega), List.append_nil]

/-- The numbers of C15 are those of C16. -/
theorem layout_pderiv (s : State ℝ) (v : Vars) (hv : s.vars = some v) (hm : s.mode = PARTIAL_DERIVATIVES) (hsup : DV.reads v ≠ none) (k : ℕ) (ho : s.order = k)
    (hk : k ≤ 3) (len : ℕ) (hlen : outputLength s = .ok (len : ℤ)) (x : ℕ → ℝ) (hx : RegularAt s v x) :
    layout v.len k (energyAt s v x) (fun i => (energyOn s v (seed1 x (some i))).get 1) (fun i j => (energyOn s v (seed2 x (some i) (some j))).get 3)
        (fun i j l => (energyOn s v (seed3 x (some i) (some j) (some l))).get 7) =
      layout v.len k (energyAt s v x) (fun i => pderiv i (energyAt s v) x) (fun i j => pderiv i (pderiv j (energyAt s v)) x)
        (fun i j l => pderiv i (pderiv j (pderiv l (energyAt s v))) x) := by
  obtain ⟨F, h1, h2⟩ := C16_exact_partial_derivatives s v hv hm hsup
  have hF : F = energyAt s v := by
    funext y
    have a := h1 y [] 0 [] none
    have b := C15_order_of_derivatives { s with order := 0 } v hv hm 0 rfl (by omega) hsup y [] [0] none 1 (by
        have h1 : ¬ (PARTIAL_DERIVATIVES = MODE_UNSET) := by decide
        simp only [outputLength, hm, h1, hv, if_false, if_true]
        exact outlen_eq v (k := 0) (by omega) (0 : ℝ) (fun _ => 0) (fun _ _ => 0) (fun _ _ _ => 0)) (by simp)
    rw [a] at b
    have := Outcome.ok.inj b
    simpa [layout, energyAt] using this
  subst hF
  have a := h2 x hx k ho hk [] (List.replicate len 0) none len hlen (by simp)
  have b := C15_order_of_derivatives s v hv hm k ho hk hsup x [] (List.replicate len 0) none len hlen (by simp)
  rw [a] at b
  have := Outcome.ok.inj b
  exact ((List.append_left_inj _).1 this).symm

theorem rows_congr {v : Vars} {k : ℕ} (hk : k ≤ 3) {e e' : ℝ} {d1 d1' : ℕ → ℝ} {d2 d2' : ℕ → ℕ → ℝ} {d3 d3' : ℕ → ℕ → ℕ → ℝ}
    (h : layout v.len k e d1 d2 d3 = layout v.len k e' d1' d2' d3') (quiet : Bool) : rowsOf v k e d1 d2 d3 quiet = rowsOf v k e' d1' d2' d3' quiet := by
  unfold rowsOf
  split
  · rw [h]
  · let f : List ℕ → ℝ := fun
      | [] => e
      | [i] => d1 i
      | [i, j] => d2 i j
      | i :: j :: l :: _ => d3 i j l
    let f' : List ℕ → ℝ := fun
      | [] => e'
      | [i] => d1' i
      | [i, j] => d2' i j
      | i :: j :: l :: _ => d3' i j l
    have h1 := layout_words v.len k hk f
    have h2 := layout_words v.len k hk fun t => (exponents v.len t, f t)
    have h1' := layout_words v.len k hk f'
    have h2' := layout_words v.len k hk fun t => (exponents v.len t, f' t)
    simp only [f, f'] at h1 h2 h1' h2'
    rw [h2, h2']
    rw [h1, h1'] at h
    congr 1
    refine List.map_congr_left fun t ht => ?_
    rw [List.map_inj_left.1 h t ht]

/-- **C73, derivatives.** When the points are strictly inside the domains of the functionals, the numbers are the partial derivatives of the energy. -/
theorem C73_derivatives (E : FunevalEnv ℝ) (halloc : ∀ k, E.alloc k = true) (p : ℕ) (ws : List (Word ℝ)) (args : List String) (h : CommandLine E ws args) (hne : ws ≠ [])
    (s s' : State ℝ) (hr : run State.init (settingsOf ws) = .ok s) (v : Vars) (hv : varsOf ws = v) (hs : Sufficient s v) (k : ℕ) (hk : derivOrder ws = k) (hk3 : k ≤ 3)
    (hs' : s' = { s with mode := PARTIAL_DERIVATIVES, vars := some v, order := k }) (hrep : 0 < repOf ws)
    (points : List (ℕ → ℝ)) (hreg : ∀ x ∈ points, RegularAt s' v x) (rest : List ℝ) (hrest : rest.length < v.len) :
    ∃ (nout : ℕ) (w : Proc ℝ), outputLength s' = .ok (nout : ℤ) ∧
    funevalMain codeKernel E p args ((points.flatMap fun x => (List.range v.len).map x) ++ rest) Proc.start =
      .ok (.ok (1, (points.flatMap fun x => headerOf (isQuiet ws) v k nout ++
          [rowsOf v k (energyAt s' v x) (fun i => pderiv i (energyAt s' v) x) (fun i j => pderiv i (pderiv j (energyAt s' v)) x)
            (fun i j l => pderiv i (pderiv j (pderiv l (energyAt s' v))) x) (isQuiet ws)]) ++
        (headerOf (isQuiet ws) v k nout ++ if !isQuiet ws && !E.eof then [.readError] else [])), w) := by
  obtain ⟨nout, hout, hrun⟩ := C73_funeval E halloc p ws args h hne s s' hr v hv hs k hk hk3 hs' hrep points rest hrest
  refine ⟨nout, ⟨.filled, upd (fun _ => none) p (some s')⟩, hout, hrun.trans ?_⟩
  congr 5
  refine List.flatMap_congr fun x hx => ?_
  congr 2
  subst hv hs'
  exact rows_congr hk3 (layout_pderiv _ _ rfl rfl (supported_vars E h) k rfl hk3 nout hout x (hreg x hx)) _

/-- **C73, status.** Whatever the command line, the input and the memory: when the program returns, its status is 0 without arguments, when it only prints how to use it,
and 1 otherwise. -/
theorem C73_status (E : FunevalEnv ℝ) (p : ℕ) (args : List String) (input : List ℝ) (r : Except ℤ (ℤ × List (Line ℝ))) (w w' : Proc ℝ)
    (h : funevalMain codeKernel E p args input w = .ok (r, w')) : ∃ t, r = .ok (if args = [] then 0 else 1, t) ∧ (args = [] → t = [.usage]) := by
  have key : Prog.Returns (fun q : ℤ × List (Line ℝ) => q.1 = (if args = [] then 0 else 1) ∧ (args = [] → q.2 = [.usage])) (funevalMain codeKernel E p args input) := by
    unfold funevalMain
    refine (Prog.Returns.new codeKernel p).bind fun _ _ => ?_
    cases args with
    | nil => exact .pure ⟨rfl, fun _ => rfl⟩
    | cons a args =>
      refine (args_returns codeKernel E p _ _ le_rfl _).bind fun o _ => ?_
      cases o with
      | error l => exact .pure ⟨by simp, by simp⟩
      | ok o =>
        refine (Prog.Returns.int codeKernel p _).bind fun res _ => ?_
        rw [if_neg (List.cons_ne_nil _ _)]
        by_cases hres : res ≠ 0
        · rw [if_pos hres]
          exact .pure ⟨rfl, by simp⟩
        · rw [if_neg hres]
          refine (Prog.Returns.int codeKernel p _).bind fun n _ => ?_
          intro w r w' e
          obtain ⟨a, ha, h1⟩ := loop_returns codeKernel E p o n _ _ _ w r w' e
          exact ⟨a, ha, h1, by simp⟩
  obtain ⟨⟨c, t⟩, rfl, hc, ht⟩ := key w r w' h
  exact ⟨t, by rw [← hc], ht⟩

/-- **C73, refused.** Without the variables the functionals need, the message is error 2 of the setup; otherwise, for an order not between 0 and 4, error 1. -/
theorem C73_refused (E : FunevalEnv ℝ) (p : ℕ) (ws : List (Word ℝ)) (args : List String) (h : CommandLine E ws args) (hne : ws ≠ []) (s : State ℝ)
    (hr : run State.init (settingsOf ws) = .ok s) (input : List ℝ) :
    (¬ Sufficient s (varsOf ws) → ∃ w, funevalMain codeKernel E p args input Proc.start = .ok (.ok (1, [.setupError 2]), w)) ∧
    (Sufficient s (varsOf ws) → ¬ (0 ≤ derivOrder ws ∧ derivOrder ws ≤ 4) → ∃ w, funevalMain codeKernel E p args input Proc.start = .ok (.ok (1, [.setupError 1]), w)) := by
  obtain ⟨rc, s', hset, -, h1, h2, -, -, -, -⟩ := C09_decision_table (settingsOf ws) s hr (varsOf ws) PARTIAL_DERIVATIVES (derivOrder ws)
  constructor
  · intro hs
    obtain rfl := h1.2 hs
    refine ⟨⟨.filled, upd (fun _ => none) p (some s')⟩, (funeval_setup E p h hne hr _ hset input).trans ?_⟩
    rw [if_pos (by decide)]
    rfl
  · intro hs ho
    obtain rfl := h2.2 ⟨hs, fun hk => ho ⟨hk.1, hk.2.2 rfl⟩⟩
    refine ⟨⟨.filled, upd (fun _ => none) p (some s')⟩, (funeval_setup E p h hne hr _ hset input).trans ?_⟩
    rw [if_pos (by decide)]
    rfl

theorem stop_die {α β : Type} {m : Prog ℝ α} {f : α → Prog ℝ β} {w : Proc ℝ} (h : m w = .die) : (m >>= f) w = .die := by
  show Prog.bind m f w = _
  unfold Prog.bind
  rw [h]; rfl

theorem stop_ub {α β : Type} {m : Prog ℝ α} {f : α → Prog ℝ β} {w : Proc ℝ} (h : m w = .ub) : (m >>= f) w = .ub := by
  show Prog.bind m f w = _
  unfold Prog.bind
  rw [h]; rfl

/-- **C73, order 4.** The setup accepts order 4, and the library aborts the program at the first complete point. -/
theorem C73_order_four (E : FunevalEnv ℝ) (halloc : E.alloc 0 = true) (p : ℕ) (ws : List (Word ℝ)) (args : List String) (h : CommandLine E ws args) (s : State ℝ)
    (hr : run State.init (settingsOf ws) = .ok s) (hs : Sufficient s (varsOf ws)) (hk : derivOrder ws = 4) (hrep : 0 < repOf ws) (input : List ℝ)
    (hin : (varsOf ws).len ≤ input.length) : funevalMain codeKernel E p args input Proc.start = .die := by
  have hne : ws ≠ [] := by rintro rfl; exact absurd hk (by decide)
  have hn : ∃ n : ℕ, taylorlen (varsOf ws).len 4 = .ok (n : ℤ) := by cases varsOf ws <;> exact ⟨_, rfl⟩
  obtain ⟨n, hn⟩ := hn
  rw [funeval_run E p h hne hr hs ⟨by omega, by omega⟩, hk, funevalLoop]
  rw [Prog.next (Prog.int_run (Prog.length_run codeKernel (upd_same _ _ _) (n := n) (by
    rw [← hn]
    have h1 : ¬ (PARTIAL_DERIVATIVES = MODE_UNSET) := by decide
    simp [outputLength, h1])))]
  rw [Prog.next (Prog.int_run (Prog.inputLength_run codeKernel (upd_same _ _ _) (n := (varsOf ws).len) rfl))]
  simp only [halloc, if_true, Int.toNat_natCast]
  rw [if_neg (by omega)]
  obtain ⟨c, hc⟩ : ∃ c, (repOf ws).toNat = c + 1 := ⟨(repOf ws).toNat - 1, by omega⟩
  rw [hc, funevalRepeat]
  refine stop_die (stop_die (stop_die ?_))
  unfold Prog.call
  rw [opStep]
  simp only [upd_same, objStep]
  rw [xcfunEval_partial (v := varsOf ws) rfl rfl (show (0 : ℤ) ≤ 4 by decide)]
  rfl

/-- **C73, no repetition.** With `--rep 0` or a negative number nothing is evaluated, and uninitialised memory is printed. -/
theorem C73_no_repetition (E : FunevalEnv ℝ) (halloc : E.alloc 0 = true) (p : ℕ) (ws : List (Word ℝ)) (args : List String) (h : CommandLine E ws args) (s : State ℝ)
    (hr : run State.init (settingsOf ws) = .ok s) (hs : Sufficient s (varsOf ws)) (ho : 0 ≤ derivOrder ws ∧ derivOrder ws ≤ 4) (hrep : repOf ws ≤ 0) (input : List ℝ)
    (hin : (varsOf ws).len ≤ input.length) : funevalMain codeKernel E p args input Proc.start = .ub := by
  have hne : ws ≠ [] := by rintro rfl; exact absurd hrep (by decide)
  obtain ⟨k, hk⟩ : ∃ k : ℕ, derivOrder ws = k := ⟨(derivOrder ws).toNat, by omega⟩
  have hn : ∃ n : ℕ, taylorlen (varsOf ws).len k = .ok (n : ℤ) := by
    have : k = 0 ∨ k = 1 ∨ k = 2 ∨ k = 3 ∨ k = 4 := by omega
    rcases this with rfl | rfl | rfl | rfl | rfl <;> cases varsOf ws <;> exact ⟨_, rfl⟩
  obtain ⟨n, hn⟩ := hn
  rw [funeval_run E p h hne hr hs ho, hk, funevalLoop]
  rw [Prog.next (Prog.int_run (Prog.length_run codeKernel (upd_same _ _ _) (n := n) (by
    rw [← hn]
    have h1 : ¬ (PARTIAL_DERIVATIVES = MODE_UNSET) := by decide
    have h2 : ¬ ((k : ℤ) = -1) := by omega
    simp [outputLength, h1, h2])))]
  rw [Prog.next (Prog.int_run (Prog.inputLength_run codeKernel (upd_same _ _ _) (n := (varsOf ws).len) rfl))]
  simp only [halloc, if_true, Int.toNat_natCast]
  rw [if_neg (by omega)]
  rw [show (repOf ws).toNat = 0 by omega, funevalRepeat, Prog.next (Prog.pure_run _ _)]
  refine stop_ub ?_
  unfold Prog.ofOutcome funevalPrint
  rw [if_pos hrep]
  rfl

/-- **C73, arguments.** A command line that breaks off, or has something else where a number is needed, is reported. -/
theorem C73_malformed (E : FunevalEnv ℝ) (p : ℕ) (ws : List (Word ℝ)) (args : List String) (h : CommandLine E ws args) (input : List ℝ) (a b : String)
    (more : List String) :
    (a ∉ optionNames → ∃ w, funevalMain codeKernel E p (args ++ [a]) input Proc.start = .ok (.ok (1, [.noNumber a]), w)) ∧
    (a ∉ optionNames → E.scanNum b = none → ∃ w, funevalMain codeKernel E p (args ++ a :: b :: more) input Proc.start = .ok (.ok (1, [.badWeight b]), w)) ∧
    (a = "--order" ∨ a = "--rep" → ∃ w, funevalMain codeKernel E p (args ++ [a]) input Proc.start = .ok (.ok (1, [.noInteger a]), w)) ∧
    (a = "--order" ∨ a = "--rep" → E.scanInt b = none →
      ∃ w, funevalMain codeKernel E p (args ++ a :: b :: more) input Proc.start = .ok (.ok (1, [.badInteger a b]), w)) := by
  obtain ⟨s, hs⟩ := settings_run ws
  have key : ∀ tail : List String, ∀ l : Line ℝ, tail ≠ [] → (∀ o w, funevalArgs codeKernel E p tail o w = .ok (.ok (.error l), w)) →
      ∃ w, funevalMain codeKernel E p (args ++ tail) input Proc.start = .ok (.ok (1, [l]), w) := by
    intro tail l ht hl
    refine ⟨⟨.filled, upd (upd (fun _ => none) p (some State.init)) p (some s)⟩, ?_⟩
    unfold funevalMain
    rw [Prog.next (Prog.new_run codeKernel (w := Proc.start) (Or.inl rfl) rfl)]
    cases hargs : args ++ tail with
    | nil => exact absurd (List.append_eq_nil_iff.1 hargs).2 ht
    | cons c cs =>
      simp only
      rw [← hargs, Prog.next ((args_then codeKernel E p h tail {} State.init s _ (upd_same _ _ _) hs).trans (hl _ _))]
      rfl
  have hopt : a ∉ optionNames → a ≠ "--quiet" ∧ a ≠ "--ns" ∧ a ≠ "--n" ∧ a ≠ "--ngnn" ∧ a ≠ "--ngnntaun" ∧ a ≠ "--ab" ∧ a ≠ "--order" ∧ a ≠ "--rep" := by
    simp [optionNames]
  refine ⟨fun ha => key _ _ (by simp) fun o w => ?_, fun ha hb => key _ _ (by simp) fun o w => ?_, fun ha => key _ _ (by simp) fun o w => ?_,
    fun ha hb => key _ _ (by simp) fun o w => ?_⟩
  · obtain ⟨h1, h2, h3, h4, h5, h6, h7, h8⟩ := hopt ha
    rw [funevalArgs.eq_def]
    simp only [h1, h2, h3, h4, h5, h6, h7, h8, if_false]
    rfl
  · obtain ⟨h1, h2, h3, h4, h5, h6, h7, h8⟩ := hopt ha
    rw [funevalArgs.eq_def]
    simp only [h1, h2, h3, h4, h5, h6, h7, h8, if_false, hb]
    rfl
  · rw [funevalArgs.eq_def]
    rcases ha with rfl | rfl <;> simp only [String.reduceEq, if_false, if_true] <;> rfl
  · rw [funevalArgs.eq_def]
    rcases ha with rfl | rfl <;> simp only [String.reduceEq, if_false, if_true, hb] <;> rfl

/-- **C73, unknown names.** A name the library does not know is not reported: it has no effect. -/
theorem C73_unknown_name (ws₁ ws₂ : List (Word ℝ)) (a : String) (x : ℝ) (ha : ¬ IsKnown a) :
    run State.init (settingsOf (ws₁ ++ .weight a x :: ws₂)) = run (State.init : State ℝ) (settingsOf (ws₁ ++ ws₂)) := by
  obtain ⟨s, hs⟩ := settings_run ws₁
  obtain ⟨s', h1, h2⟩ := C03_set_total (settingsOf ws₁) s hs a x
  have e1 : settingsOf (ws₁ ++ .weight a x :: ws₂) = settingsOf ws₁ ++ .set a x :: settingsOf ws₂ := by simp [settingsOf, Word.setting?]
  have e2 : settingsOf (ws₁ ++ ws₂) = settingsOf ws₁ ++ settingsOf ws₂ := by simp [settingsOf]
  rw [e1, e2, run_append, run_append, hs]
  show run s (.set a x :: settingsOf ws₂) = run s (settingsOf ws₂)
  rw [run, Call.step, h1, h2 ha]
  rfl

/-- **C73, a misspelt functional.** The command line `a x` with an unknown name and any number: all numbers printed are zero. -/
theorem C73_misspelt (E : FunevalEnv ℝ) (halloc : ∀ k, E.alloc k = true) (heof : E.eof = true) (p : ℕ) (a t : String) (x : ℝ) (ha : ¬ IsKnown a) (ho : a ∉ optionNames)
    (ht : E.scanNum t = some x) (points : List (ℝ × ℝ)) :
    ∃ w, funevalMain codeKernel E p [a, t] (points.flatMap fun q => [q.1, q.2]) Proc.start =
      .ok (.ok (1, (points.flatMap fun _ => [.header 2 1 3 2, .table [([0, 0], 0), ([1, 0], 0), ([0, 1], 0)]]) ++ [.header 2 1 3 2]), w) := by
  have hr : run State.init (settingsOf [.weight a x]) = .ok (State.init : State ℝ) := by
    have := C73_unknown_name [] [] a x ha
    simpa [settingsOf, run] using this
  have hc : CommandLine E [.weight a x] [a, t] := .cons (.weight a t x ho ht) .nil
  obtain ⟨nout, h1, h2⟩ := C73_funeval E halloc p _ _ hc (by simp) State.init _ hr .A_B rfl (fun k hk => by obtain ⟨i, hi, -⟩ := hk; simp [State.init] at hi) 1 rfl (by omega)
    rfl (show (0 : ℤ) < 1 by decide) (points.map fun q i => if i = 0 then q.1 else q.2) [] (by decide)
  refine ⟨⟨.filled, upd (fun _ => none) p (some { State.init with mode := PARTIAL_DERIVATIVES, vars := some .A_B, order := 1 })⟩, ?_⟩
  have hn : nout = 3 := by
    have : Outcome.ok (3 : ℤ) = .ok (nout : ℤ) := h1
    have := Outcome.ok.inj this
    omega
  subst hn
  rw [List.flatMap_map, List.append_nil, List.flatMap_map] at h2
  refine Eq.trans (congrArg (fun l => funevalMain codeKernel E p [a, t] l Proc.start) ?_) (h2.trans ?_)
  · rfl
  · simp [headerOf, rowsOf, isQuiet, heof, energyAt, energyOn, State.init, layout, exponents]
    refine ⟨?_, rfl, rfl⟩
    refine List.flatMap_congr fun q _ => ?_
    have e : (CT.get (0 : CT ℝ 1) 1) = 0 := rfl
    simp [show Vars.A_B.len = 2 from rfl, show Vars.A_B.code = 2 from rfl, List.range_succ, e]

/-! ### Concrete command lines -/

/-- Surroundings with plenty of memory that know the numbers "0", "1", "2" and "4". -/
noncomputable def sampleEnv : FunevalEnv ℝ where
  scanInt t := if t = "0" then some 0 else if t = "1" then some 1 else if t = "2" then some 2 else if t = "4" then some 4 else none
  scanNum t := if t = "1" then some 1 else none
  eof := true
  alloc _ := true
  out _ i := i
  m _ i := i + 17
  junk _ _ := none

/-- The settings of `slaterx 1`. -/
theorem slater_line : ∃ s : State ℝ, run State.init (settingsOf [.weight "slaterx" 1]) = .ok s ∧ Sufficient s .A_B ∧ s.active = [0] := by
  obtain ⟨s, hr, hd, ha⟩ : ∃ s : State ℝ, run State.init [.set "slaterx" (1 : ℝ)] = .ok s ∧ s.depends = 1 ∧ s.active = [0] := ⟨_, rfl, rfl, rfl⟩
  exact ⟨s, hr, (sufficient_iff (run_wf init_wf hr) _).2 (by rw [hd]; decide), ha⟩

/-- `funeval --quiet --order 2 slaterx 1`, two points and the first number of a third. -/
example (p : ℕ) : ∃ (s : State ℝ) (w : Proc ℝ), funevalMain codeKernel sampleEnv p ["--quiet", "--order", "2", "slaterx", "1"] [1, 2, 3, 4, 5] Proc.start =
    .ok (.ok (1, [.values (layout 2 2 (energyAt s .A_B fun i => [1, 2].getD i 0) (fun i => pderiv i (energyAt s .A_B) fun i => [1, 2].getD i 0)
        (fun i j => pderiv i (pderiv j (energyAt s .A_B)) fun i => [1, 2].getD i 0) (fun _ _ _ => 0)),
      .values (layout 2 2 (energyAt s .A_B fun i => [3, 4].getD i 0) (fun i => pderiv i (energyAt s .A_B) fun i => [3, 4].getD i 0)
        (fun i j => pderiv i (pderiv j (energyAt s .A_B)) fun i => [3, 4].getD i 0) (fun _ _ _ => 0))]), w) := by
  obtain ⟨s, hr, hs, ha⟩ := slater_line
  have hc : CommandLine sampleEnv [.quiet, .order 2, .weight "slaterx" 1] ["--quiet", "--order", "2", "slaterx", "1"] :=
    .cons .quiet (.cons (.order "2" 2 (by simp [sampleEnv])) (.cons (.weight "slaterx" "1" 1 (by simp [optionNames]) (by simp [sampleEnv])) .nil))
  obtain ⟨nout, w, -, h⟩ := C73_derivatives sampleEnv (fun _ => rfl) p _ _ hc (by simp) s _ hr .A_B rfl hs 2 rfl (by omega) rfl (show (0 : ℤ) < 1 by decide)
    [fun i => [1, 2].getD i 0, fun i => [3, 4].getD i 0] (by
      intro x hx
      simp only [List.mem_cons, List.not_mem_nil, or_false] at hx
      rcases hx with rfl | rfl <;> exact C16_slater_regular _ ha _ (by norm_num) (by norm_num)) [5] (by decide)
  refine ⟨{ s with mode := PARTIAL_DERIVATIVES, vars := some .A_B, order := (2 : ℕ) }, w, Eq.trans (congrArg (fun l => funevalMain codeKernel sampleEnv p _ l Proc.start) ?_) (h.trans ?_)⟩
  · simp [show Vars.A_B.len = 2 from rfl, List.range_succ]
  · simp only [headerOf, rowsOf, isQuiet, List.any_cons, Bool.true_or, if_true, List.nil_append, List.flatMap_cons, List.flatMap_nil, List.append_nil, Bool.not_true,
      Bool.false_and, Bool.false_eq_true, if_false, List.cons_append, show Vars.A_B.len = 2 from rfl, layout, show ¬ (3 ≤ 2) by decide]

/-- The same with order 4, and without repetitions. -/
example (p : ℕ) : funevalMain codeKernel sampleEnv p ["slaterx", "1", "--order", "4"] [1, 2, 3] Proc.start = .die ∧
    funevalMain codeKernel sampleEnv p ["slaterx", "1", "--rep", "0"] [1, 2, 3] Proc.start = .ub := by
  obtain ⟨s, hr, hs, ha⟩ := slater_line
  exact ⟨C73_order_four sampleEnv rfl p [.weight "slaterx" 1, .order 4] _
      (.cons (.weight "slaterx" "1" 1 (by simp [optionNames]) (by simp [sampleEnv])) (.cons (.order "4" 4 (by simp [sampleEnv])) .nil)) s hr hs rfl (show (0 : ℤ) < 1 by decide) _
      (by decide),
    C73_no_repetition sampleEnv rfl p [.weight "slaterx" 1, .rep 0] _
      (.cons (.weight "slaterx" "1" 1 (by simp [optionNames]) (by simp [sampleEnv])) (.cons (.rep "0" 0 (by simp [sampleEnv])) .nil)) s hr hs
      ⟨show (0 : ℤ) ≤ 1 by decide, show (1 : ℤ) ≤ 4 by decide⟩ (show (0 : ℤ) ≤ 0 by decide) _ (by decide)⟩

/-- A gradient functional with spin densities only is refused, a missing weight reported, and a misspelt name goes unnoticed. -/
example (p : ℕ) (input : List ℝ) : (∃ w, funevalMain codeKernel sampleEnv p ["pbex", "1"] input Proc.start = .ok (.ok (1, [.setupError 2]), w)) ∧
    (∃ w, funevalMain codeKernel sampleEnv p ["--n", "slaterx"] input Proc.start = .ok (.ok (1, [.noNumber "slaterx"]), w)) ∧
    ∃ w, funevalMain codeKernel sampleEnv p ["slatrex", "1"] [1, 2] Proc.start =
      .ok (.ok (1, [.header 2 1 3 2, .table [([0, 0], 0), ([1, 0], 0), ([0, 1], 0)], .header 2 1 3 2]), w) := by
  refine ⟨?_, (C73_malformed sampleEnv p [.density .N] _ (.cons .n .nil) input "slaterx" "" []).1 (by simp [optionNames]),
    C73_misspelt sampleEnv (fun _ => rfl) rfl p "slatrex" "1" 1 (by decide +kernel) (by simp [optionNames]) (by simp [sampleEnv]) [(1, 2)]⟩
  obtain ⟨s, hr, hd⟩ : ∃ s : State ℝ, run State.init (settingsOf [.weight "pbex" 1]) = .ok s ∧ s.depends = 3 := ⟨_, rfl, rfl⟩
  refine (C73_refused sampleEnv p [.weight "pbex" 1] _ (.cons (.weight "pbex" "1" 1 (by simp [optionNames]) (by simp [sampleEnv])) .nil) (by simp) s hr input).1 fun h => ?_
  rw [sufficient_iff (run_wf init_wf hr), hd] at h
  revert h
  show ¬ (3 &&& Vars.provides .A_B = 3)
  decide

/-! ## C74 -/

/-- The point of example.c: densities 1 and 2.1, gradients (1.1, 1.2, 1.3) and (1.4, 1.5, 1.6). -/
noncomputable def examplePoint (i : ℕ) : ℝ := [1, 2.1, 1.1, 1.2, 1.3, 1.4, 1.5, 1.6].getD i 0

theorem example_point : (List.range 8).map examplePoint = [lit 1 0, lit 21 1, lit 11 1, lit 12 1, lit 13 1, lit 14 1, lit 15 1, lit 16 1] := by
  simp [examplePoint, List.range_succ, lit, XCFun.Lit.lit]
  norm_num

/-- The gas of densities `x 0`, `x 1` and gradients `(x 2, x 3, x 4)`, `(x 5, x 6, x 7)`. -/
noncomputable def gradientGas (x : ℕ → ℝ) : Gas :=
  ⟨x 0, x 1, x 2 ^ 2 + x 3 ^ 2 + x 4 ^ 2, x 2 * x 5 + x 3 * x 6 + x 4 * x 7, x 5 ^ 2 + x 6 ^ 2 + x 7 ^ 2, 0, 0⟩

/-- 0.9 BLYP + 0.1 PBEC from the literature. -/
noncomputable def exampleEnergy (x : ℕ → ℝ) : ℝ := 0.9 * b88X (gradientGas x) + 0.9 * lypC (gradientGas x) + 0.1 * pbeC (gradientGas x)

theorem gas_components (x : ℕ → ℝ) : gasAt .A_B_AX_AY_AZ_BX_BY_BZ x = gradientGas x := by
  simp only [gasAt, given, spinFields, dot, gradientGas]
  congr 1 <;> ring

/-- The object of example.c. -/
theorem example_state : ∃ s₁ s₂ s : State ℝ, xcfunSet State.init "blyp" (lit 9 1) = .ok (0, s₁) ∧ xcfunSet s₁ "pbec" (lit 1 1) = .ok (0, s₂) ∧
    evalSetup s₂ Vars.A_B_AX_AY_AZ_BX_BY_BZ.code PARTIAL_DERIVATIVES 1 = .ok (0, s) ∧ s.active = [6, 16, 4] ∧ s.settings 6 = 0.9 ∧ s.settings 16 = 0.9 ∧
    s.settings 4 = 0.1 ∧ s.vars = some .A_B_AX_AY_AZ_BX_BY_BZ ∧ s.mode = PARTIAL_DERIVATIVES ∧ s.order = (1 : ℕ) := by
  obtain ⟨s₁, s₂, s, h1, h2, h3, h4, h5, h6, h7, h8, h9, h10⟩ : ∃ s₁ s₂ s : State ℝ, xcfunSet State.init "blyp" (lit 9 1) = .ok (0, s₁) ∧
    xcfunSet s₁ "pbec" (lit 1 1) = .ok (0, s₂) ∧
    evalSetup s₂ Vars.A_B_AX_AY_AZ_BX_BY_BZ.code PARTIAL_DERIVATIVES 1 = .ok (0, s) ∧ s.active = [6, 16, 4] ∧ s.settings 6 = lit 0 0 + lit 9 1 * lit 1 0 ∧
    s.settings 16 = lit 0 0 + lit 9 1 * lit 1 0 ∧
    s.settings 4 = lit 0 0 + lit 1 1 ∧ s.vars = some .A_B_AX_AY_AZ_BX_BY_BZ ∧ s.mode = PARTIAL_DERIVATIVES ∧ s.order = (1 : ℕ) :=
    ⟨_, _, _, rfl, rfl, rfl, rfl, rfl, rfl, rfl, rfl, rfl, rfl⟩
  exact ⟨s₁, s₂, s, h1, h2, h3, h4, by rw [h5]; norm_num [lit, XCFun.Lit.lit], by rw [h6]; norm_num [lit, XCFun.Lit.lit],
    by rw [h7]; norm_num [lit, XCFun.Lit.lit], h8, h9, h10⟩

theorem upd_none (p : ℕ) : upd (Proc.start (V := ℝ)).heap p none = fun _ => none := by
  funext a; simp [upd, Proc.start]

theorem chi_point : 0.5 < Lit.chiSq 1 4.34 ∧ 0.5 < Lit.chiSq 2.1 6.77 := by
  constructor
  · simp only [Lit.chiSq]; norm_num
  · have h : ((2.1 : ℝ) ^ (4 / 3 : ℝ)) ^ 2 ≤ 2.1 ^ 3 := by
      rw [← Real.rpow_natCast, ← Real.rpow_mul (by norm_num), ← Real.rpow_natCast]
      exact Real.rpow_le_rpow_of_exponent_le (by norm_num) (by norm_num)
    have hp : (0 : ℝ) < ((2.1 : ℝ) ^ (4 / 3 : ℝ)) ^ 2 := by positivity
    simp only [Lit.chiSq]
    rw [lt_div_iff₀ hp]
    norm_num at h ⊢
    linarith

/-- **C74.** examples/C_host/example.c prints 0.9 BLYP + 0.1 PBEC, as published, at its point and the eight partial derivatives, returns 0 and gives all memory back. -/
theorem C74_example (junk : Junk ℝ) (buf : ℕ → ℝ) (p : ℕ) : ∃ w : Proc ℝ,
    cExampleMain codeKernel junk (some buf) p Proc.start =
      .ok (.ok (0, exampleEnergy examplePoint :: (List.range 8).map fun i => pderiv i exampleEnergy examplePoint), w) ∧ ∀ a, w.heap a = none := by
  obtain ⟨s₁, s₂, s, h1, h2, h3, hact, w6, w16, w4, hv, hm, ho⟩ := example_state
  refine ⟨⟨.filled, fun _ => none⟩, ?_, fun _ => rfl⟩
  unfold cExampleMain
  rw [Prog.next (Prog.new_run codeKernel (w := Proc.start) (Or.inl rfl) rfl),
    Prog.next (Prog.int_run (Prog.set_run codeKernel (upd_same _ _ _) h1)), Prog.next (Prog.int_run (Prog.set_run codeKernel (upd_same _ _ _) h2)),
    Prog.next (Prog.int_run (Prog.setup_run codeKernel (upd_same _ _ _) h3)), Prog.next (Prog.int_run (Prog.length_run codeKernel (upd_same _ _ _) (abx_length hv hm ho)))]
  have hpub : publishedAt s .A_B_AX_AY_AZ_BX_BY_BZ = exampleEnergy := by
    funext x
    simp only [publishedAt, publishedSum, hact, List.map_cons, List.map_nil, List.sum_cons, List.sum_nil, w6, w16, w4, gas_components]
    show 0.9 * b88X _ + (0.9 * lypC _ + (0.1 * pbeC _ + 0)) = _
    rw [exampleEnergy]; ring
  have key := C52_partial_derivatives s (v := .A_B_AX_AY_AZ_BX_BY_BZ) (by decide) (by decide) (by simp [Doubled]) hv hm examplePoint ?_ ?_ ?_ 1 ho (by omega) []
    ((List.range (9 : ℤ).toNat).map buf) junk 9 (abx_length hv hm ho) (by simp)
  · rw [hpub, List.append_nil, show Vars.len .A_B_AX_AY_AZ_BX_BY_BZ = 8 from rfl, example_point] at key
    simp only
    rw [Prog.next (Prog.eval_run codeKernel (upd_same _ _ _) key), Prog.next (Prog.delete_run codeKernel (upd_same _ _ _)), Prog.pure_run]
    simp only [upd_upd, upd_none]
    rfl
  · refine ⟨?_, ?_, ?_, ?_⟩
    · intro y hy
      simp only [densities, densSlots, List.map_cons, List.map_nil, List.mem_cons, List.not_mem_nil, or_false] at hy
      rcases hy with rfl | rfl <;> norm_num [threshold, examplePoint]
    all_goals norm_num [given, spinFields, dot, examplePoint]
  · intro id hid
    rw [hact] at hid
    simp only [List.mem_cons, List.not_mem_nil, or_false] at hid
    rcases hid with rfl | rfl | rfl
    · have e : ∀ n g : ℝ, 0 < n → Spec.chiSq n g = Lit.chiSq n g := by
        intro n g hn
        have e1 : (n ^ (4 / 3 : ℝ)) ^ 2 = n ^ (8 / 3 : ℝ) := by
          rw [← Real.rpow_natCast, ← Real.rpow_mul hn.le]; norm_num
        have e2 : n ^ (-8 / 3 : ℝ) = (n ^ (8 / 3 : ℝ))⁻¹ := by
          rw [← Real.rpow_neg hn.le]; norm_num
        rw [Spec.chiSq, Lit.chiSq, e1, e2, div_eq_mul_inv g]
      have g1 : gradientGas examplePoint = ⟨1, 2.1, 4.34, 5.42, 6.77, 0, 0⟩ := by
        simp only [gradientGas, examplePoint]; norm_num
      have g2 := (gas_components examplePoint).trans g1
      have ha : given (1 / 2) examplePoint .A_B_AX_AY_AZ_BX_BY_BZ .a = 1 := congrArg Gas.a g2
      have hb : given (1 / 2) examplePoint .A_B_AX_AY_AZ_BX_BY_BZ .b = 2.1 := congrArg Gas.b g2
      have hga : given (1 / 2) examplePoint .A_B_AX_AY_AZ_BX_BY_BZ .gaa = 4.34 := congrArg Gas.gaa g2
      have hgb : given (1 / 2) examplePoint .A_B_AX_AY_AZ_BX_BY_BZ .gbb = 6.77 := congrArg Gas.gbb g2
      show Spec.chiSq _ _ ≠ 0.5 ∧ Spec.chiSq _ _ ≠ 0.5
      rw [ha, hb, hga, hgb, e _ _ (by norm_num), e _ _ (by norm_num)]
      exact ⟨chi_point.1.ne', chi_point.2.ne'⟩
    · trivial
    · trivial
  · have hc : ∀ i j : ℕ, ContinuousAt (fun x : ℕ → ℝ => Lit.chiSq (x i) (x j ^ 2 + x (j + 1) ^ 2 + x (j + 2) ^ 2)) examplePoint ∨ ¬ 0 < examplePoint i := by
      intro i j
      by_cases h : 0 < examplePoint i
      · left
        unfold Lit.chiSq
        refine ContinuousAt.div (by fun_prop) ?_ (by positivity)
        have c0 : ContinuousAt (fun x : ℕ → ℝ => x i) examplePoint := (continuous_apply i).continuousAt
        exact (c0.rpow_const (p := 4 / 3) (Or.inl h.ne')).pow 2
      · exact Or.inr h
    have g1 : gradientGas examplePoint = ⟨1, 2.1, 4.34, 5.42, 6.77, 0, 0⟩ := by
      simp only [gradientGas, examplePoint]; norm_num
    have c1 : 0.5 < Lit.chiSq (gradientGas examplePoint).a (gradientGas examplePoint).gaa := by rw [g1]; exact chi_point.1
    have c2 : 0.5 < Lit.chiSq (gradientGas examplePoint).b (gradientGas examplePoint).gbb := by rw [g1]; exact chi_point.2
    filter_upwards [((hc 0 2).resolve_right (by norm_num [examplePoint])).eventually (lt_mem_nhds c1),
      ((hc 1 5).resolve_right (by norm_num [examplePoint])).eventually (lt_mem_nhds c2)] with x h1 h2
    intro id hid
    rw [hact] at hid
    simp only [List.mem_cons, List.not_mem_nil, or_false] at hid
    rcases hid with rfl | rfl | rfl
    · refine ⟨_, rfl, ?_⟩
      rw [gas_components]
      exact ⟨h1.le, h2.le⟩
    · exact ⟨_, rfl, trivial⟩
    · exact ⟨_, rfl, trivial⟩

/-- **C74, memory.** Without memory for the output the program writes through a null pointer. -/
theorem C74_no_memory (junk : Junk ℝ) (p : ℕ) : cExampleMain codeKernel junk none p Proc.start = .ub := by
  obtain ⟨s₁, s₂, s, h1, h2, h3, -, -, -, -, hv, hm, ho⟩ := example_state
  unfold cExampleMain
  rw [Prog.next (Prog.new_run codeKernel (w := Proc.start) (Or.inl rfl) rfl),
    Prog.next (Prog.int_run (Prog.set_run codeKernel (upd_same _ _ _) h1)), Prog.next (Prog.int_run (Prog.set_run codeKernel (upd_same _ _ _) h2)),
    Prog.next (Prog.int_run (Prog.setup_run codeKernel (upd_same _ _ _) h3)), Prog.next (Prog.int_run (Prog.length_run codeKernel (upd_same _ _ _) (abx_length hv hm ho)))]
  rfl

end XCFun.Props
