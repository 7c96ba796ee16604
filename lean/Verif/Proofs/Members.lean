/-
The members of `densvars` for different variable sets.
-/
import Verif.Proofs.Linear
import Verif.Props.Expansions
import Verif.Spec.Members

namespace XCFun
open Spec Props

/-! ### The threshold -/

namespace CT

theorem get_setC0 {n : ℕ} (x : CT ℝ n) (c : ℝ) {i : ℕ} (hi : i < 2 ^ n) :
    (x.setC0 c).get i = if i = 0 then c else x.get i := by
  induction x generalizing i with
  | leaf a => obtain rfl : i = 0 := by simpa using hi
              rfl
  | @node n a b iha _ =>
    simp only [setC0, get]
    by_cases h : i < 2 ^ n
    · rw [if_pos h, if_pos h, iha h]
    · rw [if_neg h, if_neg h, if_neg]
      rintro rfl
      exact h (by positivity)

theorem c0_setC0 {n : ℕ} (x : CT ℝ n) (c : ℝ) : (x.setC0 c).c0 = c := by
  rw [c0_eq_get, get_setC0 _ _ (by positivity), if_pos rfl]

theorem regularize_eq {n : ℕ} (x : CT ℝ n) : x.regularize = x.setC0 (max x.c0 threshold) := by
  unfold regularize threshold
  split
  · rename_i h; rw [max_eq_right h.le]
  · rename_i h
    rw [max_eq_left (not_lt.1 h)]
    refine ext_get fun i hi => ?_
    rw [get_setC0 _ _ hi]
    split
    · rename_i hi; rw [hi, c0_eq_get]
    · rfl

theorem get_regularize {n : ℕ} (x : CT ℝ n) {i : ℕ} (hi : i < 2 ^ n) :
    x.regularize.get i = if i = 0 then max (x.get 0) threshold else x.get i := by
  rw [regularize_eq, get_setC0 _ _ hi, c0_eq_get]

theorem regularize_idem {n : ℕ} (x : CT ℝ n) : x.regularize.regularize = x.regularize := by
  refine ext_get fun i hi => ?_
  rw [get_regularize _ hi, get_regularize _ (by positivity), if_pos rfl]
  split
  · rename_i h; rw [h, get_regularize _ (by positivity), if_pos rfl]; exact max_eq_left (le_max_right _ _)
  · rfl

theorem regularize_of_le {n : ℕ} {x : CT ℝ n} (h : threshold ≤ x.c0) : x.regularize = x :=
  if_neg (not_lt.2 h)

end CT

namespace Expr

/-- The variables in `l` occur only directly under `reg`. -/
def onlyReg (l : List ℕ) : Expr ℕ → Bool
  | var i => !l.contains i
  | lit _ => true
  | add x y => x.onlyReg l && y.onlyReg l
  | sub x y => x.onlyReg l && y.onlyReg l
  | mul x y => x.onlyReg l && y.onlyReg l
  | neg x => x.onlyReg l
  | prim _ x => x.onlyReg l
  | reg (var _) => true
  | reg x => x.onlyReg l
  | iflt x y a b => x.onlyReg l && y.onlyReg l && a.onlyReg l && b.onlyReg l

theorem evalCT_onlyReg {N : ℕ} {l : List ℕ} {ρ ρ' : ℕ → CT ℝ N} (h : ∀ i, (ρ i).regularize = (ρ' i).regularize)
    (h' : ∀ i, i ∉ l → ρ i = ρ' i) (e : Expr ℕ) (he : e.onlyReg l = true) : e.evalCT ρ = e.evalCT ρ' := by
  induction e with
  | var i => exact h' i (by simpa [onlyReg] using he)
  | lit c => rfl
  | add x y ihx ihy | sub x y ihx ihy | mul x y ihx ihy =>
    simp only [onlyReg, Bool.and_eq_true] at he
    simp only [evalCT, ihx he.1, ihy he.2]
  | neg x ih | prim p x ih =>
    simp only [onlyReg] at he
    simp only [evalCT, ih he]
  | reg x ih =>
    cases x with
    | var i => exact h i
    | _ => exact congrArg CT.regularize (ih he)
  | iflt x y a b ihx ihy iha ihb =>
    simp only [onlyReg, Bool.and_eq_true] at he
    simp only [evalCT, ihx he.1.1.1, ihy he.1.1.2, iha he.1.2, ihb he.2]

end Expr

/-- The densities occur in the members of `densvars` only regularised. -/
theorem members_onlyReg {par : ℕ → ℝ} {v : Vars} {f : Field → Expr ℕ} (h : densvars par v = some f) (fld : Field) :
    (f fld).onlyReg (densSlots v) = true := by
  cases v <;> simp only [densvars, DV.select, DV.selectFrom, Option.map_some, Option.some.injEq, Option.map_none,
    reduceCtorEq] at h <;> subst h <;> cases fld <;> rfl

/-- Two input expansions that differ only in densities below the threshold. -/
theorem formal_regularize (s : State ℝ) (v : Vars) {N : ℕ} {ρ ρ' : ℕ → CT ℝ N}
    (h : ∀ i, (ρ i).regularize = (ρ' i).regularize) (h' : ∀ i, i ∉ densSlots v → ρ i = ρ' i) :
    formal s v N ρ = formal s v N ρ' := by
  unfold formal energyOn
  refine congrArg List.sum (List.map_congr_left fun id _ => ?_)
  rw [← codeFp_eq, ← codeFp_eq]
  unfold codeFp
  cases hd : densvars s.settings v with
  | none => rfl
  | some f =>
    cases Fun.energy id with
    | none => rfl
    | some e =>
      dsimp only
      congr 2
      funext fld
      exact Expr.evalCT_onlyReg h h' _ (members_onlyReg hd fld)

/-! ### Members of two variable sets -/

/-- A member of `densvars` for given inputs; unsupported variable sets have none. -/
noncomputable def member (par : ℕ → ℝ) (v : Vars) {N : ℕ} (ρ : ℕ → CT ℝ N) (f : Field) : CT ℝ N :=
  match densvars par v with
  | some g => (g f).evalCT ρ
  | none => 0

theorem densvars_some {par : ℕ → ℝ} {v : Vars} (h : ¬ Unsupported v) : ∃ f, densvars par v = some f := by
  cases v <;> first
    | exact ⟨_, rfl⟩
    | exact absurd (by decide) h

/-- If all members agree, so do all functionals. -/
theorem energyOn_members {s : State ℝ} {v w : Vars} (hv : ¬ Unsupported v) (hw : ¬ Unsupported w) {N : ℕ}
    {ρ ρ' : ℕ → CT ℝ N} (P : Field → Bool)
    (hP : ∀ id ∈ s.active, ∀ e, Fun.energy id = some e → e.usesOnly P = true)
    (h : ∀ f, P f = true → member s.settings v ρ f = member s.settings w ρ' f) : energyOn s v ρ = energyOn s w ρ' := by
  unfold energyOn
  refine congrArg List.sum (List.map_congr_left fun id hid => ?_)
  rw [← codeFp_eq, ← codeFp_eq]
  unfold codeFp
  obtain ⟨f, hf⟩ := densvars_some (par := s.settings) hv
  obtain ⟨g, hg⟩ := densvars_some (par := s.settings) hw
  rw [hf, hg]
  cases he : Fun.energy id with
  | none => rfl
  | some e =>
    dsimp only
    congr 1
    refine Expr.evalCT_congr (fun fld hfld => ?_) e (hP id hid e he)
    have := h fld hfld
    rwa [member, member, hf, hg] at this

theorem energyOn_members' {s : State ℝ} {v w : Vars} (hv : ¬ Unsupported v) (hw : ¬ Unsupported w) {N : ℕ}
    {ρ ρ' : ℕ → CT ℝ N} (h : ∀ f, member s.settings v ρ f = member s.settings w ρ' f) :
    energyOn s v ρ = energyOn s w ρ' :=
  energyOn_members hv hw (fun _ => true) (fun _ _ e _ => e.usesOnly_true) fun f _ => h f

theorem evalCT_ofNat {N : ℕ} (ρ : ℕ → CT ℝ N) (n : ℕ) [n.AtLeastTwo] :
    (ofNat(n) : Expr ℕ).evalCT ρ = (ofNat(n) : CT ℝ N) := map_ofNat (CT.constHom ℝ N) n

namespace Expr
variable {ι : Type} {N : ℕ} (ρ : ι → CT ℝ N) (x y : Expr ι)
@[simp] theorem evalCT_add : (x + y).evalCT ρ = x.evalCT ρ + y.evalCT ρ := rfl
@[simp] theorem evalCT_sub : (x - y).evalCT ρ = x.evalCT ρ - y.evalCT ρ := rfl
@[simp] theorem evalCT_mul : (x * y).evalCT ρ = x.evalCT ρ * y.evalCT ρ := rfl
@[simp] theorem evalCT_var (i : ι) : (var i).evalCT ρ = ρ i := rfl
@[simp] theorem evalCT_reg : (reg x).evalCT ρ = (x.evalCT ρ).regularize := rfl
@[simp] theorem evalCT_zero : (0 : Expr ι).evalCT ρ = 0 := rfl
@[simp] theorem evalCT_two : (2 : Expr ι).evalCT ρ = 2 := map_ofNat (CT.constHom ℝ N) 2
@[simp] theorem evalCT_half : (0.5 : Expr ι).evalCT ρ = CT.const N (1 / 2) :=
  congrArg (CT.const N) (by norm_num)
@[simp] theorem evalCT_quarter : (0.25 : Expr ι).evalCT ρ = CT.const N (1 / 2) * CT.const N (1 / 2) := by
  rw [← CT.const_mul]; exact congrArg (CT.const N) (by norm_num)
@[simp] theorem evalCT_div_two : (x / 2).evalCT ρ = CT.const N (1 / 2) * x.evalCT ρ := by
  have h : ((CT.const N (2 : ℝ)).prim .inv * 1) * CT.const N (2 : ℝ) = 1 :=
    Props.C26_division 1 _ (by rw [← CT.c0_eq_get]; simp)
  have e : CT.const N (1 / 2) * CT.const N (2 : ℝ) = 1 := by rw [← CT.const_mul]; norm_num; rfl
  show (CT.const N (2 : ℝ)).prim .inv * x.evalCT ρ = _
  congr 1
  linear_combination CT.const N (1 / 2) * h - (CT.const N (2 : ℝ)).prim .inv * e
end Expr

theorem half_add_half (N : ℕ) : CT.const N (1 / 2 : ℝ) + CT.const N (1 / 2) = 1 := by
  rw [← CT.const_add]; norm_num; rfl

/-- Gradients, kinetic energy densities, Laplacians and currents are passed on as given. -/
theorem member_other (par : ℕ → ℝ) (v : Vars) {N : ℕ} (ρ : ℕ → CT ℝ N) {f : Field} (hf : IsOther f) :
    member par v ρ f = given (CT.const N (1 / 2)) ρ v f := by
  have hh := half_add_half N
  generalize hk : CT.const N (1 / 2 : ℝ) = k at hh
  have h4 : k * k + k * k + k * k + k * k = 1 := by linear_combination (k + k + 1) * hh
  simp only [IsOther, List.mem_cons, List.not_mem_nil, or_false] at hf
  cases v <;> rcases hf with rfl | rfl | rfl | rfl | rfl | rfl | rfl | rfl | rfl | rfl | rfl | rfl | rfl <;>
    simp only [member, densvars, DV.select, DV.selectFrom, Option.map_some, Option.map_none, DV.field, DV.finish,
      DV.caseAGAA, DV.caseA, DV.caseABTau, DV.caseABGrad, DV.total, DV.caseABAt, DV.caseNSTau, DV.spinGrad,
      DV.caseNSGrad, DV.caseNS, DV.caseTauNAt, DV.closedGrad, DV.caseNGrad, DV.caseN, DV.caseN2nd, DV.caseNXyz,
      DV.dotGrad, DV.caseAB2nd, DV.caseABXyzTau, DV.caseABXyz, DV.caseNSXyzTau, DV.caseNSXyz, DV.caseJp, DV.caseLapTau,
      given, spinFields, withTotals, dot, Expr.evalCT_add, Expr.evalCT_sub, Expr.evalCT_mul, Expr.evalCT_var,
      Expr.evalCT_zero, Expr.evalCT_two, Expr.evalCT_half, Expr.evalCT_quarter, Expr.evalCT_div_two, hk] <;>
    first
      | rfl
      | ring1
      | linear_combination (-ρ 1) * h4
      | linear_combination (-ρ 2) * h4
      | linear_combination (-ρ 3) * h4
      | linear_combination (-ρ 4) * h4
      | linear_combination (-ρ 2) * hh
      | linear_combination (-ρ 4) * hh
      | linear_combination (-ρ 8) * hh
      | linear_combination (-(ρ 1 * ρ 1 + ρ 2 * ρ 2 + ρ 3 * ρ 3)) * h4
      | linear_combination (-(ρ 2 * ρ 2 + ρ 3 * ρ 3 + ρ 4 * ρ 4)) * h4
      | linear_combination (-(ρ 2 * ρ 5 + ρ 3 * ρ 6 + ρ 4 * ρ 7)) * h4
      | linear_combination (-(ρ 5 * ρ 5 + ρ 6 * ρ 6 + ρ 7 * ρ 7)) * h4

/-- The constructor's cases, unfolded. -/
macro "unfold_members" : tactic => `(tactic| simp only [member, densvars, DV.select, DV.selectFrom, Option.map_some,
      Option.map_none, DV.field, DV.finish,
      DV.caseAGAA, DV.caseA, DV.caseABTau, DV.caseABGrad, DV.total, DV.caseABAt, DV.caseNSTau, DV.spinGrad,
      DV.caseNSGrad, DV.caseNS, DV.caseTauNAt, DV.closedGrad, DV.caseNGrad, DV.caseN, DV.caseN2nd, DV.caseNXyz,
      DV.dotGrad, DV.caseAB2nd, DV.caseABXyzTau, DV.caseABXyz, DV.caseNSXyzTau, DV.caseNSXyz, DV.caseJp, DV.caseLapTau,
      given, spinFields, withTotals, dot, Expr.evalCT_add, Expr.evalCT_sub, Expr.evalCT_mul, Expr.evalCT_var,
      Expr.evalCT_reg, Expr.evalCT_zero, Expr.evalCT_two, Expr.evalCT_half, Expr.evalCT_quarter, Expr.evalCT_div_two])

/-- Above the threshold the densities are passed on as given. -/
theorem member_density (par : ℕ → ℝ) {v : Vars} (hv : ¬ Unsupported v) (hA : v ≠ .A ∧ v ≠ .A_GAA) {N : ℕ}
    (ρ : ℕ → CT ℝ N) (h : ∀ x ∈ densities (CT.const N (1 / 2)) ρ v, threshold ≤ x.c0) {f : Field} (hf : IsDensity f) :
    member par v ρ f = given (CT.const N (1 / 2)) ρ v f := by
  have hh := half_add_half N
  have h' : ∀ x ∈ densities (CT.const N (1 / 2)) ρ v, x.regularize = x := fun x hx => CT.regularize_of_le (h x hx)
  cases v <;> first
    | exact absurd (by decide) hv
    | exact absurd rfl hA.1
    | exact absurd rfl hA.2
    | (simp only [densities, densSlots, List.map_cons, List.map_nil, List.mem_cons, List.not_mem_nil, or_false,
        forall_eq_or_imp, forall_eq] at h'
       rcases hf with rfl | rfl | rfl | rfl <;> unfold_members <;> (try simp only [h']) <;>
       first | rfl | ring1 | linear_combination (-ρ 0) * hh | linear_combination (-ρ 1) * hh)

/-- The remaining members are functions of these. -/
theorem member_ext {par : ℕ → ℝ} {v w : Vars} (hv : ¬ Unsupported v) (hw : ¬ Unsupported w) {N : ℕ} {ρ ρ' : ℕ → CT ℝ N}
    (hd : ∀ f, IsDensity f → member par v ρ f = member par w ρ' f)
    (f : Field) (ho : IsOther f → member par v ρ f = member par w ρ' f) :
    member par v ρ f = member par w ρ' f := by
  have key : ∀ u, ¬ Unsupported u → ∃ x : DV ℕ, densvars par u = some (x.finish.field par) := fun u hu => by
    cases u <;> first
      | exact ⟨_, rfl⟩
      | exact absurd (by decide) hu
  obtain ⟨x, hx⟩ := key v hv
  obtain ⟨y, hy⟩ := key w hw
  have ha := hd .a (by simp [IsDensity])
  have hb := hd .b (by simp [IsDensity])
  have hn := hd .n (by simp [IsDensity])
  have hs := hd .s (by simp [IsDensity])
  simp only [member, hx, hy, DV.field, DV.finish] at ha hb hn hs
  by_cases h1 : IsDensity f
  · exact hd f h1
  by_cases h2 : IsOther f
  · exact ho h2
  simp only [member, hx, hy]
  cases f with
  | zeta | r_s | n_m13 | a_43 | b_43 | param =>
    simp only [DV.field, DV.finish, Expr.pow, Expr.evalCT, HDiv.hDiv, Div.div, HMul.hMul, Mul.mul, ha, hb, hn, hs]
  | _ => simp [IsDensity, IsOther] at h1 h2

/-! ### Contracted mode -/

/-- The input array of contracted mode holding given expansions. -/
def packC (N : ℕ) (ρ : ℕ → CT ℝ N) (p : ℕ) : ℝ := (ρ (p / 2 ^ N)).get (p % 2 ^ N)

theorem seedC_packC (N : ℕ) (ρ : ℕ → CT ℝ N) : seedC N (packC N ρ) = ρ := by
  funext i
  refine CT.ext_get fun c hc => ?_
  rw [seedC, CT.get_ofFn _ hc, packC]
  have e1 : (i * 2 ^ N + c) / 2 ^ N = i := by
    rw [Nat.add_comm, Nat.add_mul_div_right _ _ (by positivity), Nat.div_eq_of_lt hc, Nat.zero_add]
  have e2 : (i * 2 ^ N + c) % 2 ^ N = c := by
    rw [Nat.add_comm, Nat.add_mul_mod_self_right, Nat.mod_eq_of_lt hc]
  rw [e1, e2]

/-- Input array for the variable set `v`. -/
noncomputable def packed (v : Vars) (N : ℕ) (ρ : ℕ → CT ℝ N) : List ℝ := (List.range (v.len * 2 ^ N)).map (packC N ρ)

/-- The object configured for contracted mode. -/
def contractedAt (s : State ℝ) (v : Vars) (N : ℕ) : State ℝ := { s with vars := some v, mode := CONTRACTED, order := N }

theorem contracted_eval (s : State ℝ) {v : Vars} (hv : ¬ Unsupported v) {N : ℕ} (hN : N ≤ 6) (ρ : ℕ → CT ℝ N)
    (junk : Junk ℝ) {output : List ℝ} (ho : 2 ^ N ≤ output.length) :
    xcfunEval codeKernel junk (contractedAt s v N) (packed v N ρ) output =
      .ok ((List.range (2 ^ N)).map (energyOn s v ρ).get ++ output.drop (2 ^ N)) := by
  have hsup : DV.reads v ≠ none := by rw [ne_eq, ← unsupported_iff]; exact hv
  obtain ⟨sl, hsl⟩ := Option.ne_none_iff_exists'.mp hsup
  rw [xcfunEval_contracted rfl rfl (N := N) rfl hN,
    evalContractedN_ok (y := packC N ρ) codeKernel_local hsl (len_le v)
      (fun k hk => by simp [packed, List.getElem?_range hk]) junk _ ho,
    splice_zero, total_formal, seedC_packC]
  simp only [List.length_map, List.length_range]
  rfl

theorem contracted_same (s : State ℝ) {v w : Vars} (hv : ¬ Unsupported v) (hw : ¬ Unsupported w) {N : ℕ} (hN : N ≤ 6)
    {ρ ρ' : ℕ → CT ℝ N} (h : energyOn s v ρ = energyOn s w ρ') (junk : Junk ℝ) {output : List ℝ}
    (ho : 2 ^ N ≤ output.length) :
    xcfunEval codeKernel junk (contractedAt s v N) (packed v N ρ) output =
      xcfunEval codeKernel junk (contractedAt s w N) (packed w N ρ') output := by
  rw [contracted_eval s hv hN ρ junk ho, contracted_eval s hw hN ρ' junk ho, h]

/-! ### Densities below the threshold -/

theorem formal_clamp (s : State ℝ) (v : Vars) {N : ℕ} {ρ ρ' : ℕ → CT ℝ N}
    (h : ∀ i, ∀ c < 2 ^ N, (ρ' i).get c = (ρ i).get c ∨
      (c = 0 ∧ i ∈ densSlots v ∧ (ρ' i).get 0 = max ((ρ i).get 0) threshold)) :
    formal s v N ρ' = formal s v N ρ := by
  refine formal_regularize s v (fun i => CT.ext_get fun c hc => ?_) fun i hi => CT.ext_get fun c hc => ?_
  · rw [CT.get_regularize _ hc, CT.get_regularize _ hc]
    rcases h i c hc with e | ⟨rfl, -, e⟩
    · split
      · rename_i h0; subst h0; rw [e]
      · exact e
    · rw [if_pos rfl, if_pos rfl, e, max_assoc, max_self]
  · rcases h i c hc with e | ⟨-, h', -⟩
    · exact e
    · exact absurd h' hi

theorem readouts_clamp (s : State ℝ) (v : Vars) (m : ℤ) (k dep : ℕ) (j2 : ℕ → CT ℝ 2) {x x' : ℕ → ℝ}
    (h1 : m ≠ CONTRACTED → ∀ i, x' i = x i ∨ (i ∈ densSlots v ∧ x' i = max (x i) threshold))
    (h2 : m = CONTRACTED → ∀ i, ∀ c < 2 ^ k, x' (i * 2 ^ k + c) = x (i * 2 ^ k + c) ∨
      (c = 0 ∧ i ∈ densSlots v ∧ x' (i * 2 ^ k) = max (x (i * 2 ^ k)) threshold))
    (hH : m ≠ PARTIAL_DERIVATIVES → m ≠ CONTRACTED → dep &&& GRADIENT ≠ 0 → HessianVars v) :
    (readouts v m k dep j2 x').map (· (formal s v)) = (readouts v m k dep j2 x).map (· (formal s v)) := by
  by_cases hC : m = CONTRACTED
  · have hP : ¬ m = PARTIAL_DERIVATIVES := by rw [hC]; decide
    simp only [readouts, if_neg hP, if_pos hC, List.map_map, Function.comp_def, readCoef]
    rw [formal_clamp (ρ := seedC k x) (ρ' := seedC k x')]
    intro i c hc
    rw [seedC, seedC, CT.get_ofFn _ hc, CT.get_ofFn _ hc, CT.get_ofFn _ (by positivity), CT.get_ofFn _ (by positivity)]
    exact h2 hC i c hc
  have h1 := h1 hC
  have hn : ∀ i, i ∉ densSlots v → x' i = x i := fun i hi => (h1 i).resolve_right fun h => hi h.1
  have e0 : ∀ c, readCoef 0 (fun i => CT.const 0 (x' i)) c (formal s v) =
      readCoef 0 (fun i => CT.const 0 (x i)) c (formal s v) := fun c => by
    rw [readCoef, readCoef, formal_clamp]
    intro i c hc
    obtain rfl : c = 0 := by simpa using hc
    exact (h1 i).imp id fun h => ⟨rfl, h⟩
  have e1 : ∀ i c, readCoef 1 (seed1 x' i) c (formal s v) = readCoef 1 (seed1 x i) c (formal s v) := fun i c => by
    rw [readCoef, readCoef, formal_clamp]
    intro l c hc
    obtain _ | _ | c := c
    · exact (h1 l).imp id fun h => ⟨rfl, h⟩
    · exact Or.inl rfl
    · simp at hc
  have e2 : ∀ i j c, readCoef 2 (seed2 x' i j) c (formal s v) = readCoef 2 (seed2 x i j) c (formal s v) :=
    fun i j c => by
      rw [readCoef, readCoef, formal_clamp]
      intro l c hc
      obtain _ | _ | _ | _ | c := c
      · exact (h1 l).imp id fun h => ⟨rfl, h⟩
      · exact Or.inl rfl
      · exact Or.inl rfl
      · exact Or.inl rfl
      · omega
  have e3 : ∀ i j l c, readCoef 3 (seed3 x' i j l) c (formal s v) = readCoef 3 (seed3 x i j l) c (formal s v) :=
    fun i j l c => by
      rw [readCoef, readCoef, formal_clamp]
      intro l c hc
      obtain _ | _ | _ | _ | _ | _ | _ | _ | c := c
      · exact (h1 l).imp id fun h => ⟨rfl, h⟩
      · exact Or.inl rfl
      · exact Or.inl rfl
      · exact Or.inl rfl
      · exact Or.inl rfl
      · exact Or.inl rfl
      · exact Or.inl rfl
      · exact Or.inl rfl
      · omega
  have eG : ∀ (D : (ℕ → ℝ) → ℕ → ℝ) g l, D x' l = D x l → ∀ c < 4, (seedG x' (D x') g l).get c = (seedG x (D x) g l).get c ∨
      (c = 0 ∧ l ∈ densSlots v ∧ (seedG x' (D x') g l).get 0 = max ((seedG x (D x) g l).get 0) threshold) := by
    intro D g l hD c hc
    obtain _ | _ | _ | _ | c := c
    · exact (h1 l).imp id fun h => ⟨rfl, h⟩
    · exact Or.inl hD
    · exact Or.inl rfl
    · exact Or.inl rfl
    · omega
  have hdp : ∀ d ∈ [dirX, dirY, dirZ], ∀ l, 1 ≤ dpos d l ∧ dpos d l ≤ 9 := by
    intro d hd l
    simp only [List.mem_cons, List.not_mem_nil, or_false] at hd
    rcases hd with rfl | rfl | rfl <;> simp only [dpos, dirX, dirY, dirZ] <;> split_ifs <;> simp
  have eN : densSlots v = [0] → ∀ d ∈ [dirX, dirY, dirZ], ∀ g c,
      readCoef 2 (seedN x' d g) c (formal s v) = readCoef 2 (seedN x d g) c (formal s v) := by
    intro hsl d hd g c
    rw [readCoef, readCoef, formal_clamp]
    intro l c hc
    unfold seedN
    split
    · refine eG (fun x l => x (dpos d l)) g l (hn _ ?_) c hc
      have := hdp d hd l
      rw [hsl]; simp; omega
    · exact Or.inl rfl
  have eAB : v = .A_B_2ND_TAYLOR → ∀ d ∈ [dirX, dirY, dirZ], ∀ g c,
      readCoef 2 (seedAB x' j2 d g) c (formal s v) = readCoef 2 (seedAB x j2 d g) c (formal s v) := by
    intro hv d hd g c
    have hsl : densSlots v = [0, 10] := by rw [hv]; rfl
    rw [readCoef, readCoef, formal_clamp]
    intro l c hc
    unfold seedAB
    split
    · refine eG (fun x l => x (dpos d l)) g l (hn _ ?_) c hc
      have := hdp d hd l
      rw [hsl]; simp; omega
    split
    · exact Or.inl rfl
    split
    · refine eG (fun x l => x (dpos d (l - 10) + 10)) g l (hn _ ?_) c hc
      have := hdp d hd (l - 10)
      rw [hsl]; simp; omega
    · exact Or.inl rfl
  by_cases hP : m = PARTIAL_DERIVATIVES
  · simp only [readouts, if_pos hP, layout, List.map_append, List.map_cons, List.map_nil, e0,
      apply_ite (List.map (fun φ : Formal → ℝ => φ (formal s v))), List.map_map, Function.comp_def, e1, e2, e3]
  by_cases hg : dep &&& GRADIENT ≠ 0
  · simp only [readouts, if_neg hP, if_neg hC, if_pos hg]
    rcases hH hP hC hg with rfl | rfl | rfl | rfl
    · have := eN rfl
      simp [e1, this]
    · have := eAB rfl
      simp [e1, this]
    · have := eN rfl
      simp [e1, this]
    · have := eN rfl
      simp [e1, this]
  · simp only [readouts, if_neg hP, if_neg hC, if_neg hg, List.map_cons, List.map_map, Function.comp_def, e1]

/-- `energyAt` is the order-0 case of `energyOn`. -/
theorem energyAt_energyOn (s : State ℝ) (v : Vars) (x : ℕ → ℝ) :
    energyOn s v (fun i => CT.const 0 (x i)) = CT.leaf (energyAt s v x) := by
  rw [← energyR_eq, ← run0, sumExpr_evalCT]

end XCFun
