import Verif.Model.History

/-!
# Specification vocabulary for names and histories

Written against the constant tables only; none of the lookup or update functions of the model is used.
-/

namespace XCFun.Spec

/-- Equal up to the case of ASCII letters. -/
def SameName (a b : String) : Prop :=
  a.toList.map Char.toLower = b.toList.map Char.toLower

instance (a b : String) : Decidable (SameName a b) := inferInstanceAs (Decidable (_ = _))

/-- `name` names functional number `i`. -/
def NamesFunctional (name : String) (i : Nat) : Prop :=
  ∃ f, funs[i]? = some f ∧ SameName name f.name

/-- `name` names the parameter stored at index `i` (78..81). -/
def NamesParameter (name : String) (i : Nat) : Prop :=
  NR_FUNCTIONALS ≤ i ∧ ∃ p, params[i - NR_FUNCTIONALS]? = some p ∧ SameName name p.name

instance (name i) : Decidable (NamesFunctional name i) :=
  match h : funs[i]? with
  | none => .isFalse (by rintro ⟨f, hf, _⟩; simp_all)
  | some f =>
    if hn : SameName name f.name then .isTrue ⟨f, h, hn⟩
    else .isFalse (by rintro ⟨g, hg, hs⟩; rw [h] at hg; cases hg; exact hn hs)

instance (name i) : Decidable (NamesParameter name i) :=
  if h78 : NR_FUNCTIONALS ≤ i then
    match h : params[i - NR_FUNCTIONALS]? with
    | none => .isFalse (by rintro ⟨_, f, hf, _⟩; simp_all)
    | some f =>
      if hn : SameName name f.name then .isTrue ⟨h78, f, h, hn⟩
      else .isFalse (by rintro ⟨_, g, hg, hs⟩; rw [h] at hg; cases hg; exact hn hs)
  else .isFalse (fun h => h78 h.1)

/-- `name` is the name of some functional or parameter. -/
def IsElementary (name : String) : Prop :=
  (∃ f ∈ funs, SameName name f.name) ∨ (∃ p ∈ params, SameName name p.name)

instance (name) : Decidable (IsElementary name) := inferInstanceAs (Decidable (_ ∨ _))

/-- `name` is the name of some functional, parameter or alias. -/
def IsKnown (name : String) : Prop :=
  IsElementary name ∨ ∃ a ∈ aliases, SameName name a.name

instance (name) : Decidable (IsKnown name) := inferInstanceAs (Decidable (_ ∨ _))

/-- The terms a name stands for: those of the first alias with this name, provided the name is not already the name
of a functional or parameter. -/
def aliasTerms (name : String) : List AliasTerm :=
  if IsElementary name then []
  else match aliases.find? (fun a => SameName name a.name) with
    | some a => a.terms
    | none => []

variable {V : Type _} [Add V] [Mul V] [Lit V]

/-- What `set name v` contributes to functional `i`: its value if it names the functional, `v * weight` for each term
of the alias that names the functional, nothing otherwise. -/
def contribution (i : Nat) (name : String) (v : V) : List V :=
  if NamesFunctional name i then [v]
  else ((aliasTerms name).filter (fun t => NamesFunctional t.name i)).map (fun t => v * lit t.mant t.exp)

/-- What `set name v` writes to parameter `i`, in order. -/
def paramWrites (i : Nat) (name : String) (v : V) : List V :=
  if NamesParameter name i then [v]
  else ((aliasTerms name).filter (fun t => NamesParameter t.name i)).map (fun t => v * lit t.mant t.exp)

/-- `set name _` names functional `i`, directly or through an alias. -/
def Mentions (name : String) (i : Nat) : Prop :=
  NamesFunctional name i ∨ ∃ t ∈ aliasTerms name, NamesFunctional t.name i

/-- The `set` calls of a history, in order. -/
def sets (h : List (Call V)) : List (String × V) :=
  h.filterMap fun c => match c with
    | .set n v => some (n, v)
    | _ => none

/-- All contributions to functional `i` in a history, in call order. -/
def contributions (i : Nat) (h : List (Call V)) : List V :=
  (sets h).flatMap fun c => contribution i c.1 c.2

/-- All writes to parameter `i` in a history, in call order. -/
def writesTo (i : Nat) (h : List (Call V)) : List V :=
  (sets h).flatMap fun c => paramWrites i c.1 c.2

end XCFun.Spec
