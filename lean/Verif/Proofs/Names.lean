import Verif.Spec.Names
import Mathlib.Data.List.Nodup

/-!
# Lookup lemmas
-/

namespace XCFun
open Spec

theorem lower_eq_toLower (c : Char) : lower c = c.toLower := by
  unfold lower Char.toLower
  have h1 : ('A' ≤ c ∧ c ≤ 'Z') ↔ (c.val ≥ 'A'.val ∧ c.val ≤ 'Z'.val) := Iff.rfl
  by_cases h : c.val ≥ 'A'.val ∧ c.val ≤ 'Z'.val
  · rw [if_pos (h1.2 h), dif_pos h]
    apply Char.ext
    obtain ⟨ha, hb⟩ := h
    have ha' : 65 ≤ c.val.toNat := ha
    have hb' : c.val.toNat ≤ 90 := hb
    apply UInt32.toNat.inj
    have hv : (c.toNat + 32).isValidChar := by
      left
      have : c.toNat = c.val.toNat := rfl
      omega
    rw [Char.ofNat, dif_pos hv]
    simp only [Char.ofNatAux, UInt32.toNat_add]
    have : c.toNat = c.val.toNat := rfl
    simp [UInt32.toNat_ofNatLT] 
  · rw [if_neg (fun h' => h (h1.1 h')), dif_neg h]

theorem fold_eq (s : String) : fold s = s.toList.map Char.toLower := by
  unfold fold; congr 1; funext c; exact lower_eq_toLower c

theorem strcaseEq_iff {a b : String} : strcaseEq a b = true ↔ SameName a b := by
  simp [strcaseEq, SameName, fold_eq]

theorem Spec.SameName.refl (a : String) : SameName a a := rfl
theorem Spec.SameName.symm {a b : String} (h : SameName a b) : SameName b a := Eq.symm h
theorem Spec.SameName.trans {a b c : String} (h : SameName a b) (h' : SameName b c) : SameName a c := Eq.trans h h'

theorem funs_length : funs.length = NR_FUNCTIONALS := by decide
theorem params_length : params.length = 4 := by decide

/-- The complete list of elementary names, case folded. -/
def elementaryFolds : List (List Char) := funs.map (fun f => fold f.name) ++ params.map (fun p => fold p.name)

set_option maxRecDepth 10000 in
theorem elementaryFolds_nodup : elementaryFolds.Nodup := by decide +kernel

theorem Spec.SameName.fold_eq {a b : String} (h : SameName a b) : fold a = fold b := by
  rw [XCFun.fold_eq, XCFun.fold_eq]; exact h

theorem sameName_of_fold {a b : String} (h : fold a = fold b) : SameName a b := by
  rw [XCFun.fold_eq, XCFun.fold_eq] at h; exact h

theorem funFolds_nodup : (funs.map (fun f => fold f.name)).Nodup :=
  (List.nodup_append.1 elementaryFolds_nodup).1

theorem paramFolds_nodup : (params.map (fun p => fold p.name)).Nodup :=
  (List.nodup_append.1 elementaryFolds_nodup).2.1

theorem findIdx?_unique {α : Type _} (l : List α) (key : α → List Char) (hn : (l.map key).Nodup) (k : List Char)
    (p : α → Bool) (hp : ∀ a, p a = true ↔ k = key a) (i : Nat) :
    l.findIdx? p = some i ↔ ∃ a, l[i]? = some a ∧ k = key a := by
  rw [List.findIdx?_eq_some_iff_getElem]
  constructor
  · rintro ⟨h, h1, _⟩
    exact ⟨l[i], List.getElem?_eq_getElem h, (hp _).1 h1⟩
  · rintro ⟨a, ha, hk⟩
    obtain ⟨h, rfl⟩ := List.getElem?_eq_some_iff.1 ha
    refine ⟨h, (hp _).2 hk, fun j hj hpj => ?_⟩
    have hj' : j < l.length := Nat.lt_trans hj h
    have := (hp _).1 hpj
    have e : key l[j] = key l[i] := this.symm.trans hk
    have := (List.Nodup.getElem_inj_iff hn (i := j) (j := i) (hi := by simpa using hj') (hj := by simpa using h)).1
      (by simpa using e)
    omega

theorem lookupFunctional_eq_some {name : String} {i : Nat} :
    lookupFunctional name = some i ↔ NamesFunctional name i := by
  unfold lookupFunctional NamesFunctional
  rw [findIdx?_unique funs (fun f => fold f.name) funFolds_nodup (fold name) _ (by
    intro a; simp [strcaseEq])]
  constructor
  · rintro ⟨a, h, hk⟩; exact ⟨a, h, sameName_of_fold hk⟩
  · rintro ⟨a, h, hk⟩; exact ⟨a, h, hk.fold_eq⟩

theorem lookupFunctional_lt {name : String} {i : Nat} (h : lookupFunctional name = some i) : i < NR_FUNCTIONALS := by
  obtain ⟨f, hf, _⟩ := lookupFunctional_eq_some.1 h
  have := (List.getElem?_eq_some_iff.1 hf).1
  rwa [funs_length] at this

theorem lookupParameter_eq_some {name : String} {i : Nat} :
    lookupParameter name = some i ↔ NamesParameter name i := by
  unfold lookupParameter NamesParameter
  rw [Option.map_eq_some_iff]
  constructor
  · rintro ⟨j, hj, rfl⟩
    obtain ⟨a, h, hk⟩ := (findIdx?_unique params (fun f => fold f.name) paramFolds_nodup (fold name) _ (by
      intro a; simp [strcaseEq]) j).1 hj
    refine ⟨by omega, a, ?_, sameName_of_fold hk⟩
    simpa using h
  · rintro ⟨h78, a, h, hk⟩
    refine ⟨i - NR_FUNCTIONALS, ?_, by omega⟩
    exact (findIdx?_unique params (fun f => fold f.name) paramFolds_nodup (fold name) _ (by
      intro a; simp [strcaseEq]) _).2 ⟨a, h, hk.fold_eq⟩

theorem lookupParameter_range {name : String} {i : Nat} (h : lookupParameter name = some i) :
    NR_FUNCTIONALS ≤ i ∧ i < NR_PARAMETERS_AND_FUNCTIONALS := by
  obtain ⟨h1, f, hf, _⟩ := lookupParameter_eq_some.1 h
  have := (List.getElem?_eq_some_iff.1 hf).1
  rw [params_length] at this
  refine ⟨h1, ?_⟩
  simp only [NR_FUNCTIONALS, NR_PARAMETERS_AND_FUNCTIONALS] at *
  omega

theorem lookupFunctional_eq_none {name : String} :
    lookupFunctional name = none ↔ ¬ ∃ f ∈ funs, SameName name f.name := by
  unfold lookupFunctional
  rw [List.findIdx?_eq_none_iff]
  simp only [← Bool.not_eq_true, strcaseEq_iff, not_exists, not_and]

theorem lookupParameter_eq_none {name : String} :
    lookupParameter name = none ↔ ¬ ∃ f ∈ params, SameName name f.name := by
  unfold lookupParameter
  rw [Option.map_eq_none_iff, List.findIdx?_eq_none_iff]
  simp only [← Bool.not_eq_true, strcaseEq_iff, not_exists, not_and]

theorem lookupAlias_eq_none {name : String} :
    lookupAlias name = none ↔ ¬ ∃ f ∈ aliases, SameName name f.name := by
  unfold lookupAlias
  rw [List.findIdx?_eq_none_iff]
  simp only [← Bool.not_eq_true, strcaseEq_iff, not_exists, not_and]

/-- No elementary name is both a functional and a parameter. -/
theorem functional_parameter_disjoint {name : String} {i j : Nat}
    (hi : NamesFunctional name i) (hj : NamesParameter name j) : False := by
  obtain ⟨f, hf, hs⟩ := hi
  obtain ⟨_, p, hp, hs'⟩ := hj
  have := (List.nodup_append.1 elementaryFolds_nodup).2.2 (fold f.name)
    (List.mem_map.2 ⟨f, List.mem_of_getElem? hf, rfl⟩) (fold p.name)
    (List.mem_map.2 ⟨p, List.mem_of_getElem? hp, rfl⟩)
  exact this ((hs.symm.trans hs').fold_eq)

/-- Looking up the terms of an alias by index or by first match is the same. -/
theorem aliasTerms_eq {name : String} {item : Nat} (h1 : lookupFunctional name = none)
    (h2 : lookupParameter name = none) (h3 : lookupAlias name = some item) :
    ((aliases[item]?).map AliasData.terms).getD [] = aliasTerms name ∧ ∃ a ∈ aliases, a.terms = aliasTerms name := by
  have hne : ¬ IsElementary name := by
    rintro (h | h)
    · exact lookupFunctional_eq_none.1 h1 h
    · exact lookupParameter_eq_none.1 h2 h
  have hp : (fun a : AliasData => decide (SameName name a.name)) = fun a => strcaseEq name a.name := by
    funext a
    rw [Bool.eq_iff_iff, strcaseEq_iff, decide_eq_true_iff]
  have hf : aliases.find? (fun a => decide (SameName name a.name)) = aliases[item]? := by
    rw [hp]
    unfold lookupAlias at h3
    rw [List.findIdx?_eq_some_iff_getElem] at h3
    obtain ⟨h, ht, hmin⟩ := h3
    rw [List.getElem?_eq_getElem h]
    rw [List.find?_eq_some_iff_getElem]
    refine ⟨ht, item, h, rfl, fun j hj => ?_⟩
    simpa using hmin j hj
  have hlt : item < aliases.length := by
    unfold lookupAlias at h3
    rw [List.findIdx?_eq_some_iff_getElem] at h3
    exact h3.1
  have e : aliasTerms name = aliases[item].terms := by
    unfold aliasTerms
    rw [if_neg hne, hf, List.getElem?_eq_getElem hlt]
  refine ⟨?_, aliases[item], List.getElem_mem hlt, e.symm⟩
  rw [e, List.getElem?_eq_getElem hlt]; rfl

/-- Every term of every alias is a functional or a parameter, by inspection of the complete table. -/
theorem alias_terms_elementary :
    ∀ a ∈ aliases, ∀ t ∈ a.terms, (lookupFunctional t.name).isSome ∨ (lookupParameter t.name).isSome := by
  decide +kernel

/-- No alias has more terms than the array can hold. -/
theorem alias_terms_short : ∀ a ∈ aliases, a.terms.length ≤ MAX_ALIAS_TERMS := by decide +kernel

theorem alias_terms_take {a : AliasData} (h : a ∈ aliases) : a.terms.take MAX_ALIAS_TERMS = a.terms :=
  List.take_of_length_le (alias_terms_short a h)

theorem isElementary_iff {name : String} :
    IsElementary name ↔ (lookupFunctional name).isSome ∨ (lookupParameter name).isSome := by
  rw [Option.isSome_iff_ne_none, Option.isSome_iff_ne_none, Ne, Ne, lookupFunctional_eq_none, lookupParameter_eq_none,
    not_not, not_not]
  rfl

theorem lookupFunctional_congr {a b : String} (h : SameName a b) : lookupFunctional a = lookupFunctional b := by
  unfold lookupFunctional; congr 1; funext f; simp [strcaseEq, h.fold_eq]

theorem lookupParameter_congr {a b : String} (h : SameName a b) : lookupParameter a = lookupParameter b := by
  unfold lookupParameter; congr 2; funext f; simp [strcaseEq, h.fold_eq]

theorem lookupAlias_congr {a b : String} (h : SameName a b) : lookupAlias a = lookupAlias b := by
  unfold lookupAlias; congr 1; funext f; simp [strcaseEq, h.fold_eq]

end XCFun
