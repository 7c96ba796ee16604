/-!
# Outcomes of a C++ call

`/repo` reports errors in three ways: integer return codes (ordinary values), `xcfun::die`, which prints a message
and calls `std::exit(-1)` (`src/config.hpp:24-29`), and not at all (undefined behaviour).
-/

namespace XCFun

/-- Result of running a piece of C++.
* `ok a`: returned normally with `a`;
* `die`: `xcfun::die` was called, the process exits (`src/config.hpp:24-29`);
* `ub`: the C++ abstract machine has no defined behaviour here (out-of-range array access, signed overflow,
  use after free, data race);
* `diverge`: the recursion did not finish within the given fuel (only used for `xcfun_set`,
  `src/XCFunctional.cpp:390-402`). -/
inductive Outcome (α : Type _) where
  | ok (a : α)
  | die
  | ub
  | diverge
  deriving Repr, DecidableEq

namespace Outcome

variable {α β : Type _}

/-- Sequential composition: anything after an abnormal outcome does not run. -/
@[inline] def bind (x : Outcome α) (f : α → Outcome β) : Outcome β :=
  match x with
  | ok a => f a
  | die => die
  | ub => ub
  | diverge => diverge

instance : Monad Outcome where
  pure := ok
  bind := bind

@[simp] theorem pure_eq (a : α) : (pure a : Outcome α) = ok a := rfl
@[simp] theorem ok_bind (a : α) (f : α → Outcome β) : (ok a >>= f) = f a := rfl
@[simp] theorem die_bind (f : α → Outcome β) : ((die : Outcome α) >>= f) = die := rfl
@[simp] theorem ub_bind (f : α → Outcome β) : ((ub : Outcome α) >>= f) = ub := rfl
@[simp] theorem diverge_bind (f : α → Outcome β) : ((diverge : Outcome α) >>= f) = diverge := rfl

/-- The call returned normally. -/
def IsOk (x : Outcome α) : Prop := ∃ a, x = ok a

@[simp] theorem isOk_ok (a : α) : (ok a).IsOk := ⟨a, rfl⟩
@[simp] theorem not_isOk_die : ¬ (die : Outcome α).IsOk := by rintro ⟨a, h⟩; cases h
@[simp] theorem not_isOk_ub : ¬ (ub : Outcome α).IsOk := by rintro ⟨a, h⟩; cases h
@[simp] theorem not_isOk_diverge : ¬ (diverge : Outcome α).IsOk := by rintro ⟨a, h⟩; cases h

theorem bind_eq_ok {x : Outcome α} {f : α → Outcome β} {b : β} :
    (x >>= f) = ok b ↔ ∃ a, x = ok a ∧ f a = ok b := by
  cases x <;> simp

end Outcome
end XCFun
