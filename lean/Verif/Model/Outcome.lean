/-!
# Outcomes of a C++ call

A call can return normally, return `false`/report a failure through its return value, leave the process through
`std::exit( EXIT_FAILURE )` / `return EXIT_FAILURE`, or run into undefined behaviour.  The four are kept apart
everywhere in the model.  `assert` is not modelled: the shipped (release) build defines `NDEBUG`.
-/

namespace Scisim

/-- Result of a modelled call. -/
inductive Outcome (α : Type _) where
  /-- normal return -/
  | ok (a : α)
  /-- the call reports failure (e.g. `return false;`) -/
  | fail
  /-- the process exits with a failure status -/
  | exit
  /-- undefined behaviour -/
  | ub
deriving DecidableEq, Repr

namespace Outcome

/-- Sequencing: anything but a normal return propagates. -/
def bind {α β : Type _} (x : Outcome α) (f : α → Outcome β) : Outcome β :=
  match x with
  | ok a => f a
  | fail => fail
  | exit => exit
  | ub => ub

instance : Monad Outcome where
  pure := ok
  bind := bind

@[simp] theorem pure_eq {α : Type _} (a : α) : (pure a : Outcome α) = ok a := rfl
@[simp] theorem ok_bind {α β : Type _} (a : α) (f : α → Outcome β) : (ok a >>= f) = f a := rfl
@[simp] theorem fail_bind {α β : Type _} (f : α → Outcome β) : ((fail : Outcome α) >>= f) = fail := rfl
@[simp] theorem exit_bind {α β : Type _} (f : α → Outcome β) : ((exit : Outcome α) >>= f) = exit := rfl
@[simp] theorem ub_bind {α β : Type _} (f : α → Outcome β) : ((ub : Outcome α) >>= f) = ub := rfl

theorem bind_eq_ok {α β : Type _} {x : Outcome α} {f : α → Outcome β} {b : β} :
    (x >>= f) = ok b ↔ ∃ a, x = ok a ∧ f a = ok b := by
  cases x <;> simp

theorem bind_ok_iff {α β : Type _} {x : Outcome α} {f : α → Outcome β} {b : β} :
    x.bind f = ok b ↔ ∃ a, x = ok a ∧ f a = ok b := by
  cases x <;> simp [bind]

end Outcome

end Scisim
