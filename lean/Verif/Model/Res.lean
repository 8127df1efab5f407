/-!
# Outcomes of a piece of C++

`Res α` is the result type of every modelled C++ function that can misbehave:
* `ok a`  – the function returns `a`;
* `ub`    – it executes something undefined (out-of-bounds access, `__builtin_clz(0)`,
            shift by a negative count, signed overflow of a counter);
* `tmo`   – a `while` loop did not finish within the fuel it was given.

This file models no file of /repo; it is the carrier of the model (DESIGN.md §1).
-/
namespace U5e

/-- Outcome of running modelled C++ code. Not in /repo: carrier type of the model. -/
inductive Res (α : Type u) where
  | ok (a : α)
  | ub
  | tmo
  deriving DecidableEq, Repr

namespace Res

/-- Sequencing: undefined behaviour and divergence are absorbing. Carrier of the model. -/
@[inline] def bind {α : Type u} {β : Type v} (x : Res α) (f : α → Res β) : Res β :=
  match x with
  | ok a => f a
  | ub => ub
  | tmo => tmo

instance : Monad Res where
  pure := ok
  bind := bind

@[simp] theorem pure_eq {α : Type u} (a : α) : (pure a : Res α) = ok a := rfl
@[simp] theorem bind_ok {α β : Type u} (a : α) (f : α → Res β) : (ok a >>= f) = f a := rfl
@[simp] theorem bind_ub {α β : Type u} (f : α → Res β) : ((ub : Res α) >>= f) = ub := rfl
@[simp] theorem bind_tmo {α β : Type u} (f : α → Res β) : ((tmo : Res α) >>= f) = tmo := rfl
@[simp] theorem map_ok {α β : Type u} (a : α) (f : α → β) : (f <$> (ok a : Res α)) = ok (f a) := rfl

instance : LawfulMonad Res := LawfulMonad.mk' Res
  (id_map := fun x => by cases x <;> rfl)
  (pure_bind := fun _ _ => rfl)
  (bind_assoc := fun x _ _ => by cases x <;> rfl)

theorem bind_eq_ok {α β : Type u} {x : Res α} {f : α → Res β} {b : β} :
    (x >>= f) = ok b ↔ ∃ a, x = ok a ∧ f a = ok b := by
  cases x <;> simp

end Res
end U5e
