import Verif.Model.History
/-!
# Threads, one access to memory at a time

Model/Threads.lean executes a statement in one step. Here a statement is executed as a sequence of single accesses to
elements of strings, and the schedule switches threads between any two accesses. Which accesses a statement makes, and in
which order, is a parameter (`Code`): the compiler and the standard library decide that.
-/
namespace U5e

/-- What a statement still has to do: nothing but deliver its result, or one access and then what depends on the value
found. The accesses are those to the native string of basic_encodedstring.hpp:41-59: its size, an element of it, an
element appended (basic_encodedstring.hpp:166, 210), all removed. -/
inductive Access (α : Type) where
  | finished (o : Obs)
  | size (k : Nat) (next : Nat → Access α)
  | load (k i : Nat) (next : Option α → Access α)
  | store (k i : Nat) (v : α) (next : Access α)
  | push (k : Nat) (v : α) (next : Access α)
  | clear (k : Nat) (next : Access α)

/-- One access. basic_encodedstring.hpp:41-59. -/
def Access.once : Access α → (Nat → List α) → Access α × (Nat → List α)
  | .finished o, σ => (.finished o, σ)
  | .size k next, σ => (next (σ k).length, σ)
  | .load k i next, σ => (next (σ k)[i]?, σ)
  | .store k i v next, σ => (next, upd σ k ((σ k).set i v))
  | .push k v next, σ => (next, upd σ k (σ k ++ [v]))
  | .clear k next, σ => (next, upd σ k [])

/-- All accesses, undisturbed. basic_encodedstring.hpp:41-59. -/
def Access.alone : Access α → (Nat → List α) → (Nat → List α) × Obs
  | .finished o, σ => (σ, o)
  | .size k next, σ => (next (σ k).length).alone σ
  | .load k i next, σ => (next (σ k)[i]?).alone σ
  | .store k i v next, σ => next.alone (upd σ k ((σ k).set i v))
  | .push k v next, σ => next.alone (upd σ k (σ k ++ [v]))
  | .clear k next, σ => next.alone (upd σ k [])

/-- Which accesses each statement makes: basic_encodedstring.hpp:89-219 as compiled. -/
abbrev Code (α : Type) := Op → Access α

/-- The strings, for each thread the statements it has not begun and the statement it is in, and what was printed.
basic_encodedstring.hpp:89-219. -/
structure Config (α : Type) where
  strings : Nat → List α
  todo : Nat → List Op
  running : Nat → Option (Access α)
  printed : List (Nat × Obs)

/-- Thread `t` goes on: begins its next statement, makes one access, or prints the result of the statement.
basic_encodedstring.hpp:89-219. -/
def Config.go (code : Code α) (c : Config α) (t : Nat) : Config α :=
  match c.running t with
  | none =>
    match c.todo t with
    | [] => c
    | op :: ops => { c with todo := upd c.todo t ops, running := upd c.running t (some (code op)) }
  | some (.finished o) => { c with running := upd c.running t none, printed := c.printed ++ [(t, o)] }
  | some a => { c with running := upd c.running t (some (a.once c.strings).1), strings := (a.once c.strings).2 }

/-- Going on under a schedule. basic_encodedstring.hpp:89-219. -/
def Config.exec (code : Code α) (ts : List Nat) (c : Config α) : Config α := ts.foldl (Config.go code) c

/-- Nothing begun. basic_encodedstring.hpp:89-219. -/
def Config.start (P : Nat → List Op) (σ : Nat → List α) : Config α := ⟨σ, P, fun _ => none, []⟩

end U5e
