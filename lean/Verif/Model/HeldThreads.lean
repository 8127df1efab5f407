import Verif.Model.HeldThrow
/-!
# Threads whose programs hold views and iterators and catch exceptions

A first program runs alone; then any number of threads start, each with its own program and its own copies of the
variables of the first. They share the strings. As in Model/Threads.lean and Model/ViewThreads.lean, a statement is one
indivisible step, and memory is sequentially consistent.
-/
namespace U5e

/-- What the threads share, and of each thread its variables (`own t`, whose strings and counts are not used) and what
it has printed. basic_encodedstring.hpp:89-219, utf8_string_view.hpp:22, utf8_iterator.hpp:13-345. -/
structure HeldPool where
  strings : Nat → Text
  gen : Nat → Nat
  own : Nat → HeldMachine
  printed : Nat → List (Option Obs)

/-- The machine as thread `t` sees it. Lines: see `HeldPool`. basic_encodedstring.hpp:89-219. -/
def HeldPool.machine (p : HeldPool) (t : Nat) : HeldMachine := { p.own t with strings := p.strings, gen := p.gen }

/-- The variables that belong to the strings of `can`, copied. utf8_string_view.hpp:22, utf8_iterator.hpp:37-45. -/
def HeldMachine.given (M : HeldMachine) (can : Nat → Bool) : HeldMachine :=
  { M with
    views := fun v => (M.views v).filter fun x => can x.1
    its := fun i => (M.its i).filter fun x => can x.1
    gits := fun g => (M.gits g).filter fun x => can x.1
    mits := fun m => (M.mits m).filter fun x => can x.1 }

/-- The threads start; thread `t` gets copies of the variables of the strings `can t`. basic_encodedstring.hpp:89-219. -/
def HeldMachine.fork (M : HeldMachine) (can : Nat → Nat → Bool) : HeldPool :=
  ⟨M.strings, M.gen, fun t => M.given (can t), fun _ => []⟩

/-- The threads `P` under the schedule `ts`, which says whose statement is next; a thread that has finished does nothing.
In statement number `i` of thread `t`, `calls t i` calls that may throw succeed. Lines: see `HeldStmt`.
basic_encodedstring.hpp:89-219. -/
def HeldPool.sched (sort : SortFn) (fuel : Nat) (P : Nat → CatchClient) (calls : Nat → Nat → Nat) :
    List Nat → HeldPool → Res HeldPool
  | [], p => .ok p
  | t :: ts, p =>
    match P t (p.printed t) with
    | none => HeldPool.sched sort fuel P calls ts p
    | some st => do
      let (M, o) ← (p.machine t).execX sort fuel (calls t (p.printed t).length) st
      HeldPool.sched sort fuel P calls ts ⟨M.strings, M.gen, upd p.own t M, upd p.printed t (p.printed t ++ [o])⟩

end U5e
