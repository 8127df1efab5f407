import Verif.Model.History
/-!
# Threads

Several threads run programs (Model/History.lean) over one pool of strings. The library has no state of its own:
its only globals are the constant tables (src/u5e/props/*_data.hpp, `static` there and nowhere else), so all that
threads share are the strings.

Simplification: a statement is one indivisible step. Model/Accesses.lean does without it: there threads are switched
between any two accesses to memory, and Properties/Accesses.lean proves that this makes no difference.
-/
namespace U5e

/-- Running the threads `P` under the schedule `ts`: `ts` says which thread executes its next statement; a thread
that has finished does nothing. Returns the strings, what is left of the threads, and what was printed by whom.
basic_encodedstring.hpp:89-219. -/
def Encoding.sched [DecidableEq α] (E : Encoding α) (sort : SortFn) (fuel : Nat) :
    List Nat → (Nat → List Op) → (Nat → List α) → Res ((Nat → List α) × (Nat → List Op) × List (Nat × Obs))
  | [], P, σ => .ok (σ, P, [])
  | t :: ts, P, σ =>
    match P t with
    | [] => Encoding.sched E sort fuel ts P σ
    | op :: ops => do
      let (σ1, o) ← E.step sort fuel σ op
      let (σ2, P2, os) ← Encoding.sched E sort fuel ts (upd P t ops) σ1
      pure (σ2, P2, (t, o) :: os)

end U5e
