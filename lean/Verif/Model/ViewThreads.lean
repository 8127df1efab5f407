import Verif.Model.Views
/-!
# Threads over strings of both encodings and views

As in Model/Threads.lean, for the programs of Model/Views.lean: several threads share one pool of strings, some of
them UTF-8, some utf32ne, and read them whole or through views.
-/
namespace U5e

/-- Running the threads `P` under the schedule `ts`: `ts` says which thread executes its next statement; a thread
that has finished does nothing. Returns the strings, what is left of the threads, and what was printed by whom. As in
Model/Threads.lean, a statement is one indivisible step. basic_encodedstring.hpp:89-219. -/
def viewSched (sort : SortFn) (fuel : Nat) :
    List Nat → (Nat → List VOp) → (Nat → Text) → Res ((Nat → Text) × (Nat → List VOp) × List (Nat × Obs))
  | [], P, σ => .ok (σ, P, [])
  | t :: ts, P, σ =>
    match P t with
    | [] => viewSched sort fuel ts P σ
    | op :: ops => do
      let (σ1, o) ← viewStep sort fuel σ op
      let (σ2, P2, os) ← viewSched sort fuel ts (upd P t ops) σ1
      pure (σ2, P2, (t, o) :: os)

end U5e
