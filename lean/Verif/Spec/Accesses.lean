import Verif.Model.Accesses
import Verif.Model.Threads
import Verif.Spec.Threads
/-! # When single accesses implement the statements -/
namespace U5e.Spec
open U5e

/-- Whatever values are found, only the strings in `r` are read, and only `w` is changed. -/
def Within (r : List Nat) (w : Option Nat) : Access α → Prop
  | .finished _ => True
  | .size k next => k ∈ r ∧ ∀ n, Within r w (next n)
  | .load k _ next => k ∈ r ∧ ∀ x, Within r w (next x)
  | .store k _ _ next | .push k _ next | .clear k next => w = some k ∧ k ∈ r ∧ Within r w next

/-- The accesses stay within the strings the statement names, and made undisturbed they have the effect the model of the
library gives the statement (where that is defined). -/
def Implements [DecidableEq α] (E : Encoding α) (sort : SortFn) (fuel : Nat) (code : Code α) : Prop :=
  ∀ op, Within (touches op) (changes op) (code op) ∧
    ∀ σ σ' o, E.step sort fuel σ op = .ok (σ', o) → (code op).alone σ = (σ', o)

end U5e.Spec
