import Verif.Model.HeldThrow
import Verif.Spec.HeldViews
import Verif.Spec.ViewThrow
/-! # What a program that catches exceptions and goes on should do -/
namespace U5e.Spec

/-- `w` becomes `w'` and `o` is printed (`none`: the statement throws), `k` calls that may throw succeeding. Either the
statement needs no more than `k` calls and does what it should, or it is one that stores into a string and is
interrupted after `k` calls (Spec/ViewThrow.lean); then only that string has changed, and its views and iterators have
lost their value. -/
def Ucd.DoesCatch (U : Ucd) (τ : Nat → Kind) (w : HeldWorld) (st : HeldStmt) (k : Nat) (w' : HeldWorld) (o : Option Obs) : Prop :=
  (∃ o1, o = some o1 ∧ U.DoesHeld w st w' o1 ∧
    ∀ op op', st = .op op → w.plain op = some op' → ∃ n, U.NeedsV τ w.strings op' n ∧ n ≤ k) ∨
  (∃ op op' σ, st = .op op ∧ w.plain op = some op' ∧ U.InterruptedV τ w.strings op' k σ ∧
    w' = w.stored σ (storesIn op) ∧ o = none)

/-- At most `n` statements of a program that has printed `os` so far. -/
inductive Ucd.RunsCatch (U : Ucd) (τ : Nat → Kind) (client : CatchClient) (calls : Nat → Nat) :
    Nat → HeldWorld → List (Option Obs) → HeldWorld → List (Option Obs) → Prop
  | limit (w os) : RunsCatch U τ client calls 0 w os w os
  | finished (n w os) : client os = none → RunsCatch U τ client calls (n + 1) w os w os
  | step (n w os st w1 o w2 os2) : client os = some st → U.DoesCatch τ w st (calls os.length) w1 o →
      RunsCatch U τ client calls n w1 (os ++ [o]) w2 os2 → RunsCatch U τ client calls (n + 1) w os w2 os2

/-- The first `n` statements of the program are allowed where it gets to them. -/
def Ucd.MayRunCatch (U : Ucd) (τ : Nat → Kind) (client : CatchClient) (calls : Nat → Nat) :
    Nat → HeldWorld → List (Option Obs) → Prop
  | 0, _, _ => True
  | n + 1, w, os => ∀ st, client os = some st →
      U.MayHeld τ w st ∧ ∀ w1 o, U.DoesCatch τ w st (calls os.length) w1 o →
        MayRunCatch U τ client calls n w1 (os ++ [o])

end U5e.Spec
