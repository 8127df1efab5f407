import Verif.Model.HeldViews
import Verif.Model.ViewThrow
/-!
# Programs that catch exceptions and go on

The programs of Model/HeldViews.lean, every statement inside `try { … } catch (…) { }`. Which calls fail is arbitrary:
statement number `i` is given a number of calls that succeed, the next one throws. The program sees which of its
statements threw, and goes on with the strings, views and iterators as they are then.
-/
namespace U5e

/-- The effect of a statement on the strings when allocations can fail (`viewStepX`, Model/ViewThrow.lean).
basic_encodedstring.hpp:89-219. -/
def HeldMachine.stepX (M : HeldMachine) (sort : SortFn) (fuel k : Nat) : HeldOp → Res (Call Obs (Nat → Text))
  | .appendCps d v => do
    match ← (M.strings d).editX fun append m => append m v k with
    | .threw t => pure (.threw (upd M.strings d t))
    | .ret _ t k1 => pure (.ret .none (upd M.strings d t) k1)
  | .convert d src => do
    let (s, p, q) ← M.opened src
    if d = s then .ub
    else do
      let cs ← readRange (M.strings s).iter q fuel p
      match ← (M.strings d).editX fun append m => append m cs k with
      | .threw t => pure (.threw (upd M.strings d t))
      | .ret _ t k1 => pure (.ret .none (upd M.strings d t) k1)
  | .normalize F d src => do
    let (s, p, q) ← M.opened src
    if d = s then .ub
    else do
      match ← (M.strings d).editX fun append m =>
          normalizeTextX (F.runX sort append) (M.strings s).iter fuel p q m k with
      | .threw t => pure (.threw (upd M.strings d t))
      | .ret n t k1 => pure (.ret (.number n) (upd M.strings d t) k1)
  | .copy d s => do
    let (σ1, o) ← M.step sort fuel (.copy d s)
    pure (appendCall o M.strings σ1 k)
  | .append d src => do
    let (σ1, o) ← M.step sort fuel (.append d src)
    pure (appendCall o M.strings σ1 k)
  | .appendGraphemes d src i j => do
    let (σ1, o) ← M.step sort fuel (.appendGraphemes d src i j)
    pure (appendCall o M.strings σ1 k)
  | op => do
    let (σ1, o) ← M.step sort fuel op
    pure (.ret o σ1 k)

/-- The machine after a statement that leaves the strings `σ`. The views and iterators of the string it appends to are
invalid whether it threw or not: an append before the one that threw may have moved the string. Simplification: they
are taken to be invalid even if the first append threw. basic_encodedstring.hpp:89-219. -/
def HeldMachine.after (M : HeldMachine) (op : HeldOp) (σ : Nat → Text) : HeldMachine :=
  match op.invalidates with
  | some d => { M with strings := σ, gen := upd M.gen d (M.gen d + 1) }
  | none => { M with strings := σ }

/-- One statement inside `try { … } catch (…) { }`: what it prints, `none` if it threw. Making views and moving
iterators allocates nothing. Lines: see `HeldStmt`. basic_encodedstring.hpp:89-219. -/
def HeldMachine.execX (M : HeldMachine) (sort : SortFn) (fuel k : Nat) : HeldStmt → Res (HeldMachine × Option Obs)
  | .op op => do
    match ← M.stepX sort fuel k op with
    | .threw σ => pure (M.after op σ, none)
    | .ret o σ _ => pure (M.after op σ, some o)
  | st => do
    let (M1, o) ← M.exec sort fuel st
    pure (M1, some o)

/-- A user's program: the next statement, depending on everything printed and thrown so far.
basic_encodedstring.hpp:89-219. -/
abbrev CatchClient := List (Option Obs) → Option HeldStmt

/-- At most `n` statements of a program; `calls i` calls succeed in statement number `i`. Lines: see `HeldStmt`.
basic_encodedstring.hpp:89-219. -/
def HeldMachine.runX (sort : SortFn) (fuel : Nat) (client : CatchClient) (calls : Nat → Nat) :
    Nat → HeldMachine → List (Option Obs) → Res (HeldMachine × List (Option Obs))
  | 0, M, os => .ok (M, os)
  | n + 1, M, os =>
    match client os with
    | none => .ok (M, os)
    | some st => do
      let (M1, o) ← M.execX sort fuel (calls os.length) st
      HeldMachine.runX sort fuel client calls n M1 (os ++ [o])

end U5e
