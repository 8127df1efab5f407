import Verif.Model.Throw
import Verif.Model.Views
/-!
# Exceptions in programs over strings of both encodings and views

Model/Views.lean with the exit of Model/Throw.lean: `k` calls that may throw succeed, the next one throws.
-/
namespace U5e

/-- Run a function that appends to a string, for whichever encoding it has; it gets that encoding's
`append_from_utf32ne`. basic_encodedstring.hpp:35-36, utf8.hpp:46-60, utf32ne.hpp:37-42. -/
def Text.editX (x : Text) (f : ∀ {α : Type}, AppendXFn (List α) → List α → Res (Call γ (List α))) : Res (Call γ Text) :=
  match x with
  | .utf8 m => do
    match ← f append8X m with
    | .threw t => pure (.threw (.utf8 t))
    | .ret a t k => pure (.ret a (.utf8 t) k)
  | .utf32 m => do
    match ← f append32X m with
    | .threw t => pure (.threw (.utf32 t))
    | .ret a t k => pure (.ret a (.utf32 t) k)

/-- One statement when allocations can fail. Only copies and appends call something that can throw; making a view
allocates nothing. basic_encodedstring.hpp:89-219. -/
def viewStepX (sort : SortFn) (fuel : Nat) (σ : Nat → Text) (k : Nat) : VOp → Res (Call Obs (Nat → Text))
  | .appendCps d v => do
    match ← (σ d).editX fun append m => append m v k with
    | .threw t => pure (.threw (upd σ d t))
    | .ret _ t k1 => pure (.ret .none (upd σ d t) k1)
  | .convert d src =>
    if d = src.string then .ub
    else do
      let (I, p, q) ← src.opened σ
      let cs ← readRange I q fuel p
      match ← (σ d).editX fun append m => append m cs k with
      | .threw t => pure (.threw (upd σ d t))
      | .ret _ t k1 => pure (.ret .none (upd σ d t) k1)
  | .normalize F d src =>
    if d = src.string then .ub
    else do
      let (I, p, q) ← src.opened σ
      match ← (σ d).editX fun append m => normalizeTextX (F.runX sort append) I fuel p q m k with
      | .threw t => pure (.threw (upd σ d t))
      | .ret n t k1 => pure (.ret (.number n) (upd σ d t) k1)
  | .copy d s => do
    let (σ1, o) ← viewStep sort fuel σ (.copy d s)
    pure (appendCall o σ σ1 k)
  | .append d src => do
    let (σ1, o) ← viewStep sort fuel σ (.append d src)
    pure (appendCall o σ σ1 k)
  | .appendGraphemes d src i j => do
    let (σ1, o) ← viewStep sort fuel σ (.appendGraphemes d src i j)
    pure (appendCall o σ σ1 k)
  | op => do
    let (σ1, o) ← viewStep sort fuel σ op
    pure (.ret o σ1 k)

/-- A whole program up to its end or to the first exception: the strings then, what was printed, and whether it
ended by an exception. basic_encodedstring.hpp:89-219. -/
def viewRunX (sort : SortFn) (fuel : Nat) : (Nat → Text) → Nat → List VOp → Res ((Nat → Text) × List Obs × Bool)
  | σ, _, [] => .ok (σ, [], false)
  | σ, k, op :: ops => do
    match ← viewStepX sort fuel σ k op with
    | .threw σ1 => pure (σ1, [], true)
    | .ret o σ1 k1 =>
      let (σ2, os, t) ← viewRunX sort fuel σ1 k1 ops
      pure (σ2, o :: os, t)

end U5e
