import Verif.Model.Iter
/-! # Model of include/u5e/filter.hpp -/
namespace U5e

/-- What `filter` uses of its `InputIteratorType` (filter.hpp:43-54): `!=`, `*`, postfix `++`.
`deref` also returns the possibly moved iterator. -/
structure InputIter (σ α : Type) where
  ne : σ → σ → Res Bool
  deref : σ → Res (α × σ)
  inc : σ → Res σ

/-- A codepoint iterator as input iterator (`operator!=` is the negation of `==`,
utf8_iterator.hpp:183-185). -/
def CpIter.input (I : CpIter) : InputIter Nat Int where
  ne a b := do let r ← I.eq a b; pure (!r)
  deref := I.deref
  inc := I.inc

/-- Signed `int` addition: overflow is undefined. filter.hpp:50 `counter += …`. -/
def addInt (a b : Int) : Res Int :=
  if -2147483648 ≤ a + b ∧ a + b ≤ 2147483647 then .ok (a + b) else .ub

/-- filter.hpp:49-52, the loop `while (input_from != input_to) { counter += operation(*input_from,
output); input_from++; }`, with fuel. The output object is threaded through `operation`. -/
def filterLoop (it : InputIter σ α) (op : α → β → Res (Int × β)) (to : σ) :
    Nat → σ → β → Int → Res (Int × β)
  | 0, _, _, _ => .tmo
  | fuel + 1, from_, out, counter => do
    let more ← it.ne from_ to
    if more then
      let (x, from1) ← it.deref from_
      let (k, out1) ← op x out
      let counter1 ← addInt counter k
      let from2 ← it.inc from1
      filterLoop it op to fuel from2 out1 counter1
    else pure (counter, out)

/-- filter.hpp:43-54 `filter`: the returned count and the output object afterwards. -/
def filter (it : InputIter σ α) (fuel : Nat) (from_ to : σ) (out : β) (op : α → β → Res (Int × β)) :
    Res (Int × β) :=
  filterLoop it op to fuel from_ out 0

end U5e
