import Verif.Model.Grapheme
/-!
# Standard algorithms and adaptors over codepoint iterators

The iterators of utf8_iterator.hpp declare themselves bidirectional (utf8_iterator.hpp:31-36) and
basic_encodedstring.hpp:71-77 declares `std::reverse_iterator`s over them, so users pass them to the
standard library. The loops below are those of libstdc++ (bits/stl_algo.h, bits/stl_algobase.h,
bits/stl_iterator.h), over the modelled operations of the iterators; `*it` on a named iterator may move
it (utf8_iterator.hpp:83-101); the comparison objects of bits/predefined_ops.h and the predicate adaptors take
the iterators by value, so there the move is lost.
-/
namespace U5e

/-- `std::next(first, n)` for a bidirectional iterator (utf8_iterator.hpp:35): `++` n times
(utf8_iterator.hpp:134-137). -/
def stdNext (I : CpIter) : Nat → Nat → Res Nat
  | 0, p => .ok p
  | n + 1, p => do
    let q ← I.inc p
    stdNext I n q

/-- `std::distance(first, last)` for a bidirectional iterator (utf8_iterator.hpp:34-35):
`while (first != last) { ++first; ++n; }` with `n` of type `difference_type`, an `int`. -/
def stdDistance (I : CpIter) (last : Nat) : Nat → Nat → Int → Res Int
  | 0, _, _ => .tmo
  | fuel + 1, p, n => do
    let fin ← I.eq p last
    if fin then pure n
    else
      let q ← I.inc p
      let n' ← addInt n 1
      stdDistance I last fuel q n'

/-- `std::find_if(first, last, pred)`: `while (first != last && !pred(*first)) ++first; return first;`
over utf8_iterator.hpp:110-195. `std::find` is the case `pred x = (x == c)` (codepoint.hpp:54). -/
def stdFindIf (I : CpIter) (pred : Int → Bool) (last : Nat) : Nat → Nat → Res Nat
  | 0, _ => .tmo
  | fuel + 1, p => do
    let fin ← I.eq p last
    if fin then pure p
    else
      let (c, _) ← I.deref p
      if pred c then pure p
      else
        let q ← I.inc p
        stdFindIf I pred last fuel q

/-- `std::count_if(first, last, pred)` over utf8_iterator.hpp:110-195; the count is a `difference_type`,
an `int` (utf8_iterator.hpp:34). -/
def stdCountIf (I : CpIter) (pred : Int → Bool) (last : Nat) : Nat → Nat → Int → Res Int
  | 0, _, _ => .tmo
  | fuel + 1, p, n => do
    let fin ← I.eq p last
    if fin then pure n
    else
      let (c, _) ← I.deref p
      let n' ← if pred c then addInt n 1 else .ok n
      let q ← I.inc p
      stdCountIf I pred last fuel q n'

/-- `std::equal(first1, last1, first2, last2)` for bidirectional iterators (utf8_iterator.hpp:35):
`for (; first1 != last1 && first2 != last2; ++first1, ++first2) if (!(*first1 == *first2)) return false;
return first1 == last1 && first2 == last2;`. The two ranges may have different encodings. -/
def stdEqual (I J : CpIter) (last1 last2 : Nat) : Nat → Nat → Nat → Res Bool
  | 0, _, _ => .tmo
  | fuel + 1, p, q => do
    let fin1 ← I.eq p last1
    let fin2 ← if fin1 then pure true else J.eq q last2
    if fin2 then
      let e1 ← I.eq p last1
      if e1 then J.eq q last2 else pure false
    else
      let (a, p1) ← I.deref p
      let (b, q1) ← J.deref q
      if a = b then
        let p2 ← I.inc p1
        let q2 ← J.inc q1
        stdEqual I J last1 last2 fuel p2 q2
      else pure false

/-- `std::lexicographical_compare(first1, last1, first2, last2)`:
`for (; first1 != last1 && first2 != last2; ++first1, ++first2) { if (*first1 < *first2) return true;
if (*first2 < *first1) return false; } return first1 == last1 && first2 != last2;`
over utf8_iterator.hpp:110-195 (`<` on codepoint.hpp:49 `operator int`). -/
def stdLess (I J : CpIter) (last1 last2 : Nat) : Nat → Nat → Nat → Res Bool
  | 0, _, _ => .tmo
  | fuel + 1, p, q => do
    let fin1 ← I.eq p last1
    let fin2 ← if fin1 then pure true else J.eq q last2
    if fin2 then
      let e1 ← I.eq p last1
      if e1 then do let e2 ← J.eq q last2; pure (!e2) else pure false
    else
      let (a, _) ← I.deref p
      let (b, _) ← J.deref q
      if a < b then pure true
      else
        let (b', _) ← J.deref q
        let (a', _) ← I.deref p
        if b' < a' then pure false
        else
          let p1 ← I.inc p
          let q1 ← J.inc q
          stdLess I J last1 last2 fuel p1 q1

/-- The loop of `std::max_element` (below). utf8_iterator.hpp:110-195. -/
def stdMaxLoop (I : CpIter) (last : Nat) : Nat → Nat → Nat → Res Nat
  | 0, _, _ => .tmo
  | fuel + 1, first, result => do
    let first' ← I.inc first
    let fin ← I.eq first' last
    if fin then pure result
    else
      let (a, _) ← I.deref result
      let (b, _) ← I.deref first'
      if a < b then stdMaxLoop I last fuel first' first'
      else stdMaxLoop I last fuel first' result

/-- `std::max_element(first, last)`: `if (first == last) return first; result = first;
while (++first != last) if (*result < *first) result = first; return result;` over
utf8_iterator.hpp:110-195. -/
def stdMaxElement (I : CpIter) (last fuel first : Nat) : Res Nat := do
  let fin ← I.eq first last
  if fin then pure first else stdMaxLoop I last fuel first first

/-- The iterator a `std::reverse_iterator` is built over (basic_encodedstring.hpp:75-76), with the fact that
matters for its `operator*`: whether the iterator's `reference` is a reference although its `operator*`
returns a temporary. -/
structure RevBase where
  iter : CpIter
  /-- `std::reverse_iterator::operator*` returns `reference`. For utf8_iterator.hpp:33 that is `const codepoint&`,
  bound to the temporary that utf8_iterator.hpp:190-192 (and 340-342) returns: it dangles as soon as the
  function returns, and reading through it is undefined. -/
  dangling : Bool

/-- basic_encodedstring.hpp:75-76 for UTF-8 strings. -/
def revBase8 (m : Mem) : RevBase := ⟨utf8Iter m, true⟩
/-- basic_encodedstring.hpp:75-76 for utf32ne strings (native iterators, utf32ne.hpp:26-30). -/
def revBase32 (m : List Int) : RevBase := ⟨utf32Iter m, false⟩

/-- `*r`, as in `int c = *r;`: `It tmp = current; return *--tmp;`, read through the returned reference.
basic_encodedstring.hpp:75-76. -/
def RevBase.deref (R : RevBase) (current : Nat) : Res Int := do
  let tmp ← R.iter.dec current
  let (c, _) ← R.iter.deref tmp
  if R.dangling then .ub else pure c

/-- `++r`: `--current`. basic_encodedstring.hpp:75-76. -/
def RevBase.inc (R : RevBase) (current : Nat) : Res Nat := R.iter.dec current

/-- `a == b`: `a.base() == b.base()`. basic_encodedstring.hpp:75-76. -/
def RevBase.eq (R : RevBase) (a b : Nat) : Res Bool := R.iter.eq a b

/-- `for (r = rbegin; r != rend; ++r) out.push_back(*r);` basic_encodedstring.hpp:75-76. -/
def revWalk (R : RevBase) (rend : Nat) : Nat → Nat → Res (List Int)
  | 0, _ => .tmo
  | fuel + 1, r => do
    let fin ← R.eq r rend
    if fin then pure []
    else
      let c ← R.deref r
      let r' ← R.inc r
      let rest ← revWalk R rend fuel r'
      pure (c :: rest)

/-- `std::distance(rbegin, rend)`: only comparisons and `++`. basic_encodedstring.hpp:75-76. -/
def revDistance (R : RevBase) (rend : Nat) : Nat → Nat → Int → Res Int
  | 0, _, _ => .tmo
  | fuel + 1, r, n => do
    let fin ← R.eq r rend
    if fin then pure n
    else
      let r' ← R.inc r
      let n' ← addInt n 1
      revDistance R rend fuel r' n'

end U5e
