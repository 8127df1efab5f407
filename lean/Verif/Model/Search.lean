import Verif.Model.Std
/-!
# `std::search` over codepoint iterators

The loops are those of libstdc++ (bits/stl_algo.h `__search`, `__find_if` for iterators that are not random access), over
the operations of the iterators of utf8_iterator.hpp:110-195. The comparison objects take the iterators by value, so the
move by `*it` (utf8_iterator.hpp:83-101) is lost. The two ranges may have different encodings.
-/
namespace U5e

/-- `std::__find_if(first, last, [q](it) { return *it == *q; })`:
`while (first != last && !(*first == *q)) ++first; return first;`. utf8_iterator.hpp:110-195, codepoint.hpp:54. -/
def stdFindEq (I J : CpIter) (q last : Nat) : Nat → Nat → Res Nat
  | 0, _ => .tmo
  | fuel + 1, p => do
    let fin ← I.eq p last
    if fin then pure p
    else
      let (a, _) ← I.deref p
      let (b, _) ← J.deref q
      if a = b then pure p
      else
        let p' ← I.inc p
        stdFindEq I J q last fuel p'

/-- How the inner loop of `std::search` ends. bits/stl_algo.h `__search`, over utf8_iterator.hpp:110-195. -/
inductive Match where
  | found | exhausted | mismatch
  deriving DecidableEq

/-- The inner loop of `std::search`: `while (*current == *p) { if (++p == last2) return first1;
if (++current == last1) return last1; }`. utf8_iterator.hpp:110-195. -/
def stdMatch (I J : CpIter) (last1 last2 : Nat) : Nat → Nat → Nat → Res Match
  | 0, _, _ => .tmo
  | fuel + 1, current, p => do
    let (a, _) ← I.deref current
    let (b, _) ← J.deref p
    if a = b then
      let p' ← J.inc p
      let fin2 ← J.eq p' last2
      if fin2 then pure .found
      else
        let current' ← I.inc current
        let fin1 ← I.eq current' last1
        if fin1 then pure .exhausted
        else stdMatch I J last1 last2 fuel current' p'
    else pure .mismatch

/-- The outer loop of `std::search`: `for (;;) { first1 = find_if(first1, last1, *first2); if (first1 == last1) return
last1; p = p1; current = first1; if (++current == last1) return last1; while ...; ++first1; }`; `inner` is the fuel of
the inner loops. utf8_iterator.hpp:110-195. -/
def stdSearchLoop (I J : CpIter) (last1 first2 last2 p1 inner : Nat) : Nat → Nat → Res Nat
  | 0, _ => .tmo
  | fuel + 1, first1 => do
    let f ← stdFindEq I J first2 last1 inner first1
    let fin ← I.eq f last1
    if fin then pure last1
    else
      let current ← I.inc f
      let fin1 ← I.eq current last1
      if fin1 then pure last1
      else
        let r ← stdMatch I J last1 last2 inner current p1
        match r with
        | .found => pure f
        | .exhausted => pure last1
        | .mismatch =>
          let f' ← I.inc f
          stdSearchLoop I J last1 first2 last2 p1 inner fuel f'

/-- `std::search(first1, last1, first2, last2)`: an empty range ends it at once, a pattern of one element is
`find_if`. utf8_iterator.hpp:110-195. -/
def stdSearch (I J : CpIter) (last1 last2 fuel first1 first2 : Nat) : Res Nat := do
  let e1 ← I.eq first1 last1
  let e ← if e1 then pure true else J.eq first2 last2
  if e then pure first1
  else
    let p1 ← J.inc first2
    let one ← J.eq p1 last2
    if one then stdFindEq I J first2 last1 fuel first1
    else stdSearchLoop I J last1 first2 last2 p1 fuel fuel first1

end U5e
