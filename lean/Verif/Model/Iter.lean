import Verif.Model.Utf8Iter
/-! # The codepoint iterator interface used by graphemes and filters, and its two instances -/
namespace U5e

/-- The operations of `const_codepoint_iterator` that basic_grapheme_iterator.hpp (15-296) and
filter.hpp (43-54) use, for one fixed memory. An iterator is a position. `operator*` may move the
iterator (utf8_iterator.hpp:83-101), so `deref` also returns the new position. Postfix `++` moves
like prefix `++` (utf8_iterator.hpp:139-143). -/
structure CpIter where
  deref : Nat → Res (Int × Nat)
  inc : Nat → Res Nat
  dec : Nat → Res Nat
  eq : Nat → Nat → Res Bool

/-- utf8_iterator.hpp:110-195 `utf8_const_iterator`, used by utf8_string and utf8_string_view. -/
def utf8Iter (m : Mem) : CpIter where
  deref := cur m
  inc := fwd m
  dec := bwd m
  eq := iterEq m

/-- utf32ne.hpp:29-30: the native `const_iterator` of `std::basic_string<int>` /
`basic_string_view<int>` (utf32ne_string.hpp, utf32ne_string_view.hpp). -/
def utf32Iter (m : List Int) : CpIter where
  deref p := match m[p]? with
    | some c => .ok (c, p)
    | none => .ub
  inc p := if p + 1 ≤ m.length then .ok (p + 1) else .ub
  dec p := retreat p
  eq a b := .ok (decide (a = b))

end U5e
