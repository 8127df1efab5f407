import Verif.Model.Utf8Iter
/-! # Model of the append overloads of include/u5e/basic_encodedstring.hpp (codepoint ranges) -/
namespace U5e

/-- utf8.hpp:39-45 `utf8::native_const_iterator`: rewinds a copy to the start of the codepoint. -/
def nativeConstIterator (m : Mem) (p : Nat) : Res Nat := rewind m p

/-- `native_string.append(b, e)` on octet pointers; a reversed range is `ub`.
basic_encodedstring.hpp:178-181. -/
def nativeAppend (out : List Octet) (m : Mem) (b e : Nat) : Res (List Octet) :=
  if b ≤ e ∧ e ≤ m.length then .ok (out ++ (m.take e).drop b) else .ub

/-- basic_encodedstring.hpp:172-189 `append(first, last)` for utf8 strings: `m` is the memory the two
codepoint iterators point into. Simplification: `m` is not the target's own buffer. -/
def appendRange (out : List Octet) (m : Mem) (first last : Nat) : Res (List Octet) := do
  let b ← nativeConstIterator m first
  let e ← nativeConstIterator m last
  nativeAppend out m b e

/-- utf32ne.hpp:32-36 and basic_encodedstring.hpp:172-189 for utf32ne strings: no rewinding. -/
def appendRange32 (out : List Int) (m : List Int) (first last : Nat) : Res (List Int) :=
  if first ≤ last ∧ last ≤ m.length then .ok (out ++ (m.take last).drop first) else .ub

end U5e
