import Verif.Model.Normalize
import Verif.Model.EncodedString
import Verif.Model.Std
/-!
# Programs over strings

A program is a list of operations on numbered strings, all of one encoding. `Encoding.step` runs one of
them by the modelled functions and returns what the program observes.
-/
namespace U5e

/-- What distinguishes `basic_encodedstring<utf8, …>` from `basic_encodedstring<utf32ne, …>`
(basic_encodedstring.hpp:35-221): the iterators over a buffer, the terminator and the three kinds of append. -/
structure Encoding (α : Type) where
  iter : List α → CpIter
  nul : α
  appendRange : List α → List α → Nat → Nat → Res (List α)
  appendCps : AppendFn (List α)
  appendGraphemes : CpIter → Nat → List α → GIter → GIter → Res (List α)
  /-- `*it = c` through the mutable iterator: the new memory and the new position of `it`. -/
  assign : List α → Nat → Int → Res (List α × Nat)

/-- `*it = c` for the native iterator of `std::basic_string<int>` (utf32ne.hpp:26-27). -/
def assign32 (m : List Int) (p : Nat) (c : Int) : Res (List Int × Nat) :=
  if p < m.length then .ok (m.set p c, p) else .ub

/-- `u5e::utf8_string`: utf8_string.hpp, utf8.hpp:20-62; the mutable iterator is utf8_iterator.hpp:197-345. -/
def enc8 : Encoding Octet :=
  ⟨utf8Iter, 0, appendRange, append8, appendGraphemes8, fun m p c => assign m p (BitVec.ofInt 32 c)⟩

/-- `u5e::utf32ne_string`: utf32ne_string.hpp, utf32ne.hpp:20-43. -/
def enc32 : Encoding Int := ⟨utf32Iter, 0, appendRange32, append32, appendGraphemes32, assign32⟩

/-- One statement of a program; `d`, `s`, `t` are numbers of strings. -/
inductive Op where
  /-- `strings[d] = String(strings[s].native_string)`: basic_encodedstring.hpp:99-100 (the copy constructor of
  the native string). -/
  | copy (d s : Nat)
  /-- `strings[d].native_string.clear()`: basic_encodedstring.hpp:89. -/
  | clear (d : Nat)
  /-- `d.append(std::next(s.codepoint_cbegin(), i), std::next(s.codepoint_cbegin(), j))`:
  basic_encodedstring.hpp:172-189. -/
  | appendRange (d s i j : Nat)
  /-- `d.append_from_utf32ne(v.cbegin(), v.cend())` of a vector of codepoints: basic_encodedstring.hpp:207-218. -/
  | appendCps (d : Nat) (v : List Int)
  /-- `gi`, `gj` = `s.grapheme_begin()` advanced i and j times, then `d.append(gi, gj)`:
  basic_encodedstring.hpp:191-205. -/
  | appendGraphemes (d s i j : Nat)
  /-- `u5e::filter(s.grapheme_begin(), s.grapheme_end(), d, form)`: filter.hpp:43-54; the returned count is
  observed. -/
  | normalize (F : Form) (d s : Nat)
  /-- `*std::next(s.codepoint_begin(), i) = c;`: utf8_iterator.hpp:316-342. -/
  | write (s i : Nat) (c : Int)
  /-- `for (it = s.codepoint_begin(); it != s.codepoint_end(); ++it) *it = f(*it);`: utf8_iterator.hpp:197-345. -/
  | transform (s : Nat) (f : Int → Int)
  /-- `for (it = s.codepoint_cbegin(); it != s.codepoint_cend(); it++) print(*it);`
  examples/normalization_form_c.cpp:27-32. -/
  | read (s : Nat)
  /-- `it = s.codepoint_cend(); while (it != s.codepoint_cbegin()) { --it; print(*it); }`
  utf8_iterator.hpp:150-159. -/
  | readBack (s : Nat)
  /-- The loop of examples/grapheme_iteration.cpp:31-45. -/
  | readGraphemes (s : Nat)
  /-- `print(std::equal(s.codepoint_cbegin(), s.codepoint_cend(), t.codepoint_cbegin(), t.codepoint_cend()))`:
  utf8_iterator.hpp:166-185. -/
  | equal (s t : Nat)
  /-- `print(std::lexicographical_compare(…))`: utf8_iterator.hpp:190-192. -/
  | less (s t : Nat)
  /-- `print(std::count_if(s.codepoint_cbegin(), s.codepoint_cend(), pred))`: utf8_iterator.hpp:190-192. -/
  | countIf (s : Nat) (pred : Int → Bool)

/-- What a statement prints. -/
inductive Obs where
  | none
  | codepoints (cs : List Int)
  | graphemes (gs : List (List Int))
  | number (n : Int)
  | bool (b : Bool)
  deriving DecidableEq, Repr

/-- Assignment to string number `d`. -/
def upd (σ : Nat → α) (d : Nat) (x : α) : Nat → α := fun k => if k = d then x else σ k

/-- Reading backwards with `--it; *it` (utf8_iterator.hpp:150-159). -/
def readBackRange (I : CpIter) (first : Nat) : Nat → Nat → Res (List Int)
  | 0, _ => .tmo
  | fuel + 1, p => do
    let fin ← I.eq p first
    if fin then pure []
    else
      let p1 ← I.dec p
      let (c, p2) ← I.deref p1
      let rest ← readBackRange I first fuel p2
      pure (c :: rest)

/-- The codepoint iterators of a NUL-terminated string. basic_encodedstring.hpp:128-143. -/
def Encoding.over (E : Encoding α) (s : List α) : CpIter := E.iter (s ++ [E.nul])

/-- The loop of `Op.transform` over the memory `m` of a string. utf8_iterator.hpp:197-345. -/
def Encoding.transformLoop (E : Encoding α) (f : Int → Int) (last : Nat) : Nat → List α → Nat → Res (List α)
  | 0, _, _ => .tmo
  | fuel + 1, m, p => do
    let fin ← (E.iter m).eq p last
    if fin then pure m
    else
      let (c, p1) ← (E.iter m).deref p
      let (m1, p2) ← E.assign m p1 (f c)
      let p3 ← (E.iter m1).inc p2
      transformLoop E f last fuel m1 p3

/-- The contents of a string whose memory is now `m`: the terminator must not have been overwritten (that is
undefined for a `std::basic_string`). basic_encodedstring.hpp:89. -/
def Encoding.stored [DecidableEq α] (E : Encoding α) (m : List α) : Res (List α) :=
  if m.getLast? = some E.nul then .ok m.dropLast else .ub

/-- One statement. Appending a range of a string to the string itself is well-defined: the native `append` of
a range is specified as the append of a temporary string made from it. Simplification: normalizing a string into
itself (which changes the text the iterators walk over) counts as undefined. basic_encodedstring.hpp:89-219. -/
def Encoding.step [DecidableEq α] (E : Encoding α) (sort : SortFn) (fuel : Nat) (σ : Nat → List α) :
    Op → Res ((Nat → List α) × Obs)
  | .copy d s => .ok (upd σ d (σ s), .none)
  | .clear d => .ok (upd σ d [], .none)
  | .appendRange d s i j => do
    let p ← stdNext (E.over (σ s)) i 0
    let q ← stdNext (E.over (σ s)) j 0
    let t ← E.appendRange (σ d) (σ s ++ [E.nul]) p q
    pure (upd σ d t, .none)
  | .appendCps d v => do
    let t ← E.appendCps (σ d) v
    pure (upd σ d t, .none)
  | .appendGraphemes d s i j => do
    let gi ← (graphemeBegin (E.over (σ s)) fuel 0 (σ s).length >>= incN (E.over (σ s)) fuel i)
    let gj ← (graphemeBegin (E.over (σ s)) fuel 0 (σ s).length >>= incN (E.over (σ s)) fuel j)
    let t ← E.appendGraphemes (E.over (σ s)) fuel (σ d) gi gj
    pure (upd σ d t, .none)
  | .normalize F d s =>
    if d = s then .ub
    else do
      let (n, t) ← normalizeText (F.run sort E.appendCps) (E.over (σ s)) fuel 0 (σ s).length (σ d)
      pure (upd σ d t, .number n)
  | .write s i c => do
    let p ← stdNext (E.over (σ s)) i 0
    let (m, _) ← E.assign (σ s ++ [E.nul]) p c
    let t ← E.stored m
    pure (upd σ s t, .none)
  | .transform s f => do
    let m ← E.transformLoop f (σ s).length fuel (σ s ++ [E.nul]) 0
    let t ← E.stored m
    pure (upd σ s t, .none)
  | .read s => do
    let cs ← readRange (E.over (σ s)) (σ s).length fuel 0
    pure (σ, .codepoints cs)
  | .readBack s => do
    let cs ← readBackRange (E.over (σ s)) 0 fuel (σ s).length
    pure (σ, .codepoints cs)
  | .readGraphemes s => do
    let (_, gs) ← filterGraphemes (E.over (σ s)) fuel 0 (σ s).length [] (collectGrapheme (E.over (σ s)) fuel)
    pure (σ, .graphemes gs)
  | .equal s t => do
    let b ← stdEqual (E.over (σ s)) (E.over (σ t)) (σ s).length (σ t).length fuel 0 0
    pure (σ, .bool b)
  | .less s t => do
    let b ← stdLess (E.over (σ s)) (E.over (σ t)) (σ s).length (σ t).length fuel 0 0
    pure (σ, .bool b)
  | .countIf s pred => do
    let n ← stdCountIf (E.over (σ s)) pred (σ s).length fuel 0 0
    pure (σ, .number n)

/-- A whole program: the strings afterwards and everything printed, in order.
basic_encodedstring.hpp:89-219. -/
def Encoding.run [DecidableEq α] (E : Encoding α) (sort : SortFn) (fuel : Nat) (σ : Nat → List α) :
    List Op → Res ((Nat → List α) × List Obs)
  | [] => .ok (σ, [])
  | op :: ops => do
    let (σ1, o) ← E.step sort fuel σ op
    let (σ2, os) ← Encoding.run E sort fuel σ1 ops
    pure (σ2, o :: os)

end U5e
