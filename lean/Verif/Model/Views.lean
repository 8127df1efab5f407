import Verif.Model.History
/-!
# Programs over strings of both encodings and over views

As in `Model/History`, but every string is UTF-8 or utf32ne, and what a statement reads is either a whole string or
a view of a part of one (`utf8_string_view`, `utf32ne_string_view`).
-/
namespace U5e

/-- A `utf8_string` or a `utf32ne_string`. utf8_string.hpp:22, utf32ne_string.hpp:22. -/
inductive Text where
  | utf8 (m : List Octet)
  | utf32 (m : List Int)

/-- The codepoint iterators of the string, and of any view of it: a view is a window of the same memory.
basic_encodedstring.hpp:128-143, utf8_string_view.hpp:22, utf32ne_string_view.hpp:22. -/
def Text.iter : Text → CpIter
  | .utf8 m => enc8.over m
  | .utf32 m => enc32.over m

/-- `native_string.size()`, the distance from `native_begin()` to `native_end()`. basic_encodedstring.hpp:110-122. -/
def Text.size : Text → Nat
  | .utf8 m => m.length
  | .utf32 m => m.length

/-- Run a function that changes a string, for whichever encoding it has. basic_encodedstring.hpp:35-36. -/
def Text.edit (x : Text) (f : ∀ {α : Type} [DecidableEq α], Encoding α → List α → Res (List α × γ)) : Res (Text × γ) :=
  match x with
  | .utf8 m => do let (t, o) ← f enc8 m; pure (.utf8 t, o)
  | .utf32 m => do let (t, o) ← f enc32 m; pure (.utf32 t, o)

/-- Run a function that changes a string and reads another of the same encoding. For two encodings the call does
not compile ("this is only possible from iterators of the same encoding"); here it has no behaviour.
basic_encodedstring.hpp:166-205. -/
def Text.editFrom (x y : Text) (f : ∀ {α : Type}, Encoding α → List α → List α → Res (List α)) : Res Text :=
  match x, y with
  | .utf8 a, .utf8 b => do let t ← f enc8 a b; pure (.utf8 t)
  | .utf32 a, .utf32 b => do let t ← f enc32 a b; pure (.utf32 t)
  | _, _ => .ub

/-- What a statement reads: string number `s`, or a temporary view of the `i`-th to `j`-th codepoint of it,
`string_view(&*std::next(s.codepoint_cbegin(), i), …)`. utf8_string_view.hpp:22, utf32ne_string_view.hpp:22. -/
inductive Src where
  | whole (s : Nat)
  | view (s i j : Nat)

/-- The string it belongs to. utf8_string_view.hpp:22. -/
def Src.string : Src → Nat
  | .whole s => s
  | .view s _ _ => s

/-- Iterators, beginning and end of what is read. A view cannot end before it begins.
basic_encodedstring.hpp:128-143. -/
def Src.opened (σ : Nat → Text) : Src → Res (CpIter × Nat × Nat)
  | .whole s => .ok ((σ s).iter, 0, (σ s).size)
  | .view s i j => do
    let p ← stdNext (σ s).iter i 0
    let q ← stdNext (σ s).iter j 0
    if p ≤ q then pure ((σ s).iter, p, q) else .ub

/-- One statement; `d`, `s` are numbers of strings. -/
inductive VOp where
  /-- `strings[d] = String(strings[s].native_string)`, same encoding: basic_encodedstring.hpp:99-100. -/
  | copy (d s : Nat)
  /-- `strings[d].native_string.clear()`: basic_encodedstring.hpp:89. -/
  | clear (d : Nat)
  /-- `d.append<Storage>(src.codepoint_cbegin(), src.codepoint_cend())`, same encoding: basic_encodedstring.hpp:172-189. -/
  | append (d : Nat) (src : Src)
  /-- `d.append_from_utf32ne(v.cbegin(), v.cend())`: basic_encodedstring.hpp:207-218. -/
  | appendCps (d : Nat) (v : List Int)
  /-- `Encoding::append_from_utf32ne(src.codepoint_cbegin(), src.codepoint_cend(), d.native_string)`, where `Encoding` is
  that of `d` and `src` may have the other one: utf8.hpp:46-60, utf32ne.hpp:37-42. -/
  | convert (d : Nat) (src : Src)
  /-- `gi`, `gj` = `src.grapheme_begin()` advanced i and j times, then `d.append(gi, gj)`, same encoding:
  basic_encodedstring.hpp:191-205. -/
  | appendGraphemes (d : Nat) (src : Src) (i j : Nat)
  /-- `u5e::filter(src.grapheme_begin(), src.grapheme_end(), d, form)`; the encodings may differ: filter.hpp:43-54. -/
  | normalize (F : Form) (d : Nat) (src : Src)
  /-- `*std::next(s.codepoint_begin(), i) = c;`: utf8_iterator.hpp:316-342. -/
  | write (s i : Nat) (c : Int)
  /-- `for (it = s.codepoint_begin(); it != s.codepoint_end(); ++it) *it = f(*it);`: utf8_iterator.hpp:197-345. -/
  | transform (s : Nat) (f : Int → Int)
  /-- Print all codepoints: examples/simple_iteration.cpp:24-36. -/
  | read (src : Src)
  /-- Print all codepoints from the end, with `--it`: utf8_iterator.hpp:150-159. -/
  | readBack (src : Src)
  /-- The loop of examples/grapheme_iteration.cpp:31-45. -/
  | readGraphemes (src : Src)
  /-- `print(std::equal(a.codepoint_cbegin(), …, b.codepoint_cbegin(), …))`; the encodings may differ:
  utf8_iterator.hpp:166-185, codepoint.hpp:52-64. -/
  | equal (a b : Src)
  /-- `print(std::lexicographical_compare(…))`; the encodings may differ: utf8_iterator.hpp:190-192. -/
  | less (a b : Src)
  /-- `print(std::count_if(src.codepoint_cbegin(), src.codepoint_cend(), pred))`: utf8_iterator.hpp:190-192. -/
  | countIf (src : Src) (pred : Int → Bool)

/-- One statement. Simplifications: converting or normalizing (a view of) a string into itself counts as undefined; in
`convert` all codepoints are read before the first is appended, which makes no difference for two different strings.
basic_encodedstring.hpp:89-219. -/
def viewStep (sort : SortFn) (fuel : Nat) (σ : Nat → Text) : VOp → Res ((Nat → Text) × Obs)
  | .copy d s => do
    let t ← (σ d).editFrom (σ s) fun _ _ b => .ok b
    pure (upd σ d t, .none)
  | .clear d => do
    let (t, o) ← (σ d).edit fun _ _ => .ok ([], .none)
    pure (upd σ d t, o)
  | .append d src => do
    let (_, p, q) ← src.opened σ
    let t ← (σ d).editFrom (σ src.string) fun E a b => E.appendRange a (b ++ [E.nul]) p q
    pure (upd σ d t, .none)
  | .appendCps d v => do
    let (t, o) ← (σ d).edit fun E m => do pure (← E.appendCps m v, .none)
    pure (upd σ d t, o)
  | .convert d src =>
    if d = src.string then .ub
    else do
      let (I, p, q) ← src.opened σ
      let cs ← readRange I q fuel p
      let (t, o) ← (σ d).edit fun E m => do pure (← E.appendCps m cs, .none)
      pure (upd σ d t, o)
  | .appendGraphemes d src i j => do
    let (I, p, q) ← src.opened σ
    let gi ← (graphemeBegin I fuel p q >>= incN I fuel i)
    let gj ← (graphemeBegin I fuel p q >>= incN I fuel j)
    let t ← (σ d).editFrom (σ src.string) fun E a _ => E.appendGraphemes I fuel a gi gj
    pure (upd σ d t, .none)
  | .normalize F d src =>
    if d = src.string then .ub
    else do
      let (I, p, q) ← src.opened σ
      let (t, o) ← (σ d).edit fun E m => do
        let (n, t) ← normalizeText (F.run sort E.appendCps) I fuel p q m
        pure (t, .number n)
      pure (upd σ d t, o)
  | .write s i c => do
    let p ← stdNext (σ s).iter i 0
    let (t, o) ← (σ s).edit fun E m => do
      let (m1, _) ← E.assign (m ++ [E.nul]) p c
      pure (← E.stored m1, .none)
    pure (upd σ s t, o)
  | .transform s f => do
    let (t, o) ← (σ s).edit fun E m => do
      let m1 ← E.transformLoop f m.length fuel (m ++ [E.nul]) 0
      pure (← E.stored m1, .none)
    pure (upd σ s t, o)
  | .read src => do
    let (I, p, q) ← src.opened σ
    let cs ← readRange I q fuel p
    pure (σ, .codepoints cs)
  | .readBack src => do
    let (I, p, q) ← src.opened σ
    let cs ← readBackRange I p fuel q
    pure (σ, .codepoints cs)
  | .readGraphemes src => do
    let (I, p, q) ← src.opened σ
    let (_, gs) ← filterGraphemes I fuel p q [] (collectGrapheme I fuel)
    pure (σ, .graphemes gs)
  | .equal a b => do
    let (I, p, q) ← a.opened σ
    let (J, p', q') ← b.opened σ
    let x ← stdEqual I J q q' fuel p p'
    pure (σ, .bool x)
  | .less a b => do
    let (I, p, q) ← a.opened σ
    let (J, p', q') ← b.opened σ
    let x ← stdLess I J q q' fuel p p'
    pure (σ, .bool x)
  | .countIf src pred => do
    let (I, p, q) ← src.opened σ
    let n ← stdCountIf I pred q fuel p 0
    pure (σ, .number n)

/-- A whole program: the strings afterwards and everything printed, in order. basic_encodedstring.hpp:89-219. -/
def viewRun (sort : SortFn) (fuel : Nat) (σ : Nat → Text) : List VOp → Res ((Nat → Text) × List Obs)
  | [] => .ok (σ, [])
  | op :: ops => do
    let (σ1, o) ← viewStep sort fuel σ op
    let (σ2, os) ← viewRun sort fuel σ1 ops
    pure (σ2, o :: os)

end U5e
