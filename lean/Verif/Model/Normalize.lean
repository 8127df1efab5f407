import Verif.Model.Grapheme
import Verif.Model.Props
import Verif.Model.EncodedString
import Verif.Model.Utf8Write
/-! # Model of decomposition, composition and the four normalization forms -/
namespace U5e

/-- codepoint_decomposition.hpp:50-53 `while (*end != 0) { end++; count++; }`: the count, starting
from `count`. The argument is the memory readable from the mapping pointer; running off the row is `ub`. -/
def mappingCount : List Int → Int → Res Int
  | [], _ => .ub
  | x :: rest, count =>
    if x ≠ 0 then do
      let count1 ← addInt count 1
      mappingCount rest count1
    else pure count

/-- codepoint_decomposition.hpp:35-62 `codepoint_decomposition(input, output, resolver)` with a
utf32ne output string: the returned count and the output afterwards. `resolver` = none is NULL.
(The append of lines 56-60 is `basic_encodedstring::append` on a utf32ne string, `appendRange32`,
whose source is the `count` ints from `begin`.) -/
def codepointDecomposition (resolver : Int → Option (List Int)) (input : Int) (output : List Int) :
    Res (Int × List Int) :=
  match resolver input with
  | none => do
    let out ← appendRange32 output [input] 0 1
    pure (1, out)
  | some mapping => do
    let count ← mappingCount mapping 0
    let out ← appendRange32 output mapping 0 count.toNat
    pure (count, out)

/-- canonical_decomposition.hpp:31-37 `canonical_decomposition`. -/
def canonicalDecomposition : Int → List Int → Res (Int × List Int) :=
  codepointDecomposition decResolve

/-- compatibility_and_canonical_decomposition.hpp:30-37 `compatibility_and_canonical_decomposition`. -/
def compatibilityDecomposition : Int → List Int → Res (Int × List Int) :=
  codepointDecomposition kdecResolve

/-- canonical_combining_order.hpp:13-18 `canonical_combining_order(a, b)`. -/
def canonicalCombiningOrder (a b : Int) : Bool := decide (cccResolve a < cccResolve b)

/-- Reading `*it` of a `std::basic_string<int>` buffer; at or past the end is `ub`.
canonical_composition.hpp:39,53. -/
def rd32 (m : List Int) (p : Nat) : Res Int :=
  match m[p]? with
  | some c => .ok c
  | none => .ub

/-- Writing `*it = v` of a `std::basic_string<int>` buffer; at or past the end is `ub`.
canonical_composition.hpp:45,60,66. -/
def wr32 (m : List Int) (p : Nat) (v : Int) : Res (List Int) :=
  if p < m.length then .ok (m.set p v) else .ub

/-- canonical_composition.hpp:35-72, the loop `while (in != end) …` of `canonical_composition`, with
fuel: `data` is the string, `oi` and `in_` the two iterators, `end` is `data.length`. Returns the
string, the returned iterator and `*count`. -/
def compositionLoop : Nat → List Int → Nat → Nat → Int → Res (List Int × Nat × Int)
  | 0, _, _, _, _ => .tmo
  | fuel + 1, data, oi, in_, count =>
    if in_ = data.length then pure (data, oi, count)
    else do
      let a ← rd32 data in_
      if in_ + 1 = data.length then
        let data1 ← wr32 data oi a
        compositionLoop fuel data1 (oi + 1) (in_ + 1) count
      else
        let b ← rd32 data (in_ + 1)
        match compResolve a b with
        | some c =>
          let data1 ← wr32 data (in_ + 1) c
          let count1 ← addInt count 1
          compositionLoop fuel data1 oi (in_ + 1) count1
        | none =>
          let data1 ← wr32 data oi a
          compositionLoop fuel data1 (oi + 1) (in_ + 1) count

/-- canonical_composition.hpp:27-74 `canonical_composition(data, count)`: the string afterwards, the
returned iterator (as a position) and `*count` afterwards. -/
def canonicalComposition (fuel : Nat) (data : List Int) (count : Int) : Res (List Int × Nat × Int) :=
  compositionLoop fuel data 0 0 count

/-- `std::sort(first, last, comp)` as a function on the range's contents. A parameter of the model:
see `Spec.ConformingSort` for what the C++ standard promises. normalization_form_d.hpp:34-35. -/
abbrev SortFn := (Int → Int → Bool) → List Int → List Int

/-- `output.append_from_utf32ne(first, last)` (basic_encodedstring.hpp:210-222) of the output string
type, with the range's contents as argument. -/
abbrev AppendFn (β : Type) := β → List Int → Res β

/-- utf32ne.hpp:38-43: `output.append(first, last)`. -/
def append32 : AppendFn (List Int) := fun out cs => .ok (out ++ cs)

/-- utf8.hpp:47-62, see `appendFromUtf32`. -/
def append8 : AppendFn (List Octet) := fun out cs => appendFromUtf32 out (cs.map (BitVec.ofInt 32))

/-- normalization_form_d.hpp:23-44 `normalization_form_d(grapheme, output)`. -/
def normalizationFormD (sort : SortFn) (append : AppendFn β) (I : CpIter) (fuel : Nat) (g : Grapheme)
    (output : β) : Res (Int × β) := do
  let (count, decomposed) ← filter I.input fuel g.first g.last [] canonicalDecomposition
  let sorted := sort canonicalCombiningOrder decomposed
  let out ← append output sorted
  pure (count, out)

/-- normalization_form_kd.hpp:23-47 `normalization_form_kd(grapheme, output)`. -/
def normalizationFormKD (sort : SortFn) (append : AppendFn β) (I : CpIter) (fuel : Nat) (g : Grapheme)
    (output : β) : Res (Int × β) := do
  let (count, decomposed) ← filter I.input fuel g.first g.last [] compatibilityDecomposition
  let sorted := sort canonicalCombiningOrder decomposed
  let out ← append output sorted
  pure (count, out)

/-- normalization_form_c.hpp:24-52 `normalization_form_c(grapheme, output)`: the composed string is
the range from the beginning to the iterator returned by `canonical_composition`. -/
def normalizationFormC (sort : SortFn) (append : AppendFn β) (I : CpIter) (fuel : Nat) (g : Grapheme)
    (output : β) : Res (Int × β) := do
  let (count, decomposed) ← filter I.input fuel g.first g.last [] canonicalDecomposition
  let sorted := sort canonicalCombiningOrder decomposed
  let (data, oi, compositions) ← canonicalComposition (sorted.length + 1) sorted 0
  let out ← append output (data.take oi)
  let r ← addInt count (-compositions)
  pure (r, out)

/-- normalization_form_kc.hpp:24-54 `normalization_form_kc(grapheme, output)`. -/
def normalizationFormKC (sort : SortFn) (append : AppendFn β) (I : CpIter) (fuel : Nat) (g : Grapheme)
    (output : β) : Res (Int × β) := do
  let (count, decomposed) ← filter I.input fuel g.first g.last [] compatibilityDecomposition
  let sorted := sort canonicalCombiningOrder decomposed
  let (data, oi, compositions) ← canonicalComposition (sorted.length + 1) sorted 0
  let out ← append output (data.take oi)
  let r ← addInt count (-compositions)
  pure (r, out)

/-- Which of the four functions normalization_form_{d,c,kd,kc}.hpp:23-24 is used. -/
inductive Form where
  | D | C | KD | KC
deriving DecidableEq

/-- The function of a form: normalization_form_d.hpp:23-44, normalization_form_c.hpp:24-52,
normalization_form_kd.hpp:23-47, normalization_form_kc.hpp:24-54. -/
def Form.run : Form → SortFn → AppendFn β → CpIter → Nat → Grapheme → β → Res (Int × β)
  | .D => normalizationFormD
  | .C => normalizationFormC
  | .KD => normalizationFormKD
  | .KC => normalizationFormKC

/-- Normalizing a whole text: `u5e::filter(s.grapheme_begin(), s.grapheme_end(), output, op)`
(examples/normalization_form_c.cpp:23-25, examples/normalization_form_d.cpp,
examples/normalization_form_c_utf32.cpp) where `op` is one of the four forms. -/
def normalizeText (form : CpIter → Nat → Grapheme → β → Res (Int × β)) (I : CpIter) (fuel b e : Nat)
    (output : β) : Res (Int × β) :=
  filterGraphemes I fuel b e output (form I fuel)

end U5e
