import Verif.Model.Normalize
import Verif.Model.EncodedString
/-!
# The same functions, counting what they read

How much work a function does is observable too. Here the functions that read text or tables are repeated with a
counter: one for every octet (or codepoint) read through a native iterator, one for every table row that `bsearch`
compares. Arithmetic, moving an iterator and copying or appending to a string are not counted. `Proofs/CostErase` proves that forgetting the counter gives back the functions of the rest of the model.
-/
namespace U5e

/-- Outcome of running modelled C++ code, and the number of reads made up to there. Not in /repo: carrier of this file. -/
structure Work (α : Type) where
  res : Res α
  reads : Nat
  deriving DecidableEq

namespace Work

/-- Sequencing: the reads add up; nothing runs after `ub` or `tmo`. Carrier of this file. -/
@[inline] def bind (x : Work α) (f : α → Work β) : Work β :=
  match x.res with
  | .ok a => ⟨(f a).res, x.reads + (f a).reads⟩
  | .ub => ⟨.ub, x.reads⟩
  | .tmo => ⟨.tmo, x.reads⟩

instance : Monad Work where
  pure a := ⟨.ok a, 0⟩
  bind := bind

/-- A computation that reads nothing. Carrier of this file. -/
def free (r : Res α) : Work α := ⟨r, 0⟩

/-- Undefined behaviour. Carrier of this file. -/
def ub : Work α := ⟨.ub, 0⟩

/-- Out of fuel. Carrier of this file. -/
def tmo : Work α := ⟨.tmo, 0⟩

/-- `*raw_iterator_`, one read. utf8_iterator.hpp:53, 84, 97. -/
def rd (m : Mem) (p : Nat) : Work Octet := ⟨U5e.rd m p, 1⟩

/-- utf8_iterator.hpp:49-58 `rewind_to_start_of_codepoint`, also 75-77. -/
def rewind (m : Mem) : Nat → Work Nat
  | 0 => do
    let o ← rd m 0
    if isCont o then ub else pure 0
  | p + 1 => do
    let o ← rd m (p + 1)
    if isCont o then rewind m p else pure (p + 1)

/-- utf8_iterator.hpp:63-67 `forward_one_codepoint`. -/
def fwd (m : Mem) (p : Nat) : Work Nat := do
  let s ← rewind m p
  let o ← rd m s
  free (adv m s (cpSize o))

/-- utf8_iterator.hpp:72-78 `rewind_one_codepoint`. -/
def bwd (m : Mem) (p : Nat) : Work Nat := do
  let s ← rewind m p
  let q ← free (retreat s)
  rewind m q

/-- utf8_iterator.hpp:96-98, the loop of `current_codepoint`. -/
def decLoop (m : Mem) : Nat → Nat → BitVec 32 → Work (BitVec 32)
  | 0, _, v => pure v
  | n + 1, q, v => do
    let q' ← free (adv m q 1)
    let o ← rd m q'
    decLoop m n q' ((v <<< 6) ||| (promote o &&& 0b00111111#32))

/-- utf8_iterator.hpp:83-101 `current_codepoint`: line 84 reads an octet for the test, 86 is the same octet again and
is not counted again. -/
def cur (m : Mem) (p : Nat) : Work (Int × Nat) := do
  let o ← rd m p
  if is7bit o then pure ((promote o).toInt, p)
  else
    let s ← rewind m p
    let f ← rd m s
    let mask ← free (maskFirst (cpSize f))
    let v ← decLoop m (cpSize f - 1) s (promote f &&& mask)
    pure (v.toInt, s)

/-- utf8_iterator.hpp:166-181 and 263-278 `operator==`: the loop 173-180 compares positions and reads nothing. -/
def iterEq (m : Mem) (lhs rhs : Nat) : Work Bool := do
  let s ← rewind m lhs
  let o ← rd m s
  free (eqLoop m rhs (cpSize o) s)

/-- `while (it != end) { out.push_back(*it); ++it; }`, see `U5e.walk`
(t/003_utf8_encoded_iterator.t.cpp walks like this). -/
def walk (m : Mem) (e : Nat) : Nat → Nat → Work (List Int)
  | 0, _ => tmo
  | fuel + 1, p => do
    let done ← iterEq m p e
    if done then pure []
    else
      let (c, p1) ← cur m p
      let p2 ← fwd m p1
      let rest ← walk m e fuel p2
      pure (c :: rest)

/-- `while (it != begin) { --it; out.push_back(*it); }`, see `U5e.walkBack`
(t/003_utf8_encoded_iterator.t.cpp:73-86 walks back like this). -/
def walkBack (m : Mem) (b : Nat) : Nat → Nat → Work (List Int)
  | 0, _ => tmo
  | fuel + 1, p => do
    let done ← iterEq m p b
    if done then pure []
    else
      let p1 ← bwd m p
      let (c, p2) ← cur m p1
      let rest ← walkBack m b fuel p2
      pure (c :: rest)

/-- `bsearch`, one read for every row compared; see `U5e.bsearchLoop`.
src/u5e/props/canonical_combining_class.cpp:36-39. -/
def bsearchLoop (cmp : α → Ordering) (t : List α) : Nat → Nat → Nat → Work (Option α)
  | 0, _, _ => tmo
  | fuel + 1, l, u =>
    if l < u then do
      let i := (l + u) / 2
      let x ← (⟨match t[i]? with | none => .ub | some x => .ok x, 1⟩ : Work α)
      match cmp x with
      | .lt => bsearchLoop cmp t fuel l i
      | .gt => bsearchLoop cmp t fuel (i + 1) u
      | .eq => pure (some x)
    else pure none

/-- `bsearch(key, base, nmemb, size, compar)`. src/u5e/props/canonical_combining_class.cpp:36-39. -/
def bsearch (cmp : α → Ordering) (t : List α) : Work (Option α) :=
  bsearchLoop cmp t (t.length + 1) 0 t.length

/-- src/u5e/props/canonical_combining_class.cpp:34-46 `canonical_combining_class::resolve`. -/
def cccResolve (input : Int) : Work Int := do
  match ← bsearch (compareValueToRow input) Data.cccTable with
  | none => pure 0
  | some row => pure (elemAt row 1)

/-- src/u5e/props/canonical_decomposition_mapping.cpp:33-46 `canonical_decomposition_mapping::resolve`. -/
def decResolve (input : Int) : Work (Option (List Int)) := do
  match ← bsearch (compareValueToRow input) Data.decTable with
  | none => pure none
  | some row => pure (some (row.tail.map Int.ofNat))

/-- src/u5e/props/compatibility_and_canonical_decomposition_mapping.cpp:33-47
`compatibility_and_canonical_decomposition_mapping::resolve`. -/
def kdecResolve (input : Int) : Work (Option (List Int)) := do
  match ← bsearch (compareValueToRow input) Data.kdecTable with
  | none => pure none
  | some row => pure (some (row.tail.map Int.ofNat))

/-- src/u5e/props/canonical_composition_mapping.cpp:39-53 `canonical_composition_mapping::resolve`. -/
def compResolve (a b : Int) : Work (Option Int) := do
  match ← bsearch (comparePairToRow a b) Data.compTable with
  | none => pure none
  | some row => pure (some (elemAt row 2))

/-- src/u5e/props/grapheme_cluster_break.cpp:39-51 `grapheme_cluster_break::resolve`. -/
def gcbResolve (c : Int) : Work GCB := do
  match ← bsearch (compareValueToRange c) Data.gcbTable with
  | some r => pure r.2.2
  | none => pure .OTHER

/-- basic_grapheme_iterator.hpp:53-124 `is_grapheme_boundary(a, b)`: both classes are looked up. -/
def isGraphemeBoundary (a b : Int) : Work Bool := do
  let va ← gcbResolve a
  let vb ← gcbResolve b
  pure (boundaryOfClasses va vb)

/-- The operations of a codepoint iterator, see `U5e.CpIter`. basic_grapheme_iterator.hpp:15-296. -/
structure CpIter where
  deref : Nat → Work (Int × Nat)
  inc : Nat → Work Nat
  dec : Nat → Work Nat
  eq : Nat → Nat → Work Bool

/-- utf8_iterator.hpp:110-195 `utf8_const_iterator`. -/
def utf8Iter (m : Mem) : CpIter where
  deref := cur m
  inc := fwd m
  dec := bwd m
  eq := iterEq m

/-- utf32ne.hpp:29-30, the native iterator: only `*` reads. -/
def utf32Iter (m : List Int) : CpIter where
  deref p := ⟨(U5e.utf32Iter m).deref p, 1⟩
  inc p := free ((U5e.utf32Iter m).inc p)
  dec p := free ((U5e.utf32Iter m).dec p)
  eq a b := free ((U5e.utf32Iter m).eq a b)

/-- basic_grapheme_iterator.hpp:142-154, the loop of `find_end_of_grapheme`. -/
def findEndLoop (I : CpIter) (end_ : Nat) : Nat → Int → Nat → Work Nat
  | 0, _, _ => tmo
  | fuel + 1, a, p => do
    let atEnd ← I.eq p end_
    if atEnd then pure p
    else
      let (b, p1) ← I.deref p
      let brk ← isGraphemeBoundary a b
      if brk then pure p1
      else
        let p2 ← I.inc p1
        findEndLoop I end_ fuel b p2

/-- basic_grapheme_iterator.hpp:131-155 `find_end_of_grapheme`. -/
def findEnd (I : CpIter) (fuel end_ p : Nat) : Work Nat := do
  let atEnd ← I.eq p end_
  if atEnd then pure p
  else
    let (a, p1) ← I.deref p
    let p2 ← I.inc p1
    findEndLoop I end_ fuel a p2

/-- basic_grapheme_iterator.hpp:169-180, the loop of `find_start_of_grapheme`. -/
def findStartLoop (I : CpIter) (begin_ : Nat) : Nat → Int → Nat → Work Nat
  | 0, _, _ => tmo
  | fuel + 1, a, w => do
    let atBegin ← I.eq w begin_
    if atBegin then pure w
    else
      let (b, w1) ← I.deref w
      let brk ← isGraphemeBoundary a b
      if brk then pure w1
      else
        let w2 ← I.dec w1
        findStartLoop I begin_ fuel b w2

/-- basic_grapheme_iterator.hpp:157-181 `find_start_of_grapheme`. -/
def findStart (I : CpIter) (fuel begin_ w : Nat) : Work Nat := do
  let atBegin ← I.eq w begin_
  if atBegin then pure w
  else
    let copy ← I.dec w
    let (a, _) ← I.deref copy
    findStartLoop I begin_ fuel a w

/-- basic_grapheme_iterator.hpp:187-191, constructor "start at the beginning of the text". -/
def gBegin (I : CpIter) (fuel b e : Nat) : Work GIter := do
  let x ← findEnd I fuel e b
  pure ⟨b, e, b, x⟩

/-- basic_grapheme_iterator.hpp:197-203, constructor "start at a specific point". -/
def gAt (I : CpIter) (fuel b e w : Nat) : Work GIter := do
  let w1 ← findStart I fuel b w
  let x ← findEnd I fuel e w
  pure ⟨b, e, w1, x⟩

/-- basic_grapheme_iterator.hpp:234-245 `operator++`. -/
def gInc (I : CpIter) (fuel : Nat) (g : GIter) : Work GIter := do
  let x ← findEnd I fuel g.end_ g.endOf
  pure { g with where_ := g.endOf, endOf := x }

/-- basic_grapheme_iterator.hpp:254-260, the loop of `operator==(const_codepoint_iterator)`. -/
def eqCpLoop (I : CpIter) (endOf other : Nat) : Nat → Nat → Work Bool
  | 0, _ => tmo
  | fuel + 1, copy => do
    let fin ← I.eq copy endOf
    if fin then pure false
    else
      let hit ← I.eq copy other
      if hit then pure true
      else
        let copy1 ← I.inc copy
        eqCpLoop I endOf other fuel copy1

/-- basic_grapheme_iterator.hpp:250-262 `operator==(const_codepoint_iterator other)`. -/
def eqCp (I : CpIter) (fuel : Nat) (g : GIter) (other : Nat) : Work Bool := do
  let first ← I.eq g.where_ other
  if first then pure true
  else eqCpLoop I g.endOf other fuel g.where_

/-- basic_grapheme_iterator.hpp:272-278, the loop of `operator==(basic_grapheme_iterator)`. -/
def eqGLoop (I : CpIter) (gfuel : Nat) (endOf : Nat) (other : GIter) : Nat → Nat → Work Bool
  | 0, _ => tmo
  | fuel + 1, copy => do
    let fin ← I.eq copy endOf
    if fin then pure false
    else
      let hit ← eqCp I gfuel other copy
      if hit then pure true
      else
        let copy1 ← I.inc copy
        eqGLoop I gfuel endOf other fuel copy1

/-- basic_grapheme_iterator.hpp:267-280 `operator==(basic_grapheme_iterator other)`. -/
def eqG (I : CpIter) (fuel : Nat) (g other : GIter) : Work Bool := do
  let atEnd ← I.eq g.where_ g.end_
  let both ← if atEnd then eqCp I fuel other g.end_ else pure false
  if both then pure true
  else eqGLoop I fuel g.endOf other fuel g.where_

/-- What `filter` uses of its input iterator, see `U5e.InputIter`. filter.hpp:43-54. -/
structure InputIter (σ α : Type) where
  ne : σ → σ → Work Bool
  deref : σ → Work (α × σ)
  inc : σ → Work σ

/-- A codepoint iterator as input iterator. utf8_iterator.hpp:183-185. -/
def CpIter.input (I : CpIter) : InputIter Nat Int where
  ne a b := do let r ← I.eq a b; pure (!r)
  deref := I.deref
  inc := I.inc

/-- filter.hpp:49-52, the loop of `filter`. -/
def filterLoop (it : InputIter σ α) (op : α → β → Work (Int × β)) (to : σ) :
    Nat → σ → β → Int → Work (Int × β)
  | 0, _, _, _ => tmo
  | fuel + 1, from_, out, counter => do
    let more ← it.ne from_ to
    if more then
      let (x, from1) ← it.deref from_
      let (k, out1) ← op x out
      let counter1 ← free (addInt counter k)
      let from2 ← it.inc from1
      filterLoop it op to fuel from2 out1 counter1
    else pure (counter, out)

/-- filter.hpp:43-54 `filter`. -/
def filter (it : InputIter σ α) (fuel : Nat) (from_ to : σ) (out : β) (op : α → β → Work (Int × β)) :
    Work (Int × β) :=
  filterLoop it op to fuel from_ out 0

/-- Grapheme iterators as input of `filter`; `operator*` (basic_grapheme_iterator.hpp:226-228) only copies positions. -/
def graphemeInput (I : CpIter) (fuel : Nat) : InputIter GIter Grapheme where
  ne a b := do let r ← eqG I fuel a b; pure (!r)
  deref g := pure (⟨g.where_, g.endOf⟩, g)
  inc g := gInc I fuel g

/-- `u5e::filter(s.grapheme_begin(), s.grapheme_end(), out, op)` (examples/normalization_form_c.cpp:23-25). -/
def filterGraphemes (I : CpIter) (fuel b e : Nat) (out : β) (op : Grapheme → β → Work (Int × β)) :
    Work (Int × β) := do
  let g ← gBegin I fuel b e
  let z ← gAt I fuel b e e
  filter (graphemeInput I fuel) fuel g z out op

/-- codepoint_decomposition.hpp:50-53: every int of the mapping up to the 0 is read. -/
def mappingCount : List Int → Int → Work Int
  | [], _ => ub
  | x :: rest, count => do
    let x ← (⟨.ok x, 1⟩ : Work Int)
    if x ≠ 0 then do
      let count1 ← free (addInt count 1)
      mappingCount rest count1
    else pure count

/-- codepoint_decomposition.hpp:35-62 `codepoint_decomposition(input, output, resolver)`. -/
def codepointDecomposition (resolver : Int → Work (Option (List Int))) (input : Int) (output : List Int) :
    Work (Int × List Int) := do
  match ← resolver input with
  | none => do
    let out ← free (appendRange32 output [input] 0 1)
    pure (1, out)
  | some mapping => do
    let count ← mappingCount mapping 0
    let out ← free (appendRange32 output mapping 0 count.toNat)
    pure (count, out)

/-- canonical_composition.hpp:35-72, the loop of `canonical_composition`. -/
def compositionLoop : Nat → List Int → Nat → Nat → Int → Work (List Int × Nat × Int)
  | 0, _, _, _, _ => tmo
  | fuel + 1, data, oi, in_, count =>
    if in_ = data.length then pure (data, oi, count)
    else do
      let a ← (⟨rd32 data in_, 1⟩ : Work Int)
      if in_ + 1 = data.length then
        let data1 ← free (wr32 data oi a)
        compositionLoop fuel data1 (oi + 1) (in_ + 1) count
      else
        let b ← (⟨rd32 data (in_ + 1), 1⟩ : Work Int)
        match ← compResolve a b with
        | some c =>
          let data1 ← free (wr32 data (in_ + 1) c)
          let count1 ← free (addInt count 1)
          compositionLoop fuel data1 oi (in_ + 1) count1
        | none =>
          let data1 ← free (wr32 data oi a)
          compositionLoop fuel data1 (oi + 1) (in_ + 1) count

/-- canonical_composition.hpp:27-74 `canonical_composition(data, count)`. -/
def canonicalComposition (fuel : Nat) (data : List Int) (count : Int) : Work (List Int × Nat × Int) :=
  compositionLoop fuel data 0 0 count

/-- canonical_combining_order.hpp:13-18 `canonical_combining_order(a, b)`: two look-ups. -/
def combiningOrder (a b : Int) : Work Bool := do
  let x ← cccResolve a
  let y ← cccResolve b
  pure (decide (x < y))

/-- `std::sort(first, last, canonical_combining_order)`: `sort` gives the sorted contents and `compared` the pairs it
calls the comparison with, both parameters. normalization_form_d.hpp:34-35. -/
def sorted (sort : SortFn) (compared : List Int → List (Int × Int)) (l : List Int) : Work (List Int) :=
  ⟨.ok (sort canonicalCombiningOrder l), ((compared l).map fun ab => (combiningOrder ab.1 ab.2).reads).sum⟩

/-- The resolver of a form: normalization_form_d.hpp:27-31, normalization_form_kd.hpp:27-31,
normalization_form_c.hpp:28-32, normalization_form_kc.hpp:28-32. -/
def resolver : Form → Int → Work (Option (List Int))
  | .D | .C => decResolve
  | .KD | .KC => kdecResolve

/-- The second half of a form: normalization_form_d.hpp:36-44 and normalization_form_kd.hpp:36-47 append what was
sorted, normalization_form_c.hpp:36-52 and normalization_form_kc.hpp:36-54 compose it first. -/
def finish (F : Form) (append : AppendFn β) (count : Int) (s : List Int) (output : β) : Work (Int × β) :=
  match F with
  | .D | .KD => do
    let out ← free (append output s)
    pure (count, out)
  | .C | .KC => do
    let (data, oi, compositions) ← canonicalComposition (s.length + 1) s 0
    let out ← free (append output (data.take oi))
    let r ← free (addInt count (-compositions))
    pure (r, out)

/-- normalization_form_d.hpp:23-44, normalization_form_c.hpp:24-52, normalization_form_kd.hpp:23-47,
normalization_form_kc.hpp:24-54. -/
def runForm (F : Form) (sort : SortFn) (compared : List Int → List (Int × Int)) (append : AppendFn β) (I : CpIter) (fuel : Nat)
    (g : Grapheme) (output : β) : Work (Int × β) := do
  let (count, decomposed) ← filter I.input fuel g.first g.last [] (codepointDecomposition (resolver F))
  let s ← sorted sort compared decomposed
  finish F append count s output

/-- Normalizing a whole text, see `U5e.normalizeText` (examples/normalization_form_c.cpp:23-25). -/
def normalizeText (F : Form) (sort : SortFn) (compared : List Int → List (Int × Int)) (append : AppendFn β) (I : CpIter)
    (fuel b e : Nat) (output : β) : Work (Int × β) :=
  filterGraphemes I fuel b e output (runForm F sort compared append I fuel)

end Work
end U5e
