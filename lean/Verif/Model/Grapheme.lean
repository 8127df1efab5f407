import Verif.Model.Filter
import Verif.Model.Props
/-! # Model of include/u5e/basic_grapheme_iterator.hpp, basic_grapheme.hpp and
basic_encodedstring.hpp:152-162 -/
namespace U5e

/-- basic_grapheme_iterator.hpp:53-124 `is_grapheme_boundary`, on the classes `va`, `vb`. -/
def boundaryOfClasses (va vb : GCB) : Bool :=
  if va = .CR ∧ vb = .LF then false
  else if va = .CR ∨ va = .LF ∨ va = .CONTROL then true
  else if vb = .CR ∨ vb = .LF ∨ vb = .CONTROL then true
  else if va = .L ∧ (vb = .L ∨ vb = .V ∨ vb = .LV ∨ vb = .LVT) then false
  else if (va = .LV ∨ va = .V) ∧ (vb = .V ∨ vb = .T) then false
  else if (va = .LVT ∨ va = .T) ∧ vb = .T then false
  else if vb = .EXTEND ∨ vb = .ZWJ then false
  else if vb = .SPACINGMARK then false
  else if va = .PREPEND then false
  else if ((va = .E_BASE ∨ va = .E_BASE_GAZ) ∧ vb = .E_MODIFIER) ∨
      (va = .EXTEND ∧ vb = .E_MODIFIER) then false
  else if va = .ZWJ ∧ (vb = .GLUE_AFTER_ZWJ ∨ vb = .E_BASE_GAZ) then false
  else if va = .REGIONAL_INDICATOR ∧ vb = .REGIONAL_INDICATOR then false
  else true

/-- basic_grapheme_iterator.hpp:53-124 `is_grapheme_boundary(a, b)`. -/
def isGraphemeBoundary (a b : Int) : Bool := boundaryOfClasses (gcbResolve a) (gcbResolve b)

/-- basic_grapheme_iterator.hpp:35-44, the four member iterators `begin_`, `end_`, `where_`,
`end_of_grapheme_`. -/
structure GIter where
  begin_ : Nat
  end_ : Nat
  where_ : Nat
  endOf : Nat
  deriving DecidableEq, Repr

/-- basic_grapheme_iterator.hpp:142-154, the loop of `find_end_of_grapheme`: position of
`end_of_grapheme_` afterwards. -/
def findEndLoop (I : CpIter) (end_ : Nat) : Nat → Int → Nat → Res Nat
  | 0, _, _ => .tmo
  | fuel + 1, a, p => do
    let atEnd ← I.eq p end_
    if atEnd then pure p
    else
      let (b, p1) ← I.deref p
      if isGraphemeBoundary a b then pure p1
      else
        let p2 ← I.inc p1
        findEndLoop I end_ fuel b p2

/-- basic_grapheme_iterator.hpp:131-155 `find_end_of_grapheme`, as a function of
`end_of_grapheme_`. -/
def findEnd (I : CpIter) (fuel end_ p : Nat) : Res Nat := do
  let atEnd ← I.eq p end_
  if atEnd then pure p
  else
    let (a, p1) ← I.deref p
    let p2 ← I.inc p1
    findEndLoop I end_ fuel a p2

/-- basic_grapheme_iterator.hpp:169-180, the loop of `find_start_of_grapheme`: position of `where_`
afterwards. -/
def findStartLoop (I : CpIter) (begin_ : Nat) : Nat → Int → Nat → Res Nat
  | 0, _, _ => .tmo
  | fuel + 1, a, w => do
    let atBegin ← I.eq w begin_
    if atBegin then pure w
    else
      let (b, w1) ← I.deref w
      if isGraphemeBoundary a b then pure w1
      else
        let w2 ← I.dec w1
        findStartLoop I begin_ fuel b w2

/-- basic_grapheme_iterator.hpp:157-181 `find_start_of_grapheme`, as a function of `where_`. -/
def findStart (I : CpIter) (fuel begin_ w : Nat) : Res Nat := do
  let atBegin ← I.eq w begin_
  if atBegin then pure w
  else
    let copy ← I.dec w
    let (a, _) ← I.deref copy
    findStartLoop I begin_ fuel a w

/-- basic_grapheme_iterator.hpp:187-191, constructor "start at the beginning of the text". -/
def gBegin (I : CpIter) (fuel b e : Nat) : Res GIter := do
  let x ← findEnd I fuel e b
  pure ⟨b, e, b, x⟩

/-- basic_grapheme_iterator.hpp:197-203, constructor "start at a specific point". -/
def gAt (I : CpIter) (fuel b e w : Nat) : Res GIter := do
  let w1 ← findStart I fuel b w
  let x ← findEnd I fuel e w
  pure ⟨b, e, w1, x⟩

/-- basic_grapheme_iterator.hpp:234-245 `operator++` (prefix; postfix moves the same way). -/
def GIter.inc (I : CpIter) (fuel : Nat) (g : GIter) : Res GIter := do
  let x ← findEnd I fuel g.end_ g.endOf
  pure { g with where_ := g.endOf, endOf := x }

/-- `++it` repeated k times (basic_grapheme_iterator.hpp:234-238). -/
def incN (I : CpIter) (fuel : Nat) : Nat → GIter → Res GIter
  | 0, g => .ok g
  | k + 1, g => do
    let g' ← g.inc I fuel
    incN I fuel k g'

/-- basic_grapheme_iterator.hpp:254-260, the loop of `operator==(const_codepoint_iterator)`. -/
def eqCpLoop (I : CpIter) (endOf other : Nat) : Nat → Nat → Res Bool
  | 0, _ => .tmo
  | fuel + 1, copy => do
    let fin ← I.eq copy endOf
    if fin then pure false
    else
      let hit ← I.eq copy other
      if hit then pure true
      else
        let copy1 ← I.inc copy
        eqCpLoop I endOf other fuel copy1

/-- basic_grapheme_iterator.hpp:250-262 `operator==(const_codepoint_iterator other)`. -/
def GIter.eqCp (I : CpIter) (fuel : Nat) (g : GIter) (other : Nat) : Res Bool := do
  let first ← I.eq g.where_ other
  if first then pure true
  else eqCpLoop I g.endOf other fuel g.where_

/-- basic_grapheme_iterator.hpp:272-278, the loop of `operator==(basic_grapheme_iterator)`. -/
def eqGLoop (I : CpIter) (gfuel : Nat) (endOf : Nat) (other : GIter) : Nat → Nat → Res Bool
  | 0, _ => .tmo
  | fuel + 1, copy => do
    let fin ← I.eq copy endOf
    if fin then pure false
    else
      let hit ← other.eqCp I gfuel copy
      if hit then pure true
      else
        let copy1 ← I.inc copy
        eqGLoop I gfuel endOf other fuel copy1

/-- basic_grapheme_iterator.hpp:267-280 `operator==(basic_grapheme_iterator other)`; the `&&` is
short-circuiting. -/
def GIter.eqG (I : CpIter) (fuel : Nat) (g other : GIter) : Res Bool := do
  let atEnd ← I.eq g.where_ g.end_
  let both ← if atEnd then other.eqCp I fuel g.end_ else pure false
  if both then pure true
  else eqGLoop I fuel g.endOf other fuel g.where_

/-- basic_grapheme.hpp:14-62 `basic_grapheme`: the pair `codepoint_begin()`, `codepoint_end()`. -/
structure Grapheme where
  first : Nat
  last : Nat
  deriving DecidableEq, Repr

/-- Grapheme iterators as input of `filter`: `operator!=` (basic_grapheme_iterator.hpp:285-287),
`operator*` (226-228), postfix `++` (240-244). -/
def graphemeInput (I : CpIter) (fuel : Nat) : InputIter GIter Grapheme where
  ne a b := do let r ← a.eqG I fuel b; pure (!r)
  deref g := .ok (⟨g.where_, g.endOf⟩, g)
  inc g := g.inc I fuel

/-- basic_encodedstring.hpp:152-156 `grapheme_begin()` of a text occupying positions b..e. -/
def graphemeBegin (I : CpIter) (fuel b e : Nat) : Res GIter := gBegin I fuel b e

/-- basic_encodedstring.hpp:157-162 `grapheme_end()`. -/
def graphemeEnd (I : CpIter) (fuel b e : Nat) : Res GIter := gAt I fuel b e e

/-- The documented usage: `u5e::filter(s.grapheme_begin(), s.grapheme_end(), out, op)`
(examples/normalization_form_c.cpp:23-25). -/
def filterGraphemes (I : CpIter) (fuel b e : Nat) (out : β) (op : Grapheme → β → Res (Int × β)) :
    Res (Int × β) := do
  let g ← graphemeBegin I fuel b e
  let z ← graphemeEnd I fuel b e
  filter (graphemeInput I fuel) fuel g z out op

/-- Reading one grapheme with its codepoint iterators:
`for (it = g.codepoint_begin(); it != g.codepoint_end(); it++) out.push_back(*it)`, appending the
codepoints read as one more entry of `out`; returns 1. A user-side operation, used to observe the
segmentation (cf. examples/grapheme_iteration.cpp:31-40). -/
def collectGrapheme (I : CpIter) (fuel : Nat) (g : Grapheme) (out : List (List Int)) :
    Res (Int × List (List Int)) := do
  let (_, cs) ← filter I.input fuel g.first g.last ([] : List Int) (fun c o => .ok (1, o ++ [c]))
  pure (1, out ++ [cs])

/-- What `std::basic_string::append(first, last)` reads from a pair of codepoint iterators:
`for (; first != last; ++first) … *first …` (basic_encodedstring.hpp:196-197). -/
def readRange (I : CpIter) (last : Nat) : Nat → Nat → Res (List Int)
  | 0, _ => .tmo
  | fuel + 1, p => do
    let fin ← I.eq p last
    if fin then pure []
    else
      let (c, p1) ← I.deref p
      let p2 ← I.inc p1
      let rest ← readRange I last fuel p2
      pure (c :: rest)

/-- basic_encodedstring.hpp:191-205 `append(grapheme_iterator& first, grapheme_iterator& last)` on a
utf32ne string: `native_string.append((*first).codepoint_begin(), (*last).codepoint_begin())`, whose
iterators are the native ones. -/
def appendGraphemes32 (I : CpIter) (fuel : Nat) (out : List Int) (first last : GIter) :
    Res (List Int) := do
  let cs ← readRange I last.where_ fuel first.where_
  pure (out ++ cs)

/-- basic_encodedstring.hpp:191-205 on a UTF-8 string: the same native `append` receives *codepoint*
iterators, so each codepoint is converted to one `char` (codepoint.hpp `operator int`, then narrowing
to the low eight bits). -/
def appendGraphemes8 (I : CpIter) (fuel : Nat) (out : List Octet) (first last : GIter) :
    Res (List Octet) := do
  let cs ← readRange I last.where_ fuel first.where_
  pure (out ++ cs.map fun c => UInt8.ofNat (c % 256).toNat)

end U5e
