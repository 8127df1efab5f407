import Verif.Model.History
/-!
# Exceptions

Every `append` to a native string may throw (`std::bad_alloc`, `std::length_error`), and so may copying one; nothing
else the library does allocates. The library has no `try`, so the first throw ends the operation: what matters is
which of the calls it is. `k` is the number of calls that succeed before one throws. A native `append` that throws
has no effect ([string.append], strong guarantee).

The functions here are those of Model/{EncodedString,Filter,Normalize,History}.lean, with this exit.
-/
namespace U5e

/-- How a C++ call ends: it returns `a`, leaving the object it writes to in state `out` and `k` further calls
that succeed; or an exception leaves it, with the object in state `out`. Carrier type of the model. -/
inductive Call (γ β : Type) where
  | ret (a : γ) (out : β) (k : Nat)
  | threw (out : β)
  deriving DecidableEq

/-- filter.hpp:49-52, the loop of `filter`; an exception of `operation` leaves `filter`. -/
def filterLoopX (it : InputIter σ α) (op : α → β → Nat → Res (Call Int β)) (to : σ) :
    Nat → σ → β → Int → Nat → Res (Call Int β)
  | 0, _, _, _, _ => .tmo
  | fuel + 1, from_, out, counter, k => do
    let more ← it.ne from_ to
    if more then
      let (x, from1) ← it.deref from_
      match ← op x out k with
      | .threw out1 => pure (.threw out1)
      | .ret n out1 k1 =>
        let counter1 ← addInt counter n
        let from2 ← it.inc from1
        filterLoopX it op to fuel from2 out1 counter1 k1
    else pure (.ret counter out k)

/-- filter.hpp:43-54 `filter`. -/
def filterX (it : InputIter σ α) (fuel : Nat) (from_ to : σ) (out : β) (op : α → β → Nat → Res (Call Int β))
    (k : Nat) : Res (Call Int β) :=
  filterLoopX it op to fuel from_ out 0 k

/-- `native_string.append(…)` that would give `new`. basic_encodedstring.hpp:178-181. -/
def appendCall (a : γ) (old new : β) : Nat → Call γ β
  | 0 => .threw old
  | k + 1 => .ret a new k

/-- codepoint_decomposition.hpp:35-62 `codepoint_decomposition(input, output, resolver)`: one append. -/
def codepointDecompositionX (resolver : Int → Option (List Int)) (input : Int) (output : List Int) (k : Nat) :
    Res (Call Int (List Int)) :=
  match resolver input with
  | none => do
    let out ← appendRange32 output [input] 0 1
    pure (appendCall 1 output out k)
  | some mapping => do
    let count ← mappingCount mapping 0
    let out ← appendRange32 output mapping 0 count.toNat
    pure (appendCall count output out k)

/-- `output.append_from_utf32ne(first, last)` (basic_encodedstring.hpp:210-222) of the output string type. -/
abbrev AppendXFn (β : Type) := β → List Int → Nat → Res (Call Unit β)

/-- utf32ne.hpp:38-43: one append of the whole range. -/
def append32X : AppendXFn (List Int) := fun out cs k => .ok (appendCall () out (out ++ cs) k)

/-- utf8.hpp:47-62: one append per codepoint. -/
def appendFromUtf32X (out : List Octet) : List (BitVec 32) → Nat → Res (Call Unit (List Octet))
  | [], k => pure (.ret () out k)
  | c :: cs, k => do
    let o ← encodeOne c
    match appendCall () out (out ++ o) k with
    | .threw out1 => pure (.threw out1)
    | .ret _ out1 k1 => appendFromUtf32X out1 cs k1

/-- utf8.hpp:47-62, see `appendFromUtf32X`. -/
def append8X : AppendXFn (List Octet) := fun out cs k => appendFromUtf32X out (cs.map (BitVec.ofInt 32)) k

/-- normalization_form_d.hpp:23-44 `normalization_form_d(grapheme, output)`: an exception while decomposing
destroys `decomposed` and leaves `output` alone. -/
def normalizationFormDX (sort : SortFn) (append : AppendXFn β) (I : CpIter) (fuel : Nat) (g : Grapheme)
    (output : β) (k : Nat) : Res (Call Int β) := do
  match ← filterX I.input fuel g.first g.last [] (codepointDecompositionX decResolve) k with
  | .threw _ => pure (.threw output)
  | .ret count decomposed k1 =>
    let sorted := sort canonicalCombiningOrder decomposed
    match ← append output sorted k1 with
    | .threw out => pure (.threw out)
    | .ret _ out k2 => pure (.ret count out k2)

/-- normalization_form_kd.hpp:23-47 `normalization_form_kd(grapheme, output)`. -/
def normalizationFormKDX (sort : SortFn) (append : AppendXFn β) (I : CpIter) (fuel : Nat) (g : Grapheme)
    (output : β) (k : Nat) : Res (Call Int β) := do
  match ← filterX I.input fuel g.first g.last [] (codepointDecompositionX kdecResolve) k with
  | .threw _ => pure (.threw output)
  | .ret count decomposed k1 =>
    let sorted := sort canonicalCombiningOrder decomposed
    match ← append output sorted k1 with
    | .threw out => pure (.threw out)
    | .ret _ out k2 => pure (.ret count out k2)

/-- normalization_form_c.hpp:24-52 `normalization_form_c(grapheme, output)`. -/
def normalizationFormCX (sort : SortFn) (append : AppendXFn β) (I : CpIter) (fuel : Nat) (g : Grapheme)
    (output : β) (k : Nat) : Res (Call Int β) := do
  match ← filterX I.input fuel g.first g.last [] (codepointDecompositionX decResolve) k with
  | .threw _ => pure (.threw output)
  | .ret count decomposed k1 =>
    let sorted := sort canonicalCombiningOrder decomposed
    let (data, oi, compositions) ← canonicalComposition (sorted.length + 1) sorted 0
    match ← append output (data.take oi) k1 with
    | .threw out => pure (.threw out)
    | .ret _ out k2 =>
      let r ← addInt count (-compositions)
      pure (.ret r out k2)

/-- normalization_form_kc.hpp:24-54 `normalization_form_kc(grapheme, output)`. -/
def normalizationFormKCX (sort : SortFn) (append : AppendXFn β) (I : CpIter) (fuel : Nat) (g : Grapheme)
    (output : β) (k : Nat) : Res (Call Int β) := do
  match ← filterX I.input fuel g.first g.last [] (codepointDecompositionX kdecResolve) k with
  | .threw _ => pure (.threw output)
  | .ret count decomposed k1 =>
    let sorted := sort canonicalCombiningOrder decomposed
    let (data, oi, compositions) ← canonicalComposition (sorted.length + 1) sorted 0
    match ← append output (data.take oi) k1 with
    | .threw out => pure (.threw out)
    | .ret _ out k2 =>
      let r ← addInt count (-compositions)
      pure (.ret r out k2)

/-- The function of a form: normalization_form_d.hpp:23-44, normalization_form_c.hpp:24-52,
normalization_form_kd.hpp:23-47, normalization_form_kc.hpp:24-54. -/
def Form.runX : Form → SortFn → AppendXFn β → CpIter → Nat → Grapheme → β → Nat → Res (Call Int β)
  | .D => normalizationFormDX
  | .C => normalizationFormCX
  | .KD => normalizationFormKDX
  | .KC => normalizationFormKCX

/-- `u5e::filter(s.grapheme_begin(), s.grapheme_end(), output, op)` (examples/normalization_form_c.cpp:23-25) when `op`
may throw. Grapheme iterators do not allocate. -/
def filterGraphemesX (I : CpIter) (fuel b e : Nat) (output : β) (op : Grapheme → β → Nat → Res (Call Int β))
    (k : Nat) : Res (Call Int β) := do
  let g ← graphemeBegin I fuel b e
  let z ← graphemeEnd I fuel b e
  filterX (graphemeInput I fuel) fuel g z output op k

/-- Normalizing a whole text (examples/normalization_form_c.cpp:23-25). -/
def normalizeTextX (form : CpIter → Nat → Grapheme → β → Nat → Res (Call Int β)) (I : CpIter) (fuel b e : Nat)
    (output : β) (k : Nat) : Res (Call Int β) :=
  filterGraphemesX I fuel b e output (form I fuel) k

/-- One statement of a program (Model/History.lean) when allocations can fail; `append` is the encoding's
`append_from_utf32ne`. Only copies and appends call something that can throw. basic_encodedstring.hpp:89-219. -/
def Encoding.stepX [DecidableEq α] (E : Encoding α) (append : AppendXFn (List α)) (sort : SortFn) (fuel : Nat)
    (σ : Nat → List α) (k : Nat) : Op → Res (Call Obs (Nat → List α))
  | .appendCps d v => do
    match ← append (σ d) v k with
    | .threw t => pure (.threw (upd σ d t))
    | .ret _ t k1 => pure (.ret .none (upd σ d t) k1)
  | .normalize F d s =>
    if d = s then .ub
    else do
      match ← normalizeTextX (F.runX sort append) (E.over (σ s)) fuel 0 (σ s).length (σ d) k with
      | .threw t => pure (.threw (upd σ d t))
      | .ret n t k1 => pure (.ret (.number n) (upd σ d t) k1)
  | .copy d s => do
    let (σ1, o) ← E.step sort fuel σ (.copy d s)
    pure (appendCall o σ σ1 k)
  | .appendRange d s i j => do
    let (σ1, o) ← E.step sort fuel σ (.appendRange d s i j)
    pure (appendCall o σ σ1 k)
  | .appendGraphemes d s i j => do
    let (σ1, o) ← E.step sort fuel σ (.appendGraphemes d s i j)
    pure (appendCall o σ σ1 k)
  | op => do
    let (σ1, o) ← E.step sort fuel σ op
    pure (.ret o σ1 k)

/-- A whole program up to its end or to the first exception: the strings then, what was printed, and whether it
ended by an exception. basic_encodedstring.hpp:89-219. -/
def Encoding.runX [DecidableEq α] (E : Encoding α) (append : AppendXFn (List α)) (sort : SortFn) (fuel : Nat) :
    (Nat → List α) → Nat → List Op → Res ((Nat → List α) × List Obs × Bool)
  | σ, _, [] => .ok (σ, [], false)
  | σ, k, op :: ops => do
    match ← E.stepX append sort fuel σ k op with
    | .threw σ1 => pure (σ1, [], true)
    | .ret o σ1 k1 =>
      let (σ2, os, t) ← Encoding.runX E append sort fuel σ1 k1 ops
      pure (σ2, o :: os, t)

end U5e
