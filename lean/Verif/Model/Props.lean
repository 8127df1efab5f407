import Verif.Model.Res
import Verif.Data.Ccc
import Verif.Data.Dec
import Verif.Data.Kdec
import Verif.Data.Comp
import Verif.Data.Gcb
/-!
# Model of src/u5e/props/*.cpp

Each look-up is `bsearch` over a table with a three-way comparison function. The tables are in
`Data/*` (copied verbatim). Arguments are C++ `int`s (`Int`), table entries are non-negative.
-/
namespace U5e
open Data

/-- `bsearch` of the C library (glibc's loop: `l = 0, u = n; while (l < u) { i = (l+u)/2; … }`), as
called in e.g. src/u5e/props/canonical_combining_class.cpp:36-39. `cmp x` is the sign returned by
the comparison function for (key, x): `.lt` = negative. Reading outside the array is `ub`, running out
of fuel `tmo`; `ok none` is NULL. -/
def bsearchLoop (cmp : α → Ordering) (t : List α) : Nat → Nat → Nat → Res (Option α)
  | 0, _, _ => .tmo
  | fuel + 1, l, u =>
    if l < u then
      let i := (l + u) / 2
      match t[i]? with
      | none => .ub
      | some x =>
        match cmp x with
        | .lt => bsearchLoop cmp t fuel l i
        | .gt => bsearchLoop cmp t fuel (i + 1) u
        | .eq => .ok (some x)
    else .ok none

/-- `bsearch(key, base, nmemb, size, compar)` with all its outcomes; see `bsearchLoop`. -/
def bsearchRes (cmp : α → Ordering) (t : List α) : Res (Option α) :=
  bsearchLoop cmp t (t.length + 1) 0 t.length

/-- `bsearch(key, base, nmemb, size, compar)`, e.g. src/u5e/props/canonical_combining_class.cpp:36-39, as
used by the look-ups below. Simplification: the outcomes `ub` and `tmo` are not passed on to the callers;
theorem C27_search_defined shows that `bsearchRes` has neither, for any comparison and any array. -/
def bsearch (cmp : α → Ordering) (t : List α) : Option α :=
  match bsearchRes cmp t with
  | .ok r => r
  | .ub => none
  | .tmo => none

/-- `elem[i]` of a row; all rows are long enough for the indices used (theorem C27_row_shapes).
src/u5e/props/canonical_combining_class.cpp:18-31. -/
def elemAt (row : List Nat) (i : Nat) : Int := ((row[i]?).getD 0 : Nat)

/-- src/u5e/props/canonical_combining_class.cpp:17-30 `compare_value_to_row` (the same function is in
canonical_decomposition_mapping.cpp:16-29 and
compatibility_and_canonical_decomposition_mapping.cpp:16-29). -/
def compareValueToRow (key : Int) (row : List Nat) : Ordering :=
  if key < elemAt row 0 then .lt
  else if key > elemAt row 0 then .gt
  else .eq

/-- src/u5e/props/canonical_combining_class.cpp:34-46 `canonical_combining_class::resolve`. -/
def cccResolve (input : Int) : Int :=
  match bsearch (compareValueToRow input) cccTable with
  | none => 0
  | some row => elemAt row 1

/-- src/u5e/props/canonical_decomposition_mapping.cpp:33-46
`canonical_decomposition_mapping::resolve`: NULL, or a pointer to the row after its first element;
the pointer is modelled as the list of ints that can be read from it. -/
def decResolve (input : Int) : Option (List Int) :=
  match bsearch (compareValueToRow input) decTable with
  | none => none
  | some row => some (row.tail.map Int.ofNat)

/-- src/u5e/props/compatibility_and_canonical_decomposition_mapping.cpp:33-47
`compatibility_and_canonical_decomposition_mapping::resolve`; pointer as in `decResolve`. -/
def kdecResolve (input : Int) : Option (List Int) :=
  match bsearch (compareValueToRow input) kdecTable with
  | none => none
  | some row => some (row.tail.map Int.ofNat)

/-- src/u5e/props/canonical_composition_mapping.cpp:16-35 `compare_value_to_row` (two keys). -/
def comparePairToRow (a b : Int) (row : List Nat) : Ordering :=
  if a < elemAt row 0 then .lt
  else if a > elemAt row 0 then .gt
  else if b < elemAt row 1 then .lt
  else if b > elemAt row 1 then .gt
  else .eq

/-- src/u5e/props/canonical_composition_mapping.cpp:39-53 `canonical_composition_mapping::resolve`:
`some c` = returns true with `*r_composed = c`. -/
def compResolve (a b : Int) : Option Int :=
  match bsearch (comparePairToRow a b) compTable with
  | none => none
  | some row => some (elemAt row 2)

/-- src/u5e/props/grapheme_cluster_break.cpp:19-31 `compare_value_to_range`. -/
def compareValueToRange (key : Int) (r : Nat × Nat × GCB) : Ordering :=
  if key < (r.1 : Int) then .lt
  else if key ≥ (r.1 : Int) ∧ key ≤ (r.2.1 : Int) then .eq
  else .gt

/-- src/u5e/props/grapheme_cluster_break.cpp:39-51 `grapheme_cluster_break::resolve`. -/
def gcbResolve (c : Int) : GCB :=
  match bsearch (compareValueToRange c) gcbTable with
  | some r => r.2.2
  | none => .OTHER

end U5e
