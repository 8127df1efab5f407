import Verif.Model.Props
import Verif.Model.Normalize
/-!
# The look-ups in memory

`Model/Props` reads the tables as lists of rows. In the code a table is an array of `std::initializer_list<const int>`
objects somewhere in static storage, each object holds a pointer to its ints and their number, and the look-ups treat
the address of such an object as the address of a pointer to int. Here the look-ups run on a memory, with the placement
of the objects, their layout and the C library's `bsearch` as parameters.
-/
namespace U5e

/-- What an address holds. src/u5e/props/canonical_combining_class.cpp:7-15,
src/u5e/props/grapheme_cluster_break.cpp:7-18. -/
inductive Cell where
  | int (v : Int)
  | ptr (a : Nat)
  | len (n : Nat)
  | gcb (v : GCB)
  deriving DecidableEq

/-- Memory: the object that begins at an address, if one does. 0 is NULL. Simplification: objects of scalar type only,
each at its address, whose octets are not modelled. src/u5e/props/canonical_combining_class.cpp:33-46. -/
abbrev Store := Nat → Option Cell

/-- Layout: `sizeof(int)`; of `std::initializer_list<const int>` the size and the offsets of the pointer to the elements
and of their number (libstdc++: 16, 0, 8); of `range_data` the size and the offsets of its members.
src/u5e/props/canonical_combining_class.cpp:38, src/u5e/props/grapheme_cluster_break.cpp:7-11, 43. -/
structure Abi where
  int : Nat
  list : Nat
  array : Nat
  length : Nat
  range : Nat
  start : Nat
  stop : Nat
  value : Nat

/-- libstdc++ on x86-64. src/u5e/props/canonical_combining_class.cpp:7-8. -/
def x64 : Abi := ⟨4, 16, 0, 8, 12, 0, 4, 8⟩

namespace Store

/-- Reading an int through a pointer. src/u5e/props/canonical_combining_class.cpp:22, 43. -/
def int (s : Store) (a : Nat) : Res Int :=
  match s a with
  | some (.int v) => .ok v
  | _ => .ub

/-- Reading a pointer through a pointer to pointer. src/u5e/props/canonical_combining_class.cpp:21, 42. -/
def ptr (s : Store) (a : Nat) : Res Nat :=
  match s a with
  | some (.ptr v) => .ok v
  | _ => .ub

/-- Reading `elem->value`. src/u5e/props/grapheme_cluster_break.cpp:47. -/
def gcb (s : Store) (a : Nat) : Res GCB :=
  match s a with
  | some (.gcb v) => .ok v
  | _ => .ub

/-- A local variable gets its value. src/u5e/props/canonical_composition_mapping.cpp:40,
src/u5e/props/grapheme_cluster_break.cpp:41. -/
def put (s : Store) (a : Nat) (c : Cell) : Store := fun x => if x = a then some c else s x

end Store

/-- `bsearch(key, base, nmemb, size, compar)`: comparison with the key by address of the element, `base`, `nmemb`,
`size`; gives the address of an element or 0. src/u5e/props/canonical_combining_class.cpp:36-39. -/
abbrev BsearchFn := (Nat → Res Ordering) → Nat → Nat → Nat → Res Nat

/-- The loop of glibc's `bsearch`, on addresses; see `bsearchLoop`. src/u5e/props/canonical_combining_class.cpp:36-39. -/
def glibcLoop (cmp : Nat → Res Ordering) (base size : Nat) : Nat → Nat → Nat → Res Nat
  | 0, _, _ => .tmo
  | fuel + 1, l, u =>
    if l < u then do
      let i := (l + u) / 2
      match ← cmp (base + i * size) with
      | .lt => glibcLoop cmp base size fuel l i
      | .gt => glibcLoop cmp base size fuel (i + 1) u
      | .eq => pure (base + i * size)
    else pure 0

/-- glibc's `bsearch`. src/u5e/props/canonical_combining_class.cpp:36-39. -/
def glibc : BsearchFn := fun cmp base n size => glibcLoop cmp base size (n + 1) 0 n

/-- src/u5e/props/canonical_combining_class.cpp:17-30 `compare_value_to_row(pkey, pelem)`; the same function is in
canonical_decomposition_mapping.cpp:16-29 and compatibility_and_canonical_decomposition_mapping.cpp:16-29. The
address of an `initializer_list` object is read as a pointer (line 20-21). -/
def compareRowAt (s : Store) (pkey pelem : Nat) : Res Ordering := do
  let elem ← s.ptr pelem
  let k ← s.int pkey
  let e ← s.int elem
  if k < e then pure .lt
  else if k > e then pure .gt
  else pure .eq

/-- src/u5e/props/canonical_combining_class.cpp:34-46 `canonical_combining_class::resolve`. `frame` is the address of
the parameter, `base` is `data.begin()`, `n` is `data.size()`. -/
def cccResolveAt (L : Abi) (lib : BsearchFn) (s : Store) (frame base n : Nat) (input : Int) : Res Int := do
  let s := s.put frame (.int input)
  let elem ← lib (compareRowAt s frame) base n L.list
  if elem = 0 then pure 0
  else
    let it ← s.ptr elem
    s.int (it + 1 * L.int)

/-- src/u5e/props/canonical_decomposition_mapping.cpp:33-46 `canonical_decomposition_mapping::resolve` and
src/u5e/props/compatibility_and_canonical_decomposition_mapping.cpp:32-47
`compatibility_and_canonical_decomposition_mapping::resolve` (the same text, another table): the pointer returned. -/
def decResolveAt (L : Abi) (lib : BsearchFn) (s : Store) (frame base n : Nat) (input : Int) : Res Nat := do
  let s := s.put frame (.int input)
  let elem ← lib (compareRowAt s frame) base n L.list
  if elem = 0 then pure 0
  else
    let it ← s.ptr elem
    pure (it + L.int)

/-- src/u5e/props/canonical_composition_mapping.cpp:16-35 `compare_value_to_row(pkey, pelem)`, two keys. -/
def comparePairAt (L : Abi) (s : Store) (pkey pelem : Nat) : Res Ordering := do
  let elem ← s.ptr pelem
  let k0 ← s.int pkey
  let e0 ← s.int elem
  if k0 < e0 then pure .lt
  else if k0 > e0 then pure .gt
  else
    let k1 ← s.int (pkey + 1 * L.int)
    let e1 ← s.int (elem + 1 * L.int)
    if k1 < e1 then pure .lt
    else if k1 > e1 then pure .gt
    else pure .eq

/-- src/u5e/props/canonical_composition_mapping.cpp:39-53 `canonical_composition_mapping::resolve(a, b, r_composed)`:
`some c` = returns true with `*r_composed = c`. `frame` is the address of `input[0]`. -/
def compResolveAt (L : Abi) (lib : BsearchFn) (s : Store) (frame base n : Nat) (a b : Int) : Res (Option Int) := do
  let s := ((s.put frame (.int a)).put (frame + 1 * L.int) (.int b)).put (frame + 2 * L.int) (.int 0)
  let elem ← lib (comparePairAt L s frame) base n L.list
  if elem = 0 then pure none
  else
    let it ← s.ptr elem
    let c ← s.int (it + 2 * L.int)
    pure (some c)

/-- src/u5e/props/grapheme_cluster_break.cpp:20-32 `compare_value_to_range(pkey, pelem)`. -/
def compareRangeAt (L : Abi) (s : Store) (pkey pelem : Nat) : Res Ordering := do
  let k ← s.int (pkey + L.start)
  let a ← s.int (pelem + L.start)
  if k < a then pure .lt
  else
    let b ← s.int (pelem + L.stop)
    if k ≥ a ∧ k ≤ b then pure .eq
    else pure .gt

/-- src/u5e/props/grapheme_cluster_break.cpp:39-51 `grapheme_cluster_break::resolve`. `frame` is the address of `key`,
`base` that of `ranges`. -/
def gcbResolveAt (L : Abi) (lib : BsearchFn) (s : Store) (frame base n : Nat) (c : Int) : Res GCB := do
  let s := ((s.put (frame + L.start) (.int c)).put (frame + L.stop) (.int c)).put (frame + L.value) (.gcb .OTHER)
  let elem ← lib (compareRangeAt L s frame) base n L.range
  if elem ≠ 0 then s.gcb (elem + L.value)
  else pure .OTHER

/-- codepoint_decomposition.hpp:50-53 `while (*end != 0) { end++; count++; }`. -/
def countAt (L : Abi) (s : Store) : Nat → Nat → Int → Res Int
  | 0, _, _ => .tmo
  | fuel + 1, end_, count => do
    let x ← s.int end_
    if x ≠ 0 then
      let count1 ← addInt count 1
      countAt L s fuel (end_ + L.int) count1
    else pure count

/-- The `n` ints from `p`, read by the append through the view. codepoint_decomposition.hpp:55-60. -/
def readInts (L : Abi) (s : Store) : Nat → Nat → Res (List Int)
  | 0, _ => pure []
  | n + 1, p => do
    let x ← s.int p
    let rest ← readInts L s n (p + L.int)
    pure (x :: rest)

/-- codepoint_decomposition.hpp:35-62 `codepoint_decomposition(input, output, resolver)` with a utf32ne output string,
for the resolver `decResolveAt` on the table at `base`; `here` is the address of `input.value`, `frame` that of the
parameter of the resolver. canonical_decomposition.hpp:31-37,
compatibility_and_canonical_decomposition.hpp:30-37. -/
def decompositionAt (L : Abi) (lib : BsearchFn) (s : Store) (fuel here frame base n : Nat) (input : Int)
    (output : List Int) : Res (Int × List Int) := do
  let s := s.put here (.int input)
  let mapping ← decResolveAt L lib s frame base n input
  if mapping = 0 then do
    let cs ← readInts L s 1 here
    pure (1, output ++ cs)
  else do
    let count ← countAt L s fuel mapping 0
    let cs ← readInts L s count.toNat mapping
    pure (count, output ++ cs)

end U5e
