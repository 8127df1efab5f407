import Verif.Model.StdSort
/-!
# The same `std::sort`, recording what it compares

The functions of Model/StdSort.lean once more; each call of the comparator is recorded. `Proofs/SortLog` proves that
forgetting the record gives back the functions there.
-/
namespace U5e

/-- Outcome of running modelled C++ code, and the pairs compared up to there. Not in /repo: carrier of this file. -/
structure Log (α : Type) where
  res : Res α
  pairs : List (Int × Int)

namespace Log

/-- Sequencing: nothing runs after `ub` or `tmo`. Carrier of this file. -/
@[inline] def bind (x : Log α) (f : α → Log β) : Log β :=
  match x.res with
  | .ok a => ⟨(f a).res, x.pairs ++ (f a).pairs⟩
  | .ub => ⟨.ub, x.pairs⟩
  | .tmo => ⟨.tmo, x.pairs⟩

instance : Monad Log where
  pure a := ⟨.ok a, []⟩
  bind := bind

/-- A computation that compares nothing. Carrier of this file. -/
def free (r : Res α) : Log α := ⟨r, []⟩

end Log
namespace SortLog

/-- A call of the comparator. normalization_form_d.hpp:34-35, canonical_combining_order.hpp:13-18. -/
def compare (lt : Int → Int → Bool) (a b : Int) : Log Bool := ⟨.ok (lt a b), [(a, b)]⟩

/-- `comp(i, j)` on positions. normalization_form_d.hpp:34-35, bits/predefined_ops.h `_Iter_comp_iter`. -/
def lessAt (lt : Int → Int → Bool) (l : List Int) (i j : Nat) : Log Bool := do
  let a ← .free (rd32 l i)
  let b ← .free (rd32 l j)
  compare lt a b

/-- `std::iter_swap`. normalization_form_d.hpp:34-35, bits/stl_algobase.h. -/
def swapAt (l : List Int) (i j : Nat) : Log (List Int) := do
  let a ← .free (rd32 l i)
  let b ← .free (rd32 l j)
  let l1 ← .free (wr32 l i b)
  .free (wr32 l1 j a)

/-- The loop of `__unguarded_linear_insert`: `while (comp(val, next)) { *last = *next; last = next; --next; }` and
`*last = val`; the last argument is `last`. normalization_form_d.hpp:34-35, bits/stl_algo.h:1798-1805. -/
def linearInsert (lt : Int → Int → Bool) (val : Int) : List Int → Nat → Log (List Int)
  | _, 0 => .free .ub
  | l, next + 1 => do
    let x ← .free (rd32 l next)
    let c ← compare lt val x
    if c then do
      let l1 ← .free (wr32 l (next + 1) x)
      linearInsert lt val l1 next
    else .free (wr32 l (next + 1) val)

/-- `__unguarded_linear_insert`. normalization_form_d.hpp:34-35, bits/stl_algo.h:1792-1806. -/
def unguardedLinearInsert (lt : Int → Int → Bool) (l : List Int) (last : Nat) : Log (List Int) := do
  let val ← .free (rd32 l last)
  linearInsert lt val l last

/-- `std::move_backward(first, i, i + 1)`, `first` the beginning: each element one to the right, from the right.
normalization_form_d.hpp:34-35, bits/stl_algo.h:1823. -/
def moveBackward : List Int → Nat → Log (List Int)
  | l, 0 => pure l
  | l, k + 1 => do
    let x ← .free (rd32 l k)
    let l1 ← .free (wr32 l (k + 1) x)
    moveBackward l1 k

/-- One round of `__insertion_sort`. normalization_form_d.hpp:34-35, bits/stl_algo.h:1819-1828. -/
def insertionRound (lt : Int → Int → Bool) (l : List Int) (i : Nat) : Log (List Int) := do
  let c ← lessAt lt l i 0
  if c then do
    let val ← .free (rd32 l i)
    let l1 ← moveBackward l i
    .free (wr32 l1 0 val)
  else unguardedLinearInsert lt l i

/-- The loop of `__insertion_sort` from `i`, for `n` rounds. normalization_form_d.hpp:34-35,
bits/stl_algo.h:1817-1829. -/
def insertionLoop (lt : Int → Int → Bool) : Nat → List Int → Nat → Log (List Int)
  | 0, l, _ => pure l
  | n + 1, l, i => do
    let l1 ← insertionRound lt l i
    insertionLoop lt n l1 (i + 1)

/-- `__insertion_sort(first, first + n)`. normalization_form_d.hpp:34-35, bits/stl_algo.h:1812-1830. -/
def insertionSort (lt : Int → Int → Bool) (l : List Int) (n : Nat) : Log (List Int) :=
  if n = 0 then pure l else insertionLoop lt (n - 1) l 1

/-- `__unguarded_insertion_sort` from `i`, for `n` rounds. normalization_form_d.hpp:34-35,
bits/stl_algo.h:1836-1842. -/
def unguardedInsertionSort (lt : Int → Int → Bool) : Nat → List Int → Nat → Log (List Int)
  | 0, l, _ => pure l
  | n + 1, l, i => do
    let l1 ← unguardedLinearInsert lt l i
    unguardedInsertionSort lt n l1 (i + 1)

/-- `__final_insertion_sort`; `_S_threshold` is 16. normalization_form_d.hpp:34-35, bits/stl_algo.h:1854-1865. -/
def finalInsertionSort (lt : Int → Int → Bool) (l : List Int) : Log (List Int) :=
  if l.length > 16 then do
    let l1 ← insertionSort lt l 16
    unguardedInsertionSort lt (l.length - 16) l1 16
  else insertionSort lt l l.length

/-- `__move_median_to_first`. normalization_form_d.hpp:34-35, bits/stl_algo.h:85-102. -/
def moveMedianToFirst (lt : Int → Int → Bool) (l : List Int) (result a b c : Nat) : Log (List Int) := do
  let ab ← lessAt lt l a b
  if ab then do
    let bc ← lessAt lt l b c
    if bc then swapAt l result b
    else do
      let ac ← lessAt lt l a c
      if ac then swapAt l result c else swapAt l result a
  else do
    let ac ← lessAt lt l a c
    if ac then swapAt l result a
    else do
      let bc ← lessAt lt l b c
      if bc then swapAt l result c else swapAt l result b

/-- `while (comp(first, pivot)) ++first;`. normalization_form_d.hpp:34-35, bits/stl_algo.h:1877-1878. -/
def scanUp (lt : Int → Int → Bool) (l : List Int) (pivot : Nat) : Nat → Nat → Log Nat
  | 0, _ => .free .tmo
  | fuel + 1, first => do
    let c ← lessAt lt l first pivot
    if c then scanUp lt l pivot fuel (first + 1) else pure first

/-- `while (comp(pivot, last)) --last;`. normalization_form_d.hpp:34-35, bits/stl_algo.h:1880-1881. -/
def scanDown (lt : Int → Int → Bool) (l : List Int) (pivot : Nat) : Nat → Log Nat
  | 0 => do
    let c ← lessAt lt l pivot 0
    if c then .free .ub else pure 0
  | last + 1 => do
    let c ← lessAt lt l pivot (last + 1)
    if c then scanDown lt l pivot last else pure (last + 1)

/-- `__unguarded_partition`: the range afterwards and the returned position. normalization_form_d.hpp:34-35,
bits/stl_algo.h:1871-1887. -/
def unguardedPartition (lt : Int → Int → Bool) (pivot : Nat) : Nat → List Int → Nat → Nat → Log (List Int × Nat)
  | 0, _, _, _ => .free .tmo
  | fuel + 1, l, first, last => do
    let f ← scanUp lt l pivot (l.length + 1) first
    let e ← .free (retreat last)
    let e ← scanDown lt l pivot e
    if f < e then do
      let l1 ← swapAt l f e
      unguardedPartition lt pivot fuel l1 (f + 1) e
    else pure (l, f)

/-- `__unguarded_partition_pivot`. normalization_form_d.hpp:34-35, bits/stl_algo.h:1893-1900. -/
def partitionPivot (lt : Int → Int → Bool) (l : List Int) (first last : Nat) : Log (List Int × Nat) := do
  let l1 ← moveMedianToFirst lt l first (first + 1) (first + (last - first) / 2) (last - 1)
  unguardedPartition lt first (l.length + 1) l1 (first + 1) last

/-- `__push_heap`. normalization_form_d.hpp:34-35, bits/stl_heap.h:134-147. -/
def pushHeap (lt : Int → Int → Bool) (first top : Nat) (value : Int) : Nat → List Int → Nat → Log (List Int)
  | 0, _, _ => .free .tmo
  | fuel + 1, l, hole =>
    if hole > top then do
      let x ← .free (rd32 l (first + (hole - 1) / 2))
      let c ← compare lt x value
      if c then do
        let l1 ← .free (wr32 l (first + hole) x)
        pushHeap lt first top value fuel l1 ((hole - 1) / 2)
      else .free (wr32 l (first + hole) value)
    else .free (wr32 l (first + hole) value)

/-- `__adjust_heap` up to the call of `__push_heap`: the range and `holeIndex` afterwards. (`secondChild` and
`holeIndex` are equal whenever the loop condition is evaluated, and after the loop.) normalization_form_d.hpp:34-35,
bits/stl_heap.h:224-244. -/
def siftDown (lt : Int → Int → Bool) (first len : Nat) : Nat → List Int → Nat → Log (List Int × Nat)
  | 0, _, _ => .free .tmo
  | fuel + 1, l, hole =>
    if hole < (len - 1) / 2 then do
      let c ← lessAt lt l (first + 2 * (hole + 1)) (first + (2 * (hole + 1) - 1))
      let child := if c then 2 * (hole + 1) - 1 else 2 * (hole + 1)
      let x ← .free (rd32 l (first + child))
      let l1 ← .free (wr32 l (first + hole) x)
      siftDown lt first len fuel l1 child
    else if len % 2 = 0 ∧ hole = (len - 2) / 2 then do
      let x ← .free (rd32 l (first + (2 * (hole + 1) - 1)))
      let l1 ← .free (wr32 l (first + hole) x)
      pure (l1, 2 * (hole + 1) - 1)
    else pure (l, hole)

/-- `__adjust_heap`. normalization_form_d.hpp:34-35, bits/stl_heap.h:224-249. -/
def adjustHeap (lt : Int → Int → Bool) (first hole len : Nat) (value : Int) (l : List Int) : Log (List Int) := do
  let (l1, h) ← siftDown lt first len (len + 1) l hole
  pushHeap lt first hole value (len + 1) l1 h

/-- The loop of `__make_heap` from `parent`. normalization_form_d.hpp:34-35, bits/stl_heap.h:353-361. -/
def makeHeapLoop (lt : Int → Int → Bool) (first len : Nat) : Nat → List Int → Log (List Int)
  | 0, l => do
    let value ← .free (rd32 l (first + 0))
    adjustHeap lt first 0 len value l
  | parent + 1, l => do
    let value ← .free (rd32 l (first + (parent + 1)))
    let l1 ← adjustHeap lt first (parent + 1) len value l
    makeHeapLoop lt first len parent l1

/-- `__make_heap`. normalization_form_d.hpp:34-35, bits/stl_heap.h:339-362. -/
def makeHeap (lt : Int → Int → Bool) (first len : Nat) (l : List Int) : Log (List Int) :=
  if len < 2 then pure l else makeHeapLoop lt first len ((len - 2) / 2) l

/-- `__sort_heap` with `__pop_heap`; the number is `last - first`. normalization_form_d.hpp:34-35,
bits/stl_heap.h:418-427, 254-268. -/
def sortHeap (lt : Int → Int → Bool) (first : Nat) : Nat → List Int → Log (List Int)
  | 0, l => pure l
  | 1, l => pure l
  | n + 2, l => do
    let value ← .free (rd32 l (first + (n + 1)))
    let x ← .free (rd32 l first)
    let l1 ← .free (wr32 l (first + (n + 1)) x)
    let l2 ← adjustHeap lt first 0 (n + 1) value l1
    sortHeap lt first (n + 1) l2

/-- `__partial_sort(first, last, last)`; the loop of `__heap_select` from `last` to `last` does nothing.
normalization_form_d.hpp:34-35, bits/stl_algo.h:1905-1912, 1631-1639. -/
def partialSort (lt : Int → Int → Bool) (l : List Int) (first last : Nat) : Log (List Int) := do
  let l1 ← makeHeap lt first (last - first) l
  sortHeap lt first (last - first) l1

/-- `__introsort_loop`. normalization_form_d.hpp:34-35, bits/stl_algo.h:1918-1935. -/
def introsortLoop (lt : Int → Int → Bool) : Nat → List Int → Nat → Nat → Nat → Log (List Int)
  | 0, _, _, _, _ => .free .tmo
  | fuel + 1, l, first, last, depth =>
    if last - first > 16 then
      match depth with
      | 0 => partialSort lt l first last
      | depth + 1 => do
        let (l1, cut) ← partitionPivot lt l first last
        let l2 ← introsortLoop lt fuel l1 cut last depth
        introsortLoop lt fuel l2 first cut depth
    else pure l

/-- `std::sort(s.begin(), s.end(), lt)`; `__lg` is the logarithm to base 2, rounded down.
normalization_form_d.hpp:34-35, bits/stl_algo.h:1941-1952. -/
def stdSort (lt : Int → Int → Bool) (l : List Int) : Log (List Int) :=
  if l.length = 0 then pure l
  else do
    let l1 ← introsortLoop lt (l.length + 1) l 0 l.length (l.length.log2 * 2)
    finalInsertionSort lt l1

end SortLog

/-- The pairs of codepoints libstdc++'s `std::sort` compares by combining class. normalization_form_d.hpp:34-35. -/
def libCompared (l : List Int) : List (Int × Int) := (SortLog.stdSort canonicalCombiningOrder l).pairs

end U5e
