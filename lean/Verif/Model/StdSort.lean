import Verif.Model.Normalize
/-!
# The `std::sort` the code is linked with

`std::sort` of normalization_form_d.hpp:34-35 (and the same lines of the other forms) is a parameter of
Model/Normalize.lean. This is the one of libstdc++ 13, function by function (bits/stl_algo.h, bits/stl_heap.h; not part
of /repo), for the range of all of a `std::basic_string<int>`: positions are counted from its beginning, an access at or
after its end or a step before its beginning is `ub`. `lt` is the comparator, canonical_combining_order.hpp:13-18.
-/
namespace U5e.StdSort

/-- `comp(i, j)` on positions. normalization_form_d.hpp:34-35, bits/predefined_ops.h `_Iter_comp_iter`. -/
def lessAt (lt : Int → Int → Bool) (l : List Int) (i j : Nat) : Res Bool := do
  let a ← rd32 l i
  let b ← rd32 l j
  pure (lt a b)

/-- `std::iter_swap`. normalization_form_d.hpp:34-35, bits/stl_algobase.h. -/
def swapAt (l : List Int) (i j : Nat) : Res (List Int) := do
  let a ← rd32 l i
  let b ← rd32 l j
  let l1 ← wr32 l i b
  wr32 l1 j a

/-- The loop of `__unguarded_linear_insert`: `while (comp(val, next)) { *last = *next; last = next; --next; }` and
`*last = val`; the last argument is `last`. normalization_form_d.hpp:34-35, bits/stl_algo.h:1798-1805. -/
def linearInsert (lt : Int → Int → Bool) (val : Int) : List Int → Nat → Res (List Int)
  | _, 0 => .ub
  | l, next + 1 => do
    let x ← rd32 l next
    if lt val x then do
      let l1 ← wr32 l (next + 1) x
      linearInsert lt val l1 next
    else wr32 l (next + 1) val

/-- `__unguarded_linear_insert`. normalization_form_d.hpp:34-35, bits/stl_algo.h:1792-1806. -/
def unguardedLinearInsert (lt : Int → Int → Bool) (l : List Int) (last : Nat) : Res (List Int) := do
  let val ← rd32 l last
  linearInsert lt val l last

/-- `std::move_backward(first, i, i + 1)`, `first` the beginning: each element one to the right, from the right.
normalization_form_d.hpp:34-35, bits/stl_algo.h:1823. -/
def moveBackward : List Int → Nat → Res (List Int)
  | l, 0 => pure l
  | l, k + 1 => do
    let x ← rd32 l k
    let l1 ← wr32 l (k + 1) x
    moveBackward l1 k

/-- One round of `__insertion_sort`. normalization_form_d.hpp:34-35, bits/stl_algo.h:1819-1828. -/
def insertionRound (lt : Int → Int → Bool) (l : List Int) (i : Nat) : Res (List Int) := do
  let c ← lessAt lt l i 0
  if c then do
    let val ← rd32 l i
    let l1 ← moveBackward l i
    wr32 l1 0 val
  else unguardedLinearInsert lt l i

/-- The loop of `__insertion_sort` from `i`, for `n` rounds. normalization_form_d.hpp:34-35,
bits/stl_algo.h:1817-1829. -/
def insertionLoop (lt : Int → Int → Bool) : Nat → List Int → Nat → Res (List Int)
  | 0, l, _ => pure l
  | n + 1, l, i => do
    let l1 ← insertionRound lt l i
    insertionLoop lt n l1 (i + 1)

/-- `__insertion_sort(first, first + n)`. normalization_form_d.hpp:34-35, bits/stl_algo.h:1812-1830. -/
def insertionSort (lt : Int → Int → Bool) (l : List Int) (n : Nat) : Res (List Int) :=
  if n = 0 then pure l else insertionLoop lt (n - 1) l 1

/-- `__unguarded_insertion_sort` from `i`, for `n` rounds. normalization_form_d.hpp:34-35,
bits/stl_algo.h:1836-1842. -/
def unguardedInsertionSort (lt : Int → Int → Bool) : Nat → List Int → Nat → Res (List Int)
  | 0, l, _ => pure l
  | n + 1, l, i => do
    let l1 ← unguardedLinearInsert lt l i
    unguardedInsertionSort lt n l1 (i + 1)

/-- `__final_insertion_sort`; `_S_threshold` is 16. normalization_form_d.hpp:34-35, bits/stl_algo.h:1854-1865. -/
def finalInsertionSort (lt : Int → Int → Bool) (l : List Int) : Res (List Int) :=
  if l.length > 16 then do
    let l1 ← insertionSort lt l 16
    unguardedInsertionSort lt (l.length - 16) l1 16
  else insertionSort lt l l.length

/-- `__move_median_to_first`. normalization_form_d.hpp:34-35, bits/stl_algo.h:85-102. -/
def moveMedianToFirst (lt : Int → Int → Bool) (l : List Int) (result a b c : Nat) : Res (List Int) := do
  let ab ← lessAt lt l a b
  if ab then do
    let bc ← lessAt lt l b c
    if bc then swapAt l result b
    else do
      let ac ← lessAt lt l a c
      if ac then swapAt l result c else swapAt l result a
  else do
    let ac ← lessAt lt l a c
    if ac then swapAt l result a
    else do
      let bc ← lessAt lt l b c
      if bc then swapAt l result c else swapAt l result b

/-- `while (comp(first, pivot)) ++first;`. normalization_form_d.hpp:34-35, bits/stl_algo.h:1877-1878. -/
def scanUp (lt : Int → Int → Bool) (l : List Int) (pivot : Nat) : Nat → Nat → Res Nat
  | 0, _ => .tmo
  | fuel + 1, first => do
    let c ← lessAt lt l first pivot
    if c then scanUp lt l pivot fuel (first + 1) else pure first

/-- `while (comp(pivot, last)) --last;`. normalization_form_d.hpp:34-35, bits/stl_algo.h:1880-1881. -/
def scanDown (lt : Int → Int → Bool) (l : List Int) (pivot : Nat) : Nat → Res Nat
  | 0 => do
    let c ← lessAt lt l pivot 0
    if c then .ub else pure 0
  | last + 1 => do
    let c ← lessAt lt l pivot (last + 1)
    if c then scanDown lt l pivot last else pure (last + 1)

/-- `__unguarded_partition`: the range afterwards and the returned position. normalization_form_d.hpp:34-35,
bits/stl_algo.h:1871-1887. -/
def unguardedPartition (lt : Int → Int → Bool) (pivot : Nat) : Nat → List Int → Nat → Nat → Res (List Int × Nat)
  | 0, _, _, _ => .tmo
  | fuel + 1, l, first, last => do
    let f ← scanUp lt l pivot (l.length + 1) first
    let e ← retreat last
    let e ← scanDown lt l pivot e
    if f < e then do
      let l1 ← swapAt l f e
      unguardedPartition lt pivot fuel l1 (f + 1) e
    else pure (l, f)

/-- `__unguarded_partition_pivot`. normalization_form_d.hpp:34-35, bits/stl_algo.h:1893-1900. -/
def partitionPivot (lt : Int → Int → Bool) (l : List Int) (first last : Nat) : Res (List Int × Nat) := do
  let l1 ← moveMedianToFirst lt l first (first + 1) (first + (last - first) / 2) (last - 1)
  unguardedPartition lt first (l.length + 1) l1 (first + 1) last

/-- `__push_heap`. normalization_form_d.hpp:34-35, bits/stl_heap.h:134-147. -/
def pushHeap (lt : Int → Int → Bool) (first top : Nat) (value : Int) : Nat → List Int → Nat → Res (List Int)
  | 0, _, _ => .tmo
  | fuel + 1, l, hole =>
    if hole > top then do
      let x ← rd32 l (first + (hole - 1) / 2)
      if lt x value then do
        let l1 ← wr32 l (first + hole) x
        pushHeap lt first top value fuel l1 ((hole - 1) / 2)
      else wr32 l (first + hole) value
    else wr32 l (first + hole) value

/-- `__adjust_heap` up to the call of `__push_heap`: the range and `holeIndex` afterwards. (`secondChild` and
`holeIndex` are equal whenever the loop condition is evaluated, and after the loop.) normalization_form_d.hpp:34-35,
bits/stl_heap.h:224-244. -/
def siftDown (lt : Int → Int → Bool) (first len : Nat) : Nat → List Int → Nat → Res (List Int × Nat)
  | 0, _, _ => .tmo
  | fuel + 1, l, hole =>
    if hole < (len - 1) / 2 then do
      let c ← lessAt lt l (first + 2 * (hole + 1)) (first + (2 * (hole + 1) - 1))
      let child := if c then 2 * (hole + 1) - 1 else 2 * (hole + 1)
      let x ← rd32 l (first + child)
      let l1 ← wr32 l (first + hole) x
      siftDown lt first len fuel l1 child
    else if len % 2 = 0 ∧ hole = (len - 2) / 2 then do
      let x ← rd32 l (first + (2 * (hole + 1) - 1))
      let l1 ← wr32 l (first + hole) x
      pure (l1, 2 * (hole + 1) - 1)
    else pure (l, hole)

/-- `__adjust_heap`. normalization_form_d.hpp:34-35, bits/stl_heap.h:224-249. -/
def adjustHeap (lt : Int → Int → Bool) (first hole len : Nat) (value : Int) (l : List Int) : Res (List Int) := do
  let (l1, h) ← siftDown lt first len (len + 1) l hole
  pushHeap lt first hole value (len + 1) l1 h

/-- The loop of `__make_heap` from `parent`. normalization_form_d.hpp:34-35, bits/stl_heap.h:353-361. -/
def makeHeapLoop (lt : Int → Int → Bool) (first len : Nat) : Nat → List Int → Res (List Int)
  | 0, l => do
    let value ← rd32 l (first + 0)
    adjustHeap lt first 0 len value l
  | parent + 1, l => do
    let value ← rd32 l (first + (parent + 1))
    let l1 ← adjustHeap lt first (parent + 1) len value l
    makeHeapLoop lt first len parent l1

/-- `__make_heap`. normalization_form_d.hpp:34-35, bits/stl_heap.h:339-362. -/
def makeHeap (lt : Int → Int → Bool) (first len : Nat) (l : List Int) : Res (List Int) :=
  if len < 2 then pure l else makeHeapLoop lt first len ((len - 2) / 2) l

/-- `__sort_heap` with `__pop_heap`; the number is `last - first`. normalization_form_d.hpp:34-35,
bits/stl_heap.h:418-427, 254-268. -/
def sortHeap (lt : Int → Int → Bool) (first : Nat) : Nat → List Int → Res (List Int)
  | 0, l => pure l
  | 1, l => pure l
  | n + 2, l => do
    let value ← rd32 l (first + (n + 1))
    let x ← rd32 l first
    let l1 ← wr32 l (first + (n + 1)) x
    let l2 ← adjustHeap lt first 0 (n + 1) value l1
    sortHeap lt first (n + 1) l2

/-- `__partial_sort(first, last, last)`; the loop of `__heap_select` from `last` to `last` does nothing.
normalization_form_d.hpp:34-35, bits/stl_algo.h:1905-1912, 1631-1639. -/
def partialSort (lt : Int → Int → Bool) (l : List Int) (first last : Nat) : Res (List Int) := do
  let l1 ← makeHeap lt first (last - first) l
  sortHeap lt first (last - first) l1

/-- `__introsort_loop`. normalization_form_d.hpp:34-35, bits/stl_algo.h:1918-1935. -/
def introsortLoop (lt : Int → Int → Bool) : Nat → List Int → Nat → Nat → Nat → Res (List Int)
  | 0, _, _, _, _ => .tmo
  | fuel + 1, l, first, last, depth =>
    if last - first > 16 then
      match depth with
      | 0 => partialSort lt l first last
      | depth + 1 => do
        let (l1, cut) ← partitionPivot lt l first last
        let l2 ← introsortLoop lt fuel l1 cut last depth
        introsortLoop lt fuel l2 first cut depth
    else pure l

/-- `std::sort(s.begin(), s.end(), lt)`; `__lg` is the logarithm to base 2, rounded down.
normalization_form_d.hpp:34-35, bits/stl_algo.h:1941-1952. -/
def stdSort (lt : Int → Int → Bool) (l : List Int) : Res (List Int) :=
  if l.length = 0 then pure l
  else do
    let l1 ← introsortLoop lt (l.length + 1) l 0 l.length (l.length.log2 * 2)
    finalInsertionSort lt l1

end U5e.StdSort

namespace U5e

/-- `std::sort` of libstdc++ as a sort function for the model of the normalization forms: the contents of the range
afterwards. C73 shows that `stdSort` is defined for every strict weak ordering, so the second case does not occur.
normalization_form_d.hpp:34-35. -/
def libSort : SortFn := fun lt l =>
  match StdSort.stdSort lt l with
  | .ok r => r
  | _ => l

end U5e
