import Verif.Model.Layout
/-! Specification for C67: what the C library promises, and when a memory holds a table. -/
namespace U5e
namespace Spec

/-- ISO C 7.22.5.1: if the elements that compare less than the key come first, then those equal to it, then the
greater ones, `bsearch` gives the address of an equal one, or NULL if there is none. `o i` is the answer of the
comparison of the key with element `i`. -/
structure ConformingBsearch (lib : BsearchFn) : Prop where
  finds : ∀ (cmp : Nat → Res Ordering) (base n size : Nat) (o : Nat → Ordering), 0 < base → 0 < size →
    (∀ i, i < n → cmp (base + i * size) = .ok (o i)) →
    (∀ i j, i < j → j < n → (o j = .gt → o i = .gt) ∧ (o i = .lt → o j = .lt)) →
    (∃ i, i < n ∧ o i = .eq ∧ lib cmp base n size = .ok (base + i * size)) ∨
    ((∀ i, i < n → o i ≠ .eq) ∧ lib cmp base n size = .ok 0)

/-- Members have their own places and nothing has size 0. -/
structure Sane (L : Abi) : Prop where
  int : 0 < L.int
  list : 0 < L.list
  range : 0 < L.range
  start_stop : L.start ≠ L.stop
  start_value : L.start ≠ L.value
  stop_value : L.stop ≠ L.value

/-- From address `a` on, memory holds the ints `l`. -/
def Ints (L : Abi) (s : Store) (a : Nat) (l : List Int) : Prop :=
  ∀ j v, l[j]? = some v → s (a + j * L.int) = some (.int v)

/-- The array of `initializer_list`s at `base` is the table `t`: element `i` points to the ints of row `i`, wherever
they are, and knows their number. -/
structure HoldsRows (L : Abi) (s : Store) (base : Nat) (t : List (List Nat)) : Prop where
  nonnull : 0 < base
  row : ∀ i r, t[i]? = some r → ∃ a, 0 < a ∧ s (base + i * L.list + L.array) = some (.ptr a) ∧
    s (base + i * L.list + L.length) = some (.len r.length) ∧ Ints L s a (r.map Int.ofNat)

/-- The array of `range_data` at `base` is the table `t`. -/
structure HoldsRanges (L : Abi) (s : Store) (base : Nat) (t : List (Nat × Nat × GCB)) : Prop where
  nonnull : 0 < base
  start : ∀ i r, t[i]? = some r → s (base + i * L.range + L.start) = some (.int r.1)
  stop : ∀ i r, t[i]? = some r → s (base + i * L.range + L.stop) = some (.int r.2.1)
  value : ∀ i r, t[i]? = some r → s (base + i * L.range + L.value) = some (.gcb r.2.2)

end Spec
end U5e
