import Verif.Proofs.Tables
/-!
# C27: the five property look-ups return exactly the rows of their tables

The tables `cccTable`, `decTable`, `kdecTable`, `compTable`, `gcbTable` are the checked-in
`*_data.hpp` files, row by row. The argument ranges over all integers (hence over every C++ `int`).
-/
namespace U5e
open Data

/-- C27: the search itself is defined for every comparison function and every array, sorted or not: it
ends after at most `n` comparisons (`n + 1` rounds) and reads no element outside the array. -/
theorem C27_search_defined {α : Type} (cmp : α → Ordering) (t : List α) :
    ∃ r, bsearchRes cmp t = .ok r ∧ ∀ x, r = some x → x ∈ t ∧ cmp x = .eq := by
  obtain ⟨r, hr⟩ := bsearchRes_ok cmp t
  refine ⟨r, hr, ?_⟩
  rintro x rfl
  exact bsearchLoop_some _ _ _ x hr

example : bsearchRes (fun x => compare 5 x) [9, 5, 7] = .ok (some 5) ∧
    bsearchRes (fun x => compare 6 x) [1, 5, 7] = .ok none := by decide

/-- C27, combining class: the argument of a row `{k, v}` resolves to `v`. -/
theorem C27_ccc_row (k v : Nat) (h : [k, v] ∈ cccTable) : cccResolve k = v := by
  rw [cccResolve, find_row ccc_sorted k _ h]
  simp [elemAt]

/-- Instance: U+0301. -/
example : cccResolve 0x301 = 230 := C27_ccc_row 0x301 230 (by decide +kernel)

set_option maxRecDepth 100000 in
/-- C27: shape of all rows - every `elem[i]`, `it[i]` the look-ups read exists, and decomposition rows
are `{k, c₁, …, cₙ, 0}` with n ≥ 1 and no zero before the last. -/
theorem C27_row_shapes :
    (∀ row ∈ cccTable, row.length = 2) ∧
    (∀ row ∈ compTable, row.length = 3) ∧
    (∀ row ∈ decTable, 3 ≤ row.length ∧ row.getLast? = some 0 ∧ 0 ∉ row.dropLast) ∧
    (∀ row ∈ kdecTable, 3 ≤ row.length ∧ row.getLast? = some 0 ∧ 0 ∉ row.dropLast) ∧
    (∀ r ∈ gcbTable, r.1 ≤ r.2.1) := by
  refine ⟨?_, ?_, ?_, ?_, ?_⟩ <;> decide +kernel

/-- C27, combining class: an argument that is the first column of no row resolves to 0. -/
theorem C27_ccc_default (c : Int) (h : ∀ row ∈ cccTable, ∀ k, row.head? = some k → c ≠ (k : Int)) : cccResolve c = 0 := by
  rw [cccResolve, bsearch_none]
  intro row hr he
  cases row with
  | nil => have := C27_row_shapes.1 _ hr; simp at this
  | cons k l => exact h _ hr k rfl (by simpa [key0] using cmpRow_eq.mp he)

/-- Instance: U+0041 is in no row. -/
example : cccResolve 0x41 = 0 := C27_ccc_default 0x41 (by
  have h : ∀ row ∈ cccTable, row.head? ≠ some 0x41 := by decide +kernel
  intro row hr k hk he
  exact h row hr (by rw [hk]; congr 1; omega))

/-- C27, combining class, both directions in one: the result is `v ≠ 0` exactly when the table has
a row `{c, v}`. -/
theorem C27_ccc_iff (c : Int) (v : Nat) (hv : v ≠ 0) :
    cccResolve c = v ↔ ∃ k : Nat, c = k ∧ [k, v] ∈ cccTable := by
  constructor
  · intro h
    rw [cccResolve] at h
    cases hb : bsearch (compareValueToRow c) cccTable with
    | none => rw [hb] at h; simp at h; omega
    | some row =>
      rw [hb] at h
      obtain ⟨hm, hc⟩ := bsearch_some hb
      have hl := C27_row_shapes.1 row hm
      match row, hl with
      | [a, b], _ =>
        have hk := cmpRow_eq.mp hc
        simp [elemAt, key0] at h hk
        obtain rfl : b = v := by omega
        exact ⟨a, hk, hm⟩
  · rintro ⟨k, rfl, hm⟩
    exact C27_ccc_row k v hm

/-- Instance. -/
example : ∃ k : Nat, (0x301 : Int) = k ∧ [k, 230] ∈ cccTable :=
  (C27_ccc_iff 0x301 230 (by decide)).mp (by decide +kernel)

/-- C27, canonical decomposition: a row `{k, m…}` is returned (as the ints after `k`). -/
theorem C27_dec_row (k : Nat) (m : List Nat) (h : k :: m ∈ decTable) :
    decResolve k = some (m.map Int.ofNat) := by
  rw [decResolve, find_row dec_sorted k _ h]
  simp

/-- Instance: U+00C5. -/
example : decResolve 0xC5 = some [0x41, 0x30A, 0] := C27_dec_row 0xC5 [0x41, 0x30A, 0] (by decide +kernel)

/-- C27, canonical decomposition: a pointer is returned only for the key of a row, and it is that row's. -/
theorem C27_dec_iff (c : Int) (m : List Int) :
    decResolve c = some m ↔ ∃ (k : Nat) (l : List Nat), c = k ∧ m = l.map Int.ofNat ∧ k :: l ∈ decTable := by
  constructor
  · intro h
    rw [decResolve] at h
    cases hb : bsearch (compareValueToRow c) decTable with
    | none => rw [hb] at h; simp at h
    | some row =>
      rw [hb] at h
      obtain ⟨hm, hc⟩ := bsearch_some hb
      have hl := (C27_row_shapes.2.2.1 row hm).1
      cases row with
      | nil => simp at hl
      | cons a l =>
        have hk := cmpRow_eq.mp hc
        simp [key0] at h hk
        exact ⟨a, l, hk, h.symm, hm⟩
  · rintro ⟨k, l, rfl, rfl, hm⟩
    exact C27_dec_row k l hm

/-- C27, compatibility decomposition: a row `{k, m…}` is returned (as the ints after `k`). -/
theorem C27_kdec_row (k : Nat) (m : List Nat) (h : k :: m ∈ kdecTable) :
    kdecResolve k = some (m.map Int.ofNat) := by
  rw [kdecResolve, find_row kdec_sorted k _ h]
  simp

/-- Instance: U+FB01. -/
example : kdecResolve 0xFB01 = some [0x66, 0x69, 0] := C27_kdec_row 0xFB01 [0x66, 0x69, 0] (by decide +kernel)

/-- C27, compatibility decomposition: a pointer is returned only for the key of a row. -/
theorem C27_kdec_iff (c : Int) (m : List Int) :
    kdecResolve c = some m ↔
      ∃ (k : Nat) (l : List Nat), c = k ∧ m = l.map Int.ofNat ∧ k :: l ∈ kdecTable := by
  constructor
  · intro h
    rw [kdecResolve] at h
    cases hb : bsearch (compareValueToRow c) kdecTable with
    | none => rw [hb] at h; simp at h
    | some row =>
      rw [hb] at h
      obtain ⟨hm, hc⟩ := bsearch_some hb
      have hl := (C27_row_shapes.2.2.2.1 row hm).1
      cases row with
      | nil => simp at hl
      | cons a l =>
        have hk := cmpRow_eq.mp hc
        simp [key0] at h hk
        exact ⟨a, l, hk, h.symm, hm⟩
  · rintro ⟨k, l, rfl, rfl, hm⟩
    exact C27_kdec_row k l hm

/-- C27, composition: true with `c` is returned exactly for the rows `{a, b, c}`. -/
theorem C27_comp_iff (a b c : Int) :
    compResolve a b = some c ↔
      ∃ i j k : Nat, a = i ∧ b = j ∧ c = k ∧ [i, j, k] ∈ compTable := by
  constructor
  · intro h
    rw [compResolve] at h
    cases hb : bsearch (comparePairToRow a b) compTable with
    | none => rw [hb] at h; simp at h
    | some row =>
      rw [hb] at h
      obtain ⟨hm, hc⟩ := bsearch_some hb
      have hl := C27_row_shapes.2.1 row hm
      match row, hl with
      | [x, y, z], _ =>
        have hk := cmpPair_eq.mp hc
        simp [elemAt, key0, key1] at h hk
        exact ⟨x, y, z, hk.1, hk.2, h.symm, hm⟩
  · rintro ⟨i, j, k, rfl, rfl, rfl, hm⟩
    rw [compResolve, find_pair comp_sorted i j _ hm]
    simp [elemAt]

/-- C27, grapheme break property: an argument inside a range resolves to that range's value. -/
theorem C27_gcb_range (lo hi : Nat) (v : GCB) (h : (lo, hi, v) ∈ gcbTable) (c : Int)
    (h1 : (lo : Int) ≤ c) (h2 : c ≤ (hi : Int)) : gcbResolve c = v := by
  have := bsearch_finds (ordered_range gcb_sorted c) _ h (cmpRange_eq.mpr ⟨h1, h2⟩)
  simp [gcbResolve, this]

/-- Instance: the last regional indicator. -/
example : gcbResolve 0x1F1FF = .REGIONAL_INDICATOR :=
  C27_gcb_range 0x1F1E6 0x1F1FF .REGIONAL_INDICATOR (by decide +kernel) 0x1F1FF (by decide) (by decide)

/-- C27, grapheme break property: an argument outside all ranges resolves to OTHER. -/
theorem C27_gcb_default (c : Int)
    (h : ∀ lo hi v, (lo, hi, v) ∈ gcbTable → ¬ ((lo : Int) ≤ c ∧ c ≤ (hi : Int))) :
    gcbResolve c = .OTHER := by
  rw [gcbResolve, bsearch_none]
  rintro ⟨lo, hi, v⟩ hr he
  exact h lo hi v hr (cmpRange_eq.mp he)

/-- Instance: a letter. -/
example : gcbResolve 0x61 = .OTHER := C27_gcb_default 0x61 (by
  have h : ∀ r ∈ gcbTable, ¬ (r.1 ≤ 0x61 ∧ 0x61 ≤ r.2.1) := by decide +kernel
  intro lo hi v hm hc
  exact h _ hm ⟨by show lo ≤ 0x61; omega, by show 0x61 ≤ hi; omega⟩)

/-- The hypotheses are met: U+0301 (class 230), U+00C5, U+00C0 = A + U+0300, U+1F1E6 (regional
indicator), U+FDFA (longest compatibility mapping starts at U+0635), and defaults. -/
example : [0x301, 230] ∈ cccTable ∧ [0xC5, 0x41, 0x30A, 0] ∈ decTable ∧
    [0x41, 0x300, 0xC0] ∈ compTable ∧ (0x1F1E6, 0x1F1FF, GCB.REGIONAL_INDICATOR) ∈ gcbTable := by
  refine ⟨?_, ?_, ?_, ?_⟩ <;> decide +kernel
example : cccResolve (-1) = 0 ∧ cccResolve 0x41 = 0 ∧ decResolve (-5) = none ∧
    kdecResolve 0xA8 = some [0x20, 0x308, 0] ∧
    compResolve 0x41 0x41 = none ∧ gcbResolve 0x7FFFFFFF = .OTHER := by
  refine ⟨?_, ?_, ?_, ?_, ?_, ?_⟩ <;> decide +kernel

end U5e
