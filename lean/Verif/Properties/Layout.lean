import Verif.Proofs.Layout
import Verif.Proofs.Normalize
import Verif.Properties.Lookup
/-!
# C67: the look-ups for every placement of the tables and every C library

What the look-ups of `Model/Props` return was settled in C27; here they run on a memory.
-/
namespace U5e
open Spec Data

/-- C67: glibc's `bsearch` keeps the contract of the C standard; other libraries' need only keep it too. -/
theorem C67_glibc_conforms : ConformingBsearch glibc := glibc_conforms

/-- C67, the look-ups that return values: wherever the tables are placed, whatever the sizes and offsets are as long as
an `initializer_list` begins with the pointer to its elements, with every conforming `bsearch`, and wherever free memory
for the local variables is found, they are defined and give for every argument what C27 says. -/
theorem C67_values (L : Abi) (hL : Sane L) (ha : L.array = 0) (lib : BsearchFn) (hl : ConformingBsearch lib)
    (s : Store) (frame base : Nat) (a b : Int) :
    (HoldsRows L s base cccTable → s frame = none →
      cccResolveAt L lib s frame base cccTable.length a = .ok (cccResolve a)) ∧
    (HoldsRows L s base compTable → s frame = none → s (frame + 1 * L.int) = none → s (frame + 2 * L.int) = none →
      compResolveAt L lib s frame base compTable.length a b = .ok (compResolve a b)) ∧
    (HoldsRanges L s base gcbTable → s (frame + L.start) = none → s (frame + L.stop) = none →
      s (frame + L.value) = none →
      gcbResolveAt L lib s frame base gcbTable.length a = .ok (gcbResolve a)) :=
  ⟨fun H hf => ccc_at hL ha hl H hf C27_row_shapes.1 a,
    fun H h0 h1 h2 => comp_at hL ha hl H h0 h1 h2 C27_row_shapes.2.1 a b,
    fun H h0 h1 h2 => gcb_at hL hl H h0 h1 h2 a⟩

/-- C67, the look-ups that return pointers: NULL for a codepoint without mapping; otherwise a pointer into the table
from which the mapping and the 0 after it can be read, one int after the other; the same pointer whatever the library and
wherever the local variable is. -/
theorem C67_pointers (L : Abi) (hL : Sane L) (ha : L.array = 0) (lib lib' : BsearchFn) (hl : ConformingBsearch lib)
    (hl' : ConformingBsearch lib') (s : Store) (frame frame' base : Nat) (hf : s frame = none) (hf' : s frame' = none)
    (c : Int) (t : List (List Nat)) (resolve : Int → Option (List Int))
    (ht : (t = decTable ∧ resolve = decResolve) ∨ (t = kdecTable ∧ resolve = kdecResolve))
    (H : HoldsRows L s base t) :
    ∃ p, decResolveAt L lib s frame base t.length c = .ok p ∧ decResolveAt L lib' s frame' base t.length c = .ok p ∧
      (p = 0 ↔ resolve c = none) ∧
      ∀ m, resolve c = some m → Ints L s p m := by
  have key : ∀ (t : List (List Nat)), t.Pairwise (fun a b => key0 a < key0 b) → (∀ row ∈ t, 3 ≤ row.length) →
      HoldsRows L s base t →
      ∃ p, decResolveAt L lib s frame base t.length c = .ok p ∧ decResolveAt L lib' s frame' base t.length c = .ok p ∧
        match bsearch (compareValueToRow c) t with
        | none => p = 0
        | some row => p ≠ 0 ∧ Ints L s p (row.tail.map Int.ofNat) := by
    intro t ht hs H
    obtain ⟨p, h1, h2⟩ := dec_at hL ha hl ht hs H hf c
    obtain ⟨q, h3, h4⟩ := dec_at hL ha hl' ht hs H hf' c
    refine ⟨p, h1, ?_, ?_⟩
    · rw [h3]
      cases hb : bsearch (compareValueToRow c) t with
      | none => rw [hb] at h2 h4; simp only at h2 h4; rw [h2, h4]
      | some row =>
        rw [hb] at h2 h4
        obtain ⟨_, _, i, a, hi, hp, rfl⟩ := h2
        obtain ⟨_, _, j, b, hj, hq, rfl⟩ := h4
        have : i = j := by
          obtain ⟨hi1, hi2⟩ := List.getElem?_eq_some_iff.mp hi
          obtain ⟨hj1, hj2⟩ := List.getElem?_eq_some_iff.mp hj
          rcases Nat.lt_trichotomy i j with h | h | h
          · have := List.pairwise_iff_getElem.mp ht i j hi1 hj1 h; rw [hi2, hj2] at this; omega
          · exact h
          · have := List.pairwise_iff_getElem.mp ht j i hj1 hi1 h; rw [hi2, hj2] at this; omega
        subst this
        rw [hp] at hq
        injection hq with hq; injection hq with hq
        rw [hq]
    · cases hb : bsearch (compareValueToRow c) t with
      | none => rw [hb] at h2; exact h2
      | some row => rw [hb] at h2; exact ⟨h2.1, h2.2.1⟩
  rcases ht with ⟨rfl, rfl⟩ | ⟨rfl, rfl⟩
  · obtain ⟨p, h1, h2, h3⟩ := key decTable dec_sorted (fun r hr => (C27_row_shapes.2.2.1 r hr).1) H
    refine ⟨p, h1, h2, ?_⟩
    rw [decResolve]
    cases hb : bsearch (compareValueToRow c) decTable with
    | none => rw [hb] at h3; exact ⟨by simpa using h3, by simp⟩
    | some row => rw [hb] at h3; exact ⟨by simpa using h3.1, fun m hm => by injection hm with hm; subst hm; exact h3.2⟩
  · obtain ⟨p, h1, h2, h3⟩ := key kdecTable kdec_sorted (fun r hr => (C27_row_shapes.2.2.2.1 r hr).1) H
    refine ⟨p, h1, h2, ?_⟩
    rw [kdecResolve]
    cases hb : bsearch (compareValueToRow c) kdecTable with
    | none => rw [hb] at h3; exact ⟨by simpa using h3, by simp⟩
    | some row => rw [hb] at h3; exact ⟨by simpa using h3.1, fun m hm => by injection hm with hm; subst hm; exact h3.2⟩

/-- C67, decomposition: `canonical_decomposition` and `compatibility_and_canonical_decomposition`, which follow the
pointer to the 0 and append what lies before it, are defined, stay inside the row and append the mapping (C28), whatever
the placement and the library; without a mapping they append the codepoint itself. -/
theorem C67_decomposition (L : Abi) (hL : Sane L) (ha : L.array = 0) (lib : BsearchFn) (hl : ConformingBsearch lib)
    (s : Store) (fuel here frame base : Nat) (hfuel : 20 < fuel) (hne : frame ≠ here) (hh : s here = none)
    (hf : s frame = none) (c : Int) (out : List Int) (t : List (List Nat)) (resolve : Int → Option (List Int))
    (ht : (t = decTable ∧ resolve = decResolve) ∨ (t = kdecTable ∧ resolve = kdecResolve))
    (H : HoldsRows L s base t) :
    decompositionAt L lib s fuel here frame base t.length c out = codepointDecomposition resolve c out ∧
    decompositionAt L lib s fuel here frame base t.length c out =
      .ok (((full resolve c).length : Int), out ++ full resolve c) := by
  have G : GoodMap resolve := by
    rcases ht with ⟨_, rfl⟩ | ⟨_, rfl⟩
    · exact goodD
    · exact goodK
  have heq := codepointDecomposition_eq G c out
  rw [heq]
  refine (and_self_iff).mpr ?_
  obtain ⟨p, hp, _, h0, hm⟩ := C67_pointers L hL ha lib lib hl hl (s.put here (.int c)) frame frame base
    (put_free hf hne) (put_free hf hne) c t resolve ht (H.put hh (.int c))
  rw [decompositionAt]
  rw [hp, Res.bind_ok]
  cases hr : resolve c with
  | none =>
    rw [if_pos (h0.mpr hr)]
    have : Ints L (s.put here (.int c)) here [c] := by
      intro j v hv
      cases j with
      | zero => simp at hv; subst hv; rw [Nat.zero_mul, Nat.add_zero]; exact put_same ..
      | succ j => simp at hv
    rw [show 1 = [c].length from rfl, readInts_ints [c] here this]
    simp [full, hr]
  | some m =>
    have hm' := hm m hr
    rw [G.shape c m hr] at hm'
    have hlen := G.len c
    rw [if_neg (by rw [h0, hr]; simp),
      countAt_ints (full resolve c) p 0 fuel hm' (G.nz c m hr) (by omega) (Int.le_refl _) (by omega), Res.bind_ok,
      show ((0 : Int) + ((full resolve c).length : Int)).toNat = (full resolve c).length by omega,
      readInts_ints (full resolve c) p (fun j v hv => hm' j v (by
        rw [List.getElem?_append_left (List.getElem?_eq_some_iff.mp hv).1]; exact hv))]
    simp

/-- A memory for x86-64: the `initializer_list`s from address 16 on, the rows a mebibyte apart from 2^40 on. -/
def tableStore (t : List (List Nat)) : Store := fun x =>
  if x < 2 ^ 40 then
    if 16 ≤ x ∧ x % 16 = 0 then (t[x / 16 - 1]?).map fun _ => .ptr (2 ^ 40 + (x / 16 - 1) * 2 ^ 20)
    else if 16 ≤ x ∧ x % 16 = 8 then (t[x / 16 - 1]?).map fun r => .len r.length
    else none
  else if (x - 2 ^ 40) % 2 ^ 20 % 4 = 0 then
    (t[(x - 2 ^ 40) / 2 ^ 20]?).bind fun (r : List Nat) => (r[(x - 2 ^ 40) % 2 ^ 20 / 4]?).map fun (v : Nat) => Cell.int (v : Int)
  else none

/-- A memory for x86-64 with the ranges from address 12 on. -/
def rangeStore (t : List (Nat × Nat × GCB)) : Store := fun x =>
  if x < 12 then none
  else if x % 12 = 0 then (t[x / 12 - 1]?).map fun r => .int r.1
  else if x % 12 = 4 then (t[x / 12 - 1]?).map fun r => .int r.2.1
  else if x % 12 = 8 then (t[x / 12 - 1]?).map fun r => .gcb r.2.2
  else none

theorem rangeStore_holds (t : List (Nat × Nat × GCB)) : HoldsRanges x64 (rangeStore t) 12 t := by
  have h : ∀ i r, t[i]? = some r → ∀ k, k < 12 → (12 + i * 12 + k) / 12 - 1 = i ∧ (12 + i * 12 + k) % 12 = k ∧
      ¬ 12 + i * 12 + k < 12 := by
    intro i r _ k hk; omega
  refine ⟨by decide, fun i r hr => ?_, fun i r hr => ?_, fun i r hr => ?_⟩
  · obtain ⟨h1, h2, h3⟩ := h i r hr 0 (by omega)
    show rangeStore t (12 + i * 12 + 0) = _
    rw [rangeStore, if_neg h3, h1, h2, hr]; rfl
  · obtain ⟨h1, h2, h3⟩ := h i r hr 4 (by omega)
    show rangeStore t (12 + i * 12 + 4) = _
    rw [rangeStore, if_neg h3, h1, h2, hr]; rfl
  · obtain ⟨h1, h2, h3⟩ := h i r hr 8 (by omega)
    show rangeStore t (12 + i * 12 + 8) = _
    rw [rangeStore, if_neg h3, h1, h2, hr]; rfl

/-- C67: there are such placements, for all five tables, with room for the variables: the layout of x86-64 meets the
hypotheses. -/
theorem C67_placements_exist : Sane x64 ∧ x64.array = 0 ∧
    (∀ t ∈ [cccTable, decTable, kdecTable, compTable], HoldsRows x64 (tableStore t) 16 t ∧
      ∀ x ∈ [1, 2, 5, 9], tableStore t x = none) ∧
    HoldsRanges x64 (rangeStore gcbTable) 12 gcbTable ∧ ∀ x ∈ [1, 5, 9], rangeStore gcbTable x = none := by
  have key : ∀ t : List (List Nat), t.length < 2 ^ 20 → (∀ r ∈ t, r.length < 2 ^ 18) →
      HoldsRows x64 (tableStore t) 16 t ∧ ∀ x ∈ [1, 2, 5, 9], tableStore t x = none := by
    intro t h1 h2
    refine ⟨⟨by decide, fun i r hr => ?_⟩, ?_⟩
    · have hi := (List.getElem?_eq_some_iff.mp hr).1
      have hrl := h2 r (List.mem_of_getElem? hr)
      refine ⟨2 ^ 40 + i * 2 ^ 20, by omega, ?_, ?_, fun j v hv => ?_⟩
      · show tableStore t (16 + i * 16 + 0) = _
        rw [tableStore]
        rw [if_pos (by omega), if_pos (by omega), show (16 + i * 16 + 0) / 16 - 1 = i by omega, hr]; rfl
      · show tableStore t (16 + i * 16 + 8) = _
        rw [tableStore]
        rw [if_pos (by omega), if_neg (by omega), if_pos (by omega), show (16 + i * 16 + 8) / 16 - 1 = i by omega, hr]; rfl
      · have hj := (List.getElem?_eq_some_iff.mp hv).1
        rw [List.length_map] at hj
        show tableStore t (2 ^ 40 + i * 2 ^ 20 + j * 4) = _
        rw [tableStore]
        rw [if_neg (by omega), if_pos (by omega),
          show (2 ^ 40 + i * 2 ^ 20 + j * 4 - 2 ^ 40) / 2 ^ 20 = i by omega,
          show (2 ^ 40 + i * 2 ^ 20 + j * 4 - 2 ^ 40) % 2 ^ 20 / 4 = j by omega, hr]
        rw [List.getElem?_map] at hv
        obtain ⟨w, hw, rfl⟩ := Option.map_eq_some_iff.mp hv
        simp [hw]
    · intro x hx
      simp only [List.mem_cons, List.not_mem_nil, or_false] at hx
      rcases hx with rfl | rfl | rfl | rfl <;> simp [tableStore]
  refine ⟨⟨by decide, by decide, by decide, by decide, by decide, by decide⟩, rfl, ?_, ?_, ?_⟩
  · intro t ht
    simp only [List.mem_cons, List.not_mem_nil, or_false] at ht
    have hsz : (cccTable.length < 2 ^ 20 ∧ decTable.length < 2 ^ 20 ∧ kdecTable.length < 2 ^ 20 ∧ compTable.length < 2 ^ 20) ∧
        (∀ r ∈ cccTable, r.length < 2 ^ 18) ∧ (∀ r ∈ decTable, r.length < 2 ^ 18) ∧ (∀ r ∈ kdecTable, r.length < 2 ^ 18) ∧
        ∀ r ∈ compTable, r.length < 2 ^ 18 := by decide +kernel
    obtain ⟨⟨a1, a2, a3, a4⟩, b1, b2, b3, b4⟩ := hsz
    rcases ht with rfl | rfl | rfl | rfl
    · exact key _ a1 b1
    · exact key _ a2 b2
    · exact key _ a3 b3
    · exact key _ a4 b4
  · exact rangeStore_holds _
  · intro x hx
    simp only [List.mem_cons, List.not_mem_nil, or_false] at hx
    rcases hx with rfl | rfl | rfl <;> simp [rangeStore]

theorem glibc_ub {cmp : Nat → Res Ordering} {base n size : Nat} (hn : 0 < n)
    (h : ∀ i, i < n → cmp (base + i * size) = .ub) : glibc cmp base n size = .ub := by
  rw [glibc, glibcLoop, if_pos hn]
  simp only [h _ (show (0 + n) / 2 < n by omega)]
  rfl

/-- C67: the condition on `initializer_list` is needed: where it begins with the number of elements, every look-up in
those four tables is undefined, for every argument (with glibc's search). -/
theorem C67_pointer_first_needed (L : Abi) (hlen : L.length = 0) (s : Store) (frame base : Nat) (t : List (List Nat))
    (hne : t ≠ []) (H : HoldsRows L s base t) (hf : ∀ i, i < t.length → ∀ k, k ≤ 2 → frame + k * L.int ≠ base + i * L.list)
    (a b : Int) :
    cccResolveAt L glibc s frame base t.length a = .ub ∧ decResolveAt L glibc s frame base t.length a = .ub ∧
    compResolveAt L glibc s frame base t.length a b = .ub := by
  have hn : 0 < t.length := List.length_pos_iff.mpr hne
  have hcell : ∀ i, i < t.length → ∃ n, s (base + i * L.list) = some (.len n) := by
    intro i hi
    obtain ⟨_, _, _, h, _⟩ := H.row i _ (List.getElem?_eq_getElem hi)
    rw [hlen, Nat.add_zero] at h
    exact ⟨_, h⟩
  have hrow : ∀ i, i < t.length → compareRowAt (s.put frame (.int a)) frame (base + i * L.list) = .ub := by
    intro i hi
    obtain ⟨n, h⟩ := hcell i hi
    have : (s.put frame (.int a)) (base + i * L.list) = some (.len n) := by
      rw [put_other _ _ (by have := hf i hi 0 (by omega); omega), h]
    simp only [compareRowAt, Store.ptr, this]; rfl
  have hpair : ∀ i, i < t.length → comparePairAt L (((s.put frame (.int a)).put (frame + 1 * L.int) (.int b)).put
      (frame + 2 * L.int) (.int 0)) frame (base + i * L.list) = .ub := by
    intro i hi
    obtain ⟨n, h⟩ := hcell i hi
    have : (((s.put frame (.int a)).put (frame + 1 * L.int) (.int b)).put (frame + 2 * L.int) (.int 0))
        (base + i * L.list) = some (.len n) := by
      rw [put_other _ _ (hf i hi 2 (by omega)).symm, put_other _ _ (hf i hi 1 (by omega)).symm,
        put_other _ _ (by have := hf i hi 0 (by omega); omega), h]
    simp only [comparePairAt, Store.ptr, this]; rfl
  refine ⟨?_, ?_, ?_⟩
  · rw [cccResolveAt, glibc_ub hn hrow]; rfl
  · rw [decResolveAt, glibc_ub hn hrow]; rfl
  · rw [compResolveAt, glibc_ub hn hpair]; rfl

/-- One row, the number first, at address 16; the row itself at 64. -/
example : HoldsRows ⟨4, 16, 8, 0, 12, 0, 4, 8⟩ (fun x => if x = 24 then some (.ptr 64) else if x = 16 then some (.len 1) else
    if x = 64 then some (.int 768) else none) 16 [[768]] := by
  refine ⟨by decide, fun i r hr => ?_⟩
  cases i with
  | zero =>
    simp at hr; subst hr
    refine ⟨64, by decide, by simp, by simp, fun j v hv => ?_⟩
    cases j with
    | zero => simpa using hv
    | succ j => simp at hv
  | succ i => simp at hr

end U5e
