import Verif.Spec.Layout
import Verif.Proofs.Tables
/-! The look-ups in memory against the look-ups in lists. -/
namespace U5e
open Spec Data

theorem glibcLoop_finds (cmp : Nat → Res Ordering) (base size n : Nat) (o : Nat → Ordering)
    (hc : ∀ i, i < n → cmp (base + i * size) = .ok (o i))
    (hp : ∀ i j, i < j → j < n → (o j = .gt → o i = .gt) ∧ (o i = .lt → o j = .lt)) (fuel l u : Nat)
    (hf : u - l < fuel) (hu : u ≤ n) (hlo : ∀ i, i < l → o i ≠ .eq) (hhi : ∀ i, u ≤ i → i < n → o i ≠ .eq) :
    (∃ i, i < n ∧ o i = .eq ∧ glibcLoop cmp base size fuel l u = .ok (base + i * size)) ∨
    ((∀ i, i < n → o i ≠ .eq) ∧ glibcLoop cmp base size fuel l u = .ok 0) := by
  induction fuel generalizing l u with
  | zero => omega
  | succ f ih =>
    rw [glibcLoop]
    by_cases h : l < u
    · rw [if_pos h]
      have hi : (l + u) / 2 < n := by omega
      simp only [hc _ hi, Res.bind_ok]
      cases ho : o ((l + u) / 2) with
      | lt =>
        refine ih l _ (by omega) (by omega) hlo fun i h1 h2 => ?_
        rcases Nat.lt_or_eq_of_le h1 with h3 | h3
        · rw [(hp _ i h3 h2).2 ho]; simp
        · rw [← h3, ho]; simp
      | gt =>
        refine ih _ u (by omega) hu (fun i h1 => ?_) hhi
        rcases Nat.lt_or_eq_of_le (Nat.le_of_lt_succ h1) with h3 | h3
        · rw [(hp i _ h3 hi).1 ho]; simp
        · rw [h3, ho]; simp
      | eq => exact .inl ⟨_, hi, ho, rfl⟩
    · rw [if_neg h]
      refine .inr ⟨fun i hi => ?_, rfl⟩
      by_cases h1 : i < l
      · exact hlo i h1
      · exact hhi i (by omega) hi

theorem glibc_conforms : ConformingBsearch glibc :=
  ⟨fun cmp base n size o _ _ hc hp => glibcLoop_finds cmp base size n o hc hp (n + 1) 0 n (by omega) (Nat.le_refl _)
    (by omega) (by omega)⟩

/-- A conforming `bsearch` finds, in an array that holds an ordered table, the row the list search finds. -/
theorem lib_finds {lib : BsearchFn} (hl : ConformingBsearch lib) {t : List α} {o : α → Ordering} (ho : Ordered o t)
    {cmp : Nat → Res Ordering} {base size : Nat} (hb : 0 < base) (hs : 0 < size)
    (hc : ∀ i x, t[i]? = some x → cmp (base + i * size) = .ok (o x)) :
    (∃ i x, t[i]? = some x ∧ bsearch o t = some x ∧ lib cmp base t.length size = .ok (base + i * size)) ∨
    (bsearch o t = none ∧ lib cmp base t.length size = .ok 0) := by
  have hget : ∀ i (h : i < t.length), t[i]? = some t[i] := fun i h => List.getElem?_eq_getElem h
  rcases hl.finds cmp base t.length size (fun i => match t[i]? with | some x => o x | none => .lt) hb hs
    (fun i h => by rw [hc i _ (hget i h)]; simp only [hget i h]) (fun i j hij hj => by
      have hi : i < t.length := by omega
      simp only [hget i hi, hget j hj]
      have := ho.1 i j _ _ hij (hget i hi) (hget j hj)
      constructor
      · intro h
        by_cases hne : o t[i] = .gt
        · exact hne
        · rw [this hne] at h; simp at h
      · intro h
        exact this (by rw [h]; simp)) with ⟨i, hi, he, hr⟩ | ⟨hn, hr⟩
  · simp only [hget i hi] at he
    exact .inl ⟨i, _, hget i hi, bsearch_finds ho _ (List.getElem_mem hi) he, hr⟩
  · refine .inr ⟨bsearch_none fun x hx he => ?_, hr⟩
    obtain ⟨i, hi, rfl⟩ := List.getElem_of_mem hx
    have := hn i hi
    simp only [hget i hi] at this
    exact this he

theorem put_same (s : Store) (a : Nat) (c : Cell) : (s.put a c) a = some c := by simp [Store.put]
theorem put_other (s : Store) {a x : Nat} (c : Cell) (h : x ≠ a) : (s.put a c) x = s x := by simp [Store.put, h]
theorem put_keeps {s : Store} {a x : Nat} {c d : Cell} (h : s a = none) (hx : s x = some d) : (s.put a c) x = some d := by
  rw [put_other _ _ (by rintro rfl; rw [h] at hx; simp at hx), hx]
theorem put_free {s : Store} {a x : Nat} {c : Cell} (h : s x = none) (hx : x ≠ a) : (s.put a c) x = none := by
  rw [put_other _ _ hx, h]

theorem Store.int_ok {s : Store} {a : Nat} {v : Int} (h : s a = some (.int v)) : s.int a = .ok v := by
  simp [Store.int, h]
theorem Store.ptr_ok {s : Store} {a b : Nat} (h : s a = some (.ptr b)) : s.ptr a = .ok b := by
  simp [Store.ptr, h]
theorem Store.gcb_ok {s : Store} {a : Nat} {v : GCB} (h : s a = some (.gcb v)) : s.gcb a = .ok v := by
  simp [Store.gcb, h]

theorem Spec.HoldsRows.put {L : Abi} {s : Store} {base : Nat} {t : List (List Nat)} (H : HoldsRows L s base t) {a : Nat}
    (ha : s a = none) (c : Cell) : HoldsRows L (s.put a c) base t := by
  refine ⟨H.nonnull, fun i r hr => ?_⟩
  obtain ⟨p, h0, h1, h2, h3⟩ := H.row i r hr
  exact ⟨p, h0, put_keeps ha h1, put_keeps ha h2, fun j v hv => put_keeps ha (h3 j v hv)⟩

theorem Spec.HoldsRanges.put {L : Abi} {s : Store} {base : Nat} {t : List (Nat × Nat × GCB)} (H : HoldsRanges L s base t)
    {a : Nat} (ha : s a = none) (c : Cell) : HoldsRanges L (s.put a c) base t :=
  ⟨H.nonnull, fun i r hr => put_keeps ha (H.start i r hr), fun i r hr => put_keeps ha (H.stop i r hr),
    fun i r hr => put_keeps ha (H.value i r hr)⟩

theorem elemAt_of {row : List Nat} {i v : Nat} (h : row[i]? = some v) : elemAt row i = v := by simp [elemAt, h]

/-- The search of the three tables with one key. -/
theorem search_row {L : Abi} (hL : Sane L) (ha : L.array = 0) {lib : BsearchFn} (hl : ConformingBsearch lib)
    {s : Store} {base frame : Nat} {t : List (List Nat)} (ht : t.Pairwise (fun a b => key0 a < key0 b))
    (hne : ∀ r ∈ t, r ≠ []) (H : HoldsRows L s base t) {input : Int} (hk : s frame = some (.int input)) :
    (∃ i x a, t[i]? = some x ∧ bsearch (compareValueToRow input) t = some x ∧
      lib (compareRowAt s frame) base t.length L.list = .ok (base + i * L.list) ∧ base + i * L.list ≠ 0 ∧ 0 < a ∧
      s.ptr (base + i * L.list) = .ok a ∧ Ints L s a (x.map Int.ofNat)) ∨
    (bsearch (compareValueToRow input) t = none ∧
      lib (compareRowAt s frame) base t.length L.list = .ok 0) := by
  have hb := H.nonnull
  rcases lib_finds hl (ordered_row ht input) (cmp := compareRowAt s frame) hb hL.list (fun i x hx => by
      obtain ⟨a, _, h1, _, h2⟩ := H.row i x hx
      rw [ha, Nat.add_zero] at h1
      have hx0 := hne x (List.mem_of_getElem? hx)
      cases x with
      | nil => exact absurd rfl hx0
      | cons k l =>
        have h3 := h2 0 (Int.ofNat k) (by simp)
        rw [Nat.zero_mul, Nat.add_zero] at h3
        simp only [compareRowAt, Store.ptr_ok h1, Res.bind_ok, Store.int_ok hk, Store.int_ok h3, compareValueToRow,
          elemAt_of (show (k :: l)[0]? = some k from rfl)]
        show (if input < (k : Int) then _ else if input > (k : Int) then _ else _) = _
        split
        · rfl
        · split <;> rfl) with ⟨i, x, hx, hf, hr⟩ | ⟨hf, hr⟩
  · obtain ⟨a, h0, h1, _, h2⟩ := H.row i x hx
    rw [ha, Nat.add_zero] at h1
    exact .inl ⟨i, x, a, hx, hf, hr, by omega, h0, Store.ptr_ok h1, h2⟩
  · exact .inr ⟨hf, hr⟩

theorem ccc_at {L : Abi} (hL : Sane L) (ha : L.array = 0) {lib : BsearchFn} (hl : ConformingBsearch lib)
    {s : Store} {base frame : Nat} (H : HoldsRows L s base cccTable) (hfr : s frame = none)
    (hshape : ∀ row ∈ cccTable, row.length = 2) (c : Int) :
    cccResolveAt L lib s frame base cccTable.length c = .ok (cccResolve c) := by
  rw [cccResolveAt, cccResolve]
  rcases search_row hL ha hl ccc_sorted (fun r hr h => by have := hshape r hr; simp [h] at this) (H.put hfr (.int c))
    (put_same s frame (.int c)) with ⟨i, x, a, hx, hf, hr, hz, _, hp, hi⟩ | ⟨hf, hr⟩
  · rw [hr, Res.bind_ok, if_neg hz, hp, Res.bind_ok, hf]
    have hlen := hshape x (List.mem_of_getElem? hx)
    match x, hlen with
    | [k, v], _ =>
      exact Store.int_ok (hi 1 (Int.ofNat v) (by simp))
  · rw [hr, hf]; rfl

theorem dec_at {L : Abi} (hL : Sane L) (ha : L.array = 0) {lib : BsearchFn} (hl : ConformingBsearch lib)
    {s : Store} {base frame : Nat} {t : List (List Nat)} (ht : t.Pairwise (fun a b => key0 a < key0 b))
    (hshape : ∀ row ∈ t, 3 ≤ row.length) (H : HoldsRows L s base t) (hfr : s frame = none) (c : Int) :
    ∃ p, decResolveAt L lib s frame base t.length c = .ok p ∧
      match (bsearch (compareValueToRow c) t) with
      | none => p = 0
      | some row => p ≠ 0 ∧ Ints L s p (row.tail.map Int.ofNat) ∧
        ∃ i a, t[i]? = some row ∧ s (base + i * L.list) = some (.ptr a) ∧ p = a + L.int := by
  rw [decResolveAt]
  rcases search_row hL ha hl ht (fun r hr h => by have := hshape r hr; simp [h] at this) (H.put hfr (.int c))
    (put_same s frame (.int c)) with ⟨i, x, a, hx, hf, hr, hz, h0, hp, hi⟩ | ⟨hf, hr⟩
  · rw [hr, Res.bind_ok, if_neg hz, hp, Res.bind_ok, hf]
    obtain ⟨a', _, h1, _, h2⟩ := H.row i x hx
    rw [ha, Nat.add_zero] at h1
    have : a' = a := by
      have := Store.ptr_ok (put_keeps (c := .int c) hfr h1)
      rw [this] at hp; simpa using hp
    subst this
    refine ⟨_, rfl, by omega, fun j v hv => ?_, i, a', hx, h1, rfl⟩
    have := h2 (j + 1) v (by
      cases x with
      | nil => simp at hv
      | cons k l => simpa using hv)
    rw [← this, Nat.add_mul]
    congr 1; omega
  · rw [hr, hf]; exact ⟨0, rfl, rfl⟩

theorem comp_at {L : Abi} (hL : Sane L) (ha : L.array = 0) {lib : BsearchFn} (hl : ConformingBsearch lib)
    {s : Store} {base frame : Nat} (H : HoldsRows L s base compTable) (hf0 : s frame = none)
    (hf1 : s (frame + 1 * L.int) = none) (hf2 : s (frame + 2 * L.int) = none)
    (hshape : ∀ row ∈ compTable, row.length = 3) (a b : Int) :
    compResolveAt L lib s frame base compTable.length a b = .ok (compResolve a b) := by
  rw [compResolveAt, compResolve]
  have hint := hL.int
  have n1 : frame + 1 * L.int ≠ frame := by omega
  have n2 : frame + 2 * L.int ≠ frame := by omega
  have n3 : frame + 2 * L.int ≠ frame + 1 * L.int := by omega
  have H' := ((H.put hf0 (.int a)).put (put_free hf1 n1) (.int b)).put (put_free (put_free hf2 n2) n3) (.int 0)
  revert H'
  generalize hs' : ((s.put frame (.int a)).put (frame + 1 * L.int) (.int b)).put (frame + 2 * L.int) (.int 0) = s'
  intro H'
  have k0 : s' frame = some (.int a) := by
    rw [← hs', put_other _ _ n2.symm, put_other _ _ n1.symm, put_same]
  have k1 : s' (frame + 1 * L.int) = some (.int b) := by
    rw [← hs', put_other _ _ n3.symm, put_same]
  rcases lib_finds hl (ordered_pair comp_sorted a b) (cmp := comparePairAt L s' frame) H'.nonnull hL.list (fun i x hx => by
      obtain ⟨q, _, h1, _, h2⟩ := H'.row i x hx
      rw [ha, Nat.add_zero] at h1
      have hlen := hshape x (List.mem_of_getElem? hx)
      match x, hlen with
      | [k, l, v], _ =>
        have h3 := h2 0 (Int.ofNat k) (by simp)
        have h4 := h2 1 (Int.ofNat l) (by simp)
        rw [Nat.zero_mul, Nat.add_zero] at h3
        simp only [comparePairAt, Store.ptr_ok h1, Res.bind_ok, Store.int_ok k0, Store.int_ok h3, Store.int_ok k1,
          Store.int_ok h4, comparePairToRow, elemAt_of (show [k, l, v][0]? = some k from rfl),
          elemAt_of (show [k, l, v][1]? = some l from rfl)]
        show (if a < (k : Int) then _ else if a > (k : Int) then _ else if b < (l : Int) then _ else
          if b > (l : Int) then _ else _) = _
        repeat' split
        all_goals rfl) with ⟨i, x, hx, hf, hr⟩ | ⟨hf, hr⟩
  · obtain ⟨q, _, h1, _, h2⟩ := H'.row i x hx
    have hb := H'.nonnull
    rw [ha, Nat.add_zero] at h1
    rw [hr, Res.bind_ok, if_neg (by omega), Store.ptr_ok h1, Res.bind_ok, hf]
    have hlen := hshape x (List.mem_of_getElem? hx)
    match x, hlen with
    | [k, l, v], _ =>
      rw [Store.int_ok (h2 2 (Int.ofNat v) (by simp))]; rfl
  · rw [hr, hf]; rfl

theorem gcb_at {L : Abi} (hL : Sane L) {lib : BsearchFn} (hl : ConformingBsearch lib)
    {s : Store} {base frame : Nat} (H : HoldsRanges L s base gcbTable) (hf0 : s (frame + L.start) = none)
    (hf1 : s (frame + L.stop) = none) (hf2 : s (frame + L.value) = none) (c : Int) :
    gcbResolveAt L lib s frame base gcbTable.length c = .ok (gcbResolve c) := by
  rw [gcbResolveAt, gcbResolve]
  have := hL.start_stop
  have := hL.start_value
  have := hL.stop_value
  have n1 : frame + L.stop ≠ frame + L.start := by omega
  have n2 : frame + L.value ≠ frame + L.start := by omega
  have n3 : frame + L.value ≠ frame + L.stop := by omega
  have H' := ((H.put hf0 (.int c)).put (put_free hf1 n1) (.int c)).put (put_free (put_free hf2 n2) n3) (.gcb .OTHER)
  revert H'
  generalize hs' : ((s.put (frame + L.start) (.int c)).put (frame + L.stop) (.int c)).put (frame + L.value) (.gcb .OTHER) = s'
  intro H'
  have k0 : s' (frame + L.start) = some (.int c) := by
    rw [← hs', put_other _ _ n2.symm, put_other _ _ n1.symm, put_same]
  rcases lib_finds hl (ordered_range gcb_sorted c) (cmp := compareRangeAt L s' frame) H'.nonnull hL.range (fun i x hx => by
      simp only [compareRangeAt, Store.int_ok k0, Res.bind_ok, Store.int_ok (H'.start i x hx),
        Store.int_ok (H'.stop i x hx), compareValueToRange]
      repeat' split
      all_goals rfl) with ⟨i, x, hx, hf, hr⟩ | ⟨hf, hr⟩
  · have hb := H'.nonnull
    rw [hr, Res.bind_ok, if_pos (by omega), hf, Store.gcb_ok (H'.value i x hx)]
  · rw [hr, hf]; rfl

/-! ### Decomposition through the pointer -/

theorem countAt_ints {L : Abi} {s : Store} : ∀ (l : List Int) (p : Nat) (n : Int) (fuel : Nat),
    Ints L s p (l ++ [0]) → (∀ x ∈ l, x ≠ 0) → l.length < fuel → 0 ≤ n → n + l.length < 2 ^ 31 →
    countAt L s fuel p n = .ok (n + l.length) := by
  intro l
  induction l with
  | nil =>
    intro p n fuel h _ hf _ _
    cases fuel with
    | zero => simp at hf
    | succ f =>
      have h0 := h 0 0 (by simp)
      rw [Nat.zero_mul, Nat.add_zero] at h0
      rw [countAt, Store.int_ok h0, Res.bind_ok, if_neg (by simp)]
      simp
  | cons x l ih =>
    intro p n fuel h hz hf hn hb
    cases fuel with
    | zero => simp at hf
    | succ f =>
      have h0 := h 0 x (by simp)
      rw [Nat.zero_mul, Nat.add_zero] at h0
      have hx : x ≠ 0 := hz x (by simp)
      have hadd : addInt n 1 = .ok (n + 1) := by
        rw [List.length_cons] at hb
        simp only [addInt]
        rw [if_pos (by omega)]
      rw [countAt, Store.int_ok h0, Res.bind_ok, if_pos hx, hadd, Res.bind_ok,
        ih (p + L.int) (n + 1) f (fun j v hv => by
          have := h (j + 1) v (by simpa using hv)
          rw [← this, Nat.add_mul]; congr 1; omega) (fun y hy => hz y (by simp [hy])) (by simpa using hf) (by omega)
          (by rw [List.length_cons] at hb; omega)]
      rw [List.length_cons]; congr 1; omega

theorem readInts_ints {L : Abi} {s : Store} : ∀ (l : List Int) (p : Nat), Ints L s p l →
    readInts L s l.length p = .ok l := by
  intro l
  induction l with
  | nil => intro p _; rfl
  | cons x l ih =>
    intro p h
    have h0 := h 0 x (by simp)
    rw [Nat.zero_mul, Nat.add_zero] at h0
    rw [List.length_cons, readInts, Store.int_ok h0, Res.bind_ok, ih (p + L.int) (fun j v hv => by
      have := h (j + 1) v (by simpa using hv)
      rw [← this, Nat.add_mul]; congr 1; omega)]
    rfl

end U5e
