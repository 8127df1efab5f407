import Verif.Proofs.GenChecks2
/-! The generators make the tables. -/
namespace U5e
open Data Spec

theorem ucd_sorted : ucdRows.Pairwise (fun a b => a.cp < b.cp) :=
  (chainB_pairwise (by intro a b c; simp only [ltU, Nat.blt_eq]; omega) _ ucd_chain).imp
    (fun h => by simpa [ltU, Nat.blt_eq] using h)

theorem ucd_nodup : (ucdRows.map UcdRow.cp).Nodup :=
  (List.pairwise_map.mpr ucd_sorted).imp Nat.ne_of_lt

theorem cmpU_eq {k : Nat} {r : UcdRow} : cmpU k r = .eq ↔ r.cp = k := by
  simp only [cmpU, cond_eq_ite, Nat.blt_eq]
  by_cases h : k < r.cp
  · rw [if_pos h]; simp; omega
  · by_cases h2 : r.cp < k
    · rw [if_neg h, if_pos h2]; simp; omega
    · rw [if_neg h, if_neg h2]; simp; omega

theorem ucd_ordered (k : Nat) : Ordered (cmpU k) ucdRows := by
  constructor
  intro i j x y hij hx hy hc
  have := pairwise_getElem? ucd_sorted i j x y hij hx hy
  simp only [cmpU, cond_eq_ite, Nat.blt_eq] at hc ⊢
  by_cases h : k < x.cp
  · rw [if_pos (by omega)]
  · by_cases h2 : x.cp < k
    · rw [if_neg h, if_pos h2] at hc; simp at hc
    · rw [if_pos (by omega)]

theorem inj_of_nodup_map {f : α → β} {l : List α} (h : (l.map f).Nodup) {x y : α} (hx : x ∈ l) (hy : y ∈ l)
    (he : f x = f y) : x = y := by
  induction l with
  | nil => simp at hx
  | cons a l ih =>
    rw [List.map_cons, List.nodup_cons] at h
    rcases List.mem_cons.mp hx with rfl | hx' <;> rcases List.mem_cons.mp hy with rfl | hy'
    · rfl
    · exact absurd (List.mem_map.mpr ⟨y, hy', he.symm⟩) h.1
    · exact absurd (List.mem_map.mpr ⟨x, hx', he⟩) h.1
    · exact ih h.2 hx' hy'

theorem ucdAt_iff {k : Nat} {r : UcdRow} : ucdAt k = some r ↔ r ∈ ucdRows ∧ r.cp = k := by
  rw [ucdAt]
  constructor
  · intro h
    have := Tree.find_some h
    rw [ucdTree_toList, cmpU_eq] at this
    exact this
  · rintro ⟨h1, h2⟩
    cases hf : ucdTree.find (cmpU k) with
    | none =>
      have := Tree.find_none (by rw [ucdTree_toList]; exact ucd_ordered k) hf r (by rw [ucdTree_toList]; exact h1)
      exact absurd (cmpU_eq.mpr h2) this
    | some r' =>
      have := Tree.find_some hf
      rw [ucdTree_toList, cmpU_eq] at this
      have hinj := inj_of_nodup_map ucd_nodup this.1 h1 (by omega)
      rw [hinj]

theorem ucd_all {p : UcdRow → Bool} (h : ucdTree.all p = true) {r : UcdRow} (hr : r ∈ ucdRows) : p r = true :=
  (Tree.all_iff p ucdTree).mp h r (by rw [ucdTree_toList]; exact hr)

/-- The lines the copy in Data/Ucd.lean keeps. -/
def Relevant (r : UcdRow) : Bool := decide (r.ccc ≠ 0 ∨ r.decomp ≠ [])

variable {file : List UcdRow}

theorem mem_file (hf : file.filter Relevant = ucdRows) {r : UcdRow} (h : r.ccc ≠ 0 ∨ r.decomp ≠ []) :
    r ∈ file ↔ r ∈ ucdRows := by
  rw [← hf, List.mem_filter, Relevant]; simp [h]

theorem readCcc_file (hn : (file.map UcdRow.cp).Nodup) (hf : file.filter Relevant = ucdRows) (k v : Nat) :
    readCcc file k = some v ↔ ∃ r ∈ ucdRows, selCcc r = some (k, v) := by
  rw [readCcc_iff hn]
  constructor
  · rintro ⟨r, h1, h2⟩
    exact ⟨r, (mem_file hf (.inl (selCcc_some h2).2)).mp h1, h2⟩
  · rintro ⟨r, h1, h2⟩
    exact ⟨r, (mem_file hf (.inl (selCcc_some h2).2)).mpr h1, h2⟩

/-- Sorted output of a hash whose rows come in order. -/
theorem output_eq {d : Hash Nat α} {ks : List Nat} (hk : IsKeys d ks) {mk : UcdRow → Option (List Nat)}
    {row : Nat → List Nat}
    (h1 : ∀ r ∈ ucdRows, ∀ l, mk r = some l → d r.cp ≠ none ∧ l = row r.cp)
    (h2 : ∀ k, d k ≠ none → ∃ r ∈ ucdRows, r.cp = k ∧ mk r ≠ none) :
    (ks.mergeSort (fun a b => decide (a ≤ b))).map row = ucdRows.filterMap mk := by
  have hs : ks.mergeSort (fun a b => decide (a ≤ b)) =
      (ucdRows.filter (fun r => (mk r).isSome)).map UcdRow.cp := by
    refine sort_keys hk.1 ?_ ?_
    · intro k
      rw [hk.2 k, List.mem_map]
      constructor
      · intro h
        obtain ⟨r, hr, hc, hm⟩ := h2 k h
        refine ⟨r, List.mem_filter.mpr ⟨hr, ?_⟩, hc⟩
        cases h : mk r <;> simp_all
      · rintro ⟨r, hr, rfl⟩
        rw [List.mem_filter] at hr
        cases hm : mk r with
        | none => rw [hm] at hr; simp at hr
        | some l => exact (h1 r hr.1 l hm).1
    · exact List.pairwise_map.mpr (ucd_sorted.filter _)
  rw [hs, List.map_map]
  have : ∀ rs : List UcdRow, (∀ r ∈ rs, ∀ l, mk r = some l → l = row r.cp) →
      (rs.filter (fun r => (mk r).isSome)).map (row ∘ UcdRow.cp) = rs.filterMap mk := by
    intro rs h
    induction rs with
    | nil => rfl
    | cons r rs ih =>
      have ih := ih fun r hr => h r (by simp [hr])
      rw [List.filterMap_cons]
      cases hm : mk r with
      | none => rw [List.filter_cons, hm]; exact ih
      | some l =>
        rw [List.filter_cons, hm]
        simp only [Option.isSome_some, if_true, List.map_cons, ih, Function.comp]
        rw [h r (by simp) l hm]
  exact this _ fun r hr l hl => (h1 r hr l hl).2

theorem genCcc_eq (hn : (file.map UcdRow.cp).Nodup) (hf : file.filter Relevant = ucdRows) {ks : List Nat}
    (hk : IsKeys (readCcc file) ks) : genCcc ks file = cccTable := by
  rw [genCcc, ← mk_ccc]
  refine output_eq hk ?_ ?_
  · intro r hr l hl
    have hsel : selCcc r = some (r.cp, r.ccc) ∧ l = [r.cp, r.ccc] := by
      simp only [mkCcc, cond_eq_ite, Nat.beq_eq] at hl
      by_cases h : r.ccc = 0
      · rw [if_pos h] at hl; simp at hl
      · rw [if_neg h] at hl; simp at hl; exact ⟨by rw [selCcc, if_neg h], hl.symm⟩
    have := (readCcc_file hn hf r.cp r.ccc).mpr ⟨r, hr, hsel.1⟩
    rw [this]; exact ⟨by simp, hsel.2⟩
  · intro k hk0
    cases h : readCcc file k with
    | none => exact absurd h hk0
    | some v =>
      obtain ⟨r, hr, hs⟩ := (readCcc_file hn hf k v).mp h
      obtain ⟨he, hc⟩ := selCcc_some hs
      simp only [Prod.mk.injEq] at he
      refine ⟨r, hr, he.1.symm, ?_⟩
      simp [mkCcc, cond_eq_ite, hc]

theorem decAt_iff {compat : Bool} {k : Nat} {m : List Nat} :
    decAt compat k = some m ↔ ∃ r ∈ ucdRows, selDec compat r = some (k, m) := by
  have key : ∀ r : UcdRow, (match r.decomp with
      | [] => none
      | x :: l => cond (Nat.beq r.tag 0 || (compat && Nat.beq r.tag 1)) (some (x :: l)) none) =
      (selDec compat r).map Prod.snd := by
    intro r
    rw [selDec]
    cases hd : r.decomp with
    | nil => simp
    | cons x l =>
      simp only [cond_eq_ite, reduceCtorEq, if_false, Bool.or_eq_true, Nat.beq_eq, Bool.and_eq_true]
      split <;> rfl
  rw [decAt]
  constructor
  · intro h
    split at h
    · simp at h
    · next r hr =>
      have h := (key r).symm.trans h
      rw [Option.map_eq_some_iff] at h
      obtain ⟨p, hp, rfl⟩ := h
      obtain ⟨hr, hc⟩ := ucdAt_iff.mp hr
      refine ⟨r, hr, ?_⟩
      rw [hp]
      obtain ⟨rfl, _⟩ := selDec_some hp
      rw [← hc]
  · rintro ⟨r, hr, hs⟩
    obtain ⟨he, _⟩ := selDec_some hs
    simp only [Prod.mk.injEq] at he
    rw [ucdAt_iff.mpr ⟨hr, he.1.symm⟩]
    refine (key r).trans ?_
    rw [hs]; rfl

theorem readDec_file (compat : Bool) (hn : (file.map UcdRow.cp).Nodup) (hf : file.filter Relevant = ucdRows) :
    readDec compat file = decAt compat := by
  funext k
  have : ∀ m, readDec compat file k = some m ↔ decAt compat k = some m := by
    intro m
    rw [readDec_iff hn, decAt_iff]
    constructor
    · rintro ⟨r, h1, h2⟩
      exact ⟨r, (mem_file hf (.inr (selDec_some h2).2.1)).mp h1, h2⟩
    · rintro ⟨r, h1, h2⟩
      exact ⟨r, (mem_file hf (.inr (selDec_some h2).2.1)).mpr h1, h2⟩
  cases h : readDec compat file k with
  | none => cases h2 : decAt compat k with
    | none => rfl
    | some m => rw [(this m).mpr h2] at h; simp at h
  | some m => exact ((this m).mp h).symm

theorem expandN_sound {d : Nat → Option (List Nat)} {n k : Nat} {l : List Nat}
    (h : expandN d n k = some l) : Expands d [k] l := by
  induction n generalizing k l with
  | zero => simp [expandN] at h
  | succ n ih =>
    rw [expandN] at h
    split at h
    · next hk => simp at h; subst h; exact .keep hk .nil
    · next m hm =>
      have : Expands d m l := by
        clear hm
        induction m generalizing l with
        | nil => simp at h; subst h; exact .nil
        | cons x m ihm =>
          rw [List.foldr_cons] at h
          split at h
          · next l1 l2 h1 h2 =>
            simp at h; subst h
            exact (ih h1).append (ihm h2)
          · simp at h
      have := Expands.expand hm this .nil
      rwa [List.append_nil] at this

theorem rank_all (compat : Bool) {r : UcdRow} (hr : r ∈ ucdRows) : rankOK compat r = true := by
  cases compat
  · exact ucd_all rank_dec hr
  · exact ucd_all rank_kdec hr

theorem decAt_row {compat : Bool} {k : Nat} (h : decAt compat k ≠ none) : ∃ r ∈ ucdRows, r.cp = k := by
  cases hk : decAt compat k with
  | none => exact absurd hk h
  | some m =>
    obtain ⟨r, hr, hs⟩ := decAt_iff.mp hk
    obtain ⟨he, _⟩ := selDec_some hs
    simp only [Prod.mk.injEq] at he
    exact ⟨r, hr, he.1.symm⟩

theorem dec_terminates (compat : Bool) (orders : Nat → List Nat) (ho : ∀ n, IsKeys (decAt compat) (orders n))
    (fuel : Nat) (hfu : 8 < fuel) : ∃ d', substLoop orders fuel 0 (decAt compat) = some d' := by
  refine loop_terminates (rank := depthN (decAt compat) 8) (R := 8) ?_ orders ho fuel 0 0 (Inv.refl _) ?_
    (by omega)
  · intro k hk
    obtain ⟨r, hr, rfl⟩ := decAt_row hk
    have := rank_all compat hr
    simp only [rankOK, Bool.and_eq_true, Nat.ble_eq] at this
    exact this.1
  · intro k m hm x hx hx0
    obtain ⟨r, hr, rfl⟩ := decAt_row (compat := compat) (k := k) (by rw [hm]; simp)
    have := rank_all compat hr
    simp only [rankOK, Bool.and_eq_true, Nat.ble_eq, hm, List.all_eq_true] at this
    have := this.2 x hx
    cases hdx : decAt compat x with
    | none => exact absurd hdx hx0
    | some mx => rw [hdx] at this; simpa [Nat.blt_eq] using this

theorem genDec_eq (compat : Bool) (hn : (file.map UcdRow.cp).Nodup) (hf : file.filter Relevant = ucdRows)
    {ks : List Nat} {orders : Nat → List Nat} (ho : ∀ n, IsKeys (readDec compat file) (orders n))
    (hk : IsKeys (readDec compat file) ks) {fuel : Nat} (hfu : 8 < fuel) :
    genDec compat orders ks fuel file = some (bif compat then kdecTable else decTable) := by
  have he := readDec_file compat hn hf
  rw [he] at ho hk
  obtain ⟨d', hd'⟩ := dec_terminates compat orders ho fuel hfu
  obtain ⟨hkeys, hexp⟩ := loop_correct orders ho fuel 0 (Inv.refl _) hd'
  rw [genDec, he, hd']
  simp only [Option.some.injEq]
  have htab : (bif compat then kdecTable else decTable) = ucdRows.filterMap (mkDec compat) := by
    cases compat
    · exact mk_dec.symm
    · exact mk_kdec.symm
  -- `mkDec` never falls back to the empty row
  have hne : ∀ r ∈ ucdRows, mkDec compat r ≠ some [] := by
    intro r hr h0
    have hmem : ([] : List Nat) ∈ ucdRows.filterMap (mkDec compat) := List.mem_filterMap.mpr ⟨r, hr, h0⟩
    rw [← htab] at hmem
    cases compat
    · have := List.all_eq_true.mp (show decTable.all (fun l => !l.isEmpty) = true by
        rw [← decTree_toList, List.all_eq_true]
        exact (Tree.all_iff _ _).mp (by decide +kernel)) [] hmem
      simp at this
    · have := List.all_eq_true.mp (show kdecTable.all (fun l => !l.isEmpty) = true by
        rw [← kdecTree_toList, List.all_eq_true]
        exact (Tree.all_iff _ _).mp (by decide +kernel)) [] hmem
      simp at this
  rw [htab]
  refine output_eq (d := decAt compat) hk ?_ ?_
  · intro r hr l hl
    have h0 := hne r hr
    rw [mkDec] at hl h0
    cases hd : decAt compat r.cp with
    | none => rw [hd] at hl; simp at hl
    | some m =>
      rw [hd] at hl h0
      refine ⟨by simp, ?_⟩
      cases hx : expandN (decAt compat) 8 r.cp with
      | none => rw [hx] at h0; simp at h0
      | some lx =>
        rw [hx] at hl
        simp only [Option.some.injEq] at hl
        subst hl
        cases hd2 : d' r.cp with
        | none => rw [(hkeys r.cp).mp hd2] at hd; simp at hd
        | some m' => rw [(hexp r.cp m' hd2).det (expandN_sound hx)]; rfl
  · intro k hk0
    obtain ⟨r, hr, rfl⟩ := decAt_row hk0
    refine ⟨r, hr, rfl, ?_⟩
    rw [mkDec]
    cases hd : decAt compat r.cp with
    | none => exact absurd hd hk0
    | some m => simp only; split <;> simp

/-! ### Composition -/

theorem selComp_iff {r : UcdRow} {p} : selComp r = some p ↔ compSelB r = true ∧ p = (r.decomp, r.cp) := by
  constructor
  · intro h
    obtain ⟨rfl, h1, h2, h3⟩ := selComp_some h
    refine ⟨?_, rfl⟩
    rw [compSelB]
    match r.decomp, h2 with
    | _ :: _ :: _, _ => simp [h1, h3]
  · rintro ⟨h, rfl⟩
    rw [compSelB] at h
    split at h
    · next x y l hd =>
      simp only [Bool.and_eq_true, Nat.beq_eq] at h
      rw [selComp, hd]; simp [h.1, h.2]
    · simp at h

theorem comp_row {r : UcdRow} (hr : r ∈ ucdRows) (hs : compSelB r = true) :
    ∃ a b, r.decomp = [a, b] ∧ ((compGood r = true ∧ compT a b = some r.cp) ∨
      (compGood r = false ∧ compT a b = none)) := by
  have := ucd_all comp_of_ucd hr
  rw [compUcdOK, hs] at this
  simp only [Bool.not_true, Bool.false_or] at this
  split at this
  · next a b hd =>
    refine ⟨a, b, hd, ?_⟩
    split at this
    · next c hc =>
      simp only [Bool.and_eq_true, Nat.beq_eq] at this
      rw [hc, this.2]; exact .inl ⟨this.1, rfl⟩
    · next hc =>
      rw [hc]; exact .inr ⟨by simpa using this, rfl⟩
  · simp at this

theorem nodupB_iff {l : List (List Nat)} (h : nodupB l = true) : l.Nodup := by
  induction l with
  | nil => simp
  | cons x l ih =>
    simp only [nodupB, Bool.and_eq_true, List.all_eq_true, Bool.not_eq_true'] at h
    rw [List.nodup_cons]
    refine ⟨fun hx => ?_, ih h.2⟩
    have := h.1 x hx
    have h2 : eqRow x x = true := by clear this hx ih h; induction x <;> simp_all [eqRow]
    rw [h2] at this; simp at this

theorem nodup_of_inj {f : α → β} {l : List α} (hl : l.Nodup)
    (hi : ∀ x ∈ l, ∀ y ∈ l, f x = f y → x = y) : (l.map f).Nodup := by
  induction l with
  | nil => simp
  | cons a l ih =>
    rw [List.nodup_cons] at hl
    rw [List.map_cons, List.nodup_cons]
    refine ⟨fun h => ?_, ih hl.2 fun x hx y hy => hi x (by simp [hx]) y (by simp [hy])⟩
    obtain ⟨x, hx, he⟩ := List.mem_map.mp h
    have := hi x (by simp [hx]) a (by simp) he
    subst this; exact hl.1 hx

theorem map_filterMap_sel (file : List UcdRow) :
    (file.filterMap selComp).map Prod.fst = (file.filter compSelB).map UcdRow.decomp := by
  induction file with
  | nil => rfl
  | cons r file ih =>
    rw [List.filterMap_cons, List.filter_cons]
    cases hs : selComp r with
    | none =>
      cases hb : compSelB r with
      | false => exact ih
      | true => rw [selComp_iff.mpr ⟨hb, rfl⟩] at hs; simp at hs
    | some p =>
      obtain ⟨hb, rfl⟩ := selComp_iff.mp hs
      rw [hb]
      simp [ih]

/-- Two selected lines have different mappings. -/
theorem comp_inj {r s : UcdRow} (hr : r ∈ ucdRows) (hrs : compSelB r = true) (hs : s ∈ ucdRows)
    (hss : compSelB s = true) (he : r.decomp = s.decomp) : r = s := by
  obtain ⟨a, b, hd, h1⟩ := comp_row hr hrs
  obtain ⟨a', b', hd', h2⟩ := comp_row hs hss
  rw [hd, hd'] at he
  simp only [List.cons.injEq, and_true] at he
  obtain ⟨rfl, rfl⟩ := he
  rcases h1 with ⟨g1, c1⟩ | ⟨g1, c1⟩ <;> rcases h2 with ⟨g2, c2⟩ | ⟨g2, c2⟩
  · rw [c1] at c2
    simp only [Option.some.injEq] at c2
    exact inj_of_nodup_map ucd_nodup hr hs c2
  · rw [c1] at c2; simp at c2
  · rw [c1] at c2; simp at c2
  · have hbad := nodupB_iff compBad_nodup
    have heq : compBad = (ucdRows.filter (fun r => compSelB r && !(compGood r))).map UcdRow.decomp := by
      rw [compBad]
      generalize ucdRows = l
      induction l with
      | nil => rfl
      | cons r l ih =>
        rw [List.filterMap_cons, List.filter_cons]
        cases hb : (compSelB r && !(compGood r)) <;> simp [ih]
    rw [heq] at hbad
    exact inj_of_nodup_map hbad (List.mem_filter.mpr ⟨hr, by simp [hrs, g1]⟩)
      (List.mem_filter.mpr ⟨hs, by simp [hss, g2]⟩) (by rw [hd, hd'])

theorem selB_relevant {r : UcdRow} (h : compSelB r = true) : r.decomp ≠ [] := by
  intro h0; rw [compSelB, h0] at h; simp at h

theorem compRead_file (hn : (file.map UcdRow.cp).Nodup) (hf : file.filter Relevant = ucdRows) (k : List Nat)
    (v : Nat) : compRead file k = some v ↔ ∃ r ∈ ucdRows, compSelB r = true ∧ r.decomp = k ∧ r.cp = v := by
  have hnd : ((file.filterMap selComp).map Prod.fst).Nodup := by
    rw [map_filterMap_sel]
    refine nodup_of_inj ?_ ?_
    · exact List.Pairwise.filter _ (List.pairwise_map.mp hn |>.imp fun h => fun he => h (by rw [he]))
    · intro x hx y hy he
      rw [List.mem_filter] at hx hy
      exact comp_inj ((mem_file hf (.inr (selB_relevant hx.2))).mp hx.1) hx.2
        ((mem_file hf (.inr (selB_relevant hy.2))).mp hy.1) hy.2 he
  rw [compRead_iff hnd]
  constructor
  · rintro ⟨r, hr, hs⟩
    obtain ⟨hb, he⟩ := selComp_iff.mp hs
    simp only [Prod.mk.injEq] at he
    exact ⟨r, (mem_file hf (.inr (selB_relevant hb))).mp hr, hb, he.1.symm, he.2.symm⟩
  · rintro ⟨r, hr, hb, rfl, rfl⟩
    exact ⟨r, (mem_file hf (.inr (selB_relevant hb))).mpr hr, selComp_iff.mpr ⟨hb, rfl⟩⟩

theorem compCcc_file (hn : (file.map UcdRow.cp).Nodup) (hf : file.filter Relevant = ucdRows) (k : Nat) :
    (compCcc file k).getD 0 = cccU k := by
  rw [cccU]
  cases hc : compCcc file k with
  | none =>
    split
    · rfl
    · next r hr =>
      obtain ⟨h1, h2⟩ := ucdAt_iff.mp hr
      have : r ∈ file := (List.mem_filter.mp (by rw [hf]; exact h1 : r ∈ file.filter Relevant)).1
      rw [(compCcc_iff hn k r.ccc).mpr ⟨r, this, h2, rfl⟩] at hc
      simp at hc
  | some v =>
    obtain ⟨r, hr, h1, h2⟩ := (compCcc_iff hn k v).mp hc
    split
    · next hu =>
      by_cases hv : v = 0
      · exact hv
      · have := (mem_file hf (r := r) (.inl (by omega))).mp hr
        rw [ucdAt_iff.mpr ⟨this, h1⟩] at hu; simp at hu
    · next s hs =>
      obtain ⟨g1, g2⟩ := ucdAt_iff.mp hs
      have : s ∈ file := (List.mem_filter.mp (by rw [hf]; exact g1 : s ∈ file.filter Relevant)).1
      have := inj_of_nodup_map hn hr this (by omega)
      subst this; exact h2.symm

/-- Rows of the composition table. -/
theorem comp_table_row {row : List Nat} (h : row ∈ compTable) :
    ∃ r ∈ ucdRows, compSelB r = true ∧ compGood r = true ∧ ∃ a b, r.decomp = [a, b] ∧ row = [a, b, r.cp] := by
  have := (Tree.all_iff _ _).mp ucd_of_comp row (by rw [compTree_toList]; exact h)
  rw [compFromOK.eq_def] at this
  split at this
  · next a b c =>
    split at this
    · next r hr =>
      obtain ⟨h1, h2⟩ := ucdAt_iff.mp hr
      simp only [Bool.and_eq_true] at this
      exact ⟨r, h1, this.1, this.2.1, a, b, eqRow_iff this.2.2, by rw [h2]⟩
    · simp at this
  · simp at this

theorem compT_row {a b c : Nat} (h : compT a b = some c) : [a, b, c] ∈ compTable := by
  rw [compT, Option.map_eq_some_iff] at h
  obtain ⟨row, hrow, hc⟩ := h
  obtain ⟨h1, h2⟩ := Tree.find_some hrow
  rw [compTree_toList] at h1
  obtain ⟨r, _, _, _, a', b', _, rfl⟩ := comp_table_row h1
  simp only [cmpN2, key0, key1, cond_eq_ite, Nat.blt_eq, List.getElem?_cons_zero, Option.getD_some,
    List.getElem?_cons_succ] at h2
  simp only [key2, List.getElem?_cons_succ, List.getElem?_cons_zero, Option.getD_some] at hc
  have : a = a' ∧ b = b' := by
    by_cases g1 : a < a'
    · rw [if_pos g1] at h2; simp at h2
    · by_cases g2 : a' < a
      · rw [if_neg g1, if_pos g2] at h2; simp at h2
      · by_cases g3 : b < b'
        · rw [if_neg g1, if_neg g2, if_pos g3] at h2; simp at h2
        · by_cases g4 : b' < b
          · rw [if_neg g1, if_neg g2, if_neg g3, if_pos g4] at h2; simp at h2
          · omega
  rw [this.1, this.2, ← hc]; exact h1

theorem compHash_iff (hn : (file.map UcdRow.cp).Nodup) (hf : file.filter Relevant = ucdRows)
    {ks1 : List (List Nat)} (h1 : IsKeys (compRead file) ks1) (k : List Nat) (v : Nat) :
    compDelete (compCcc file) exclRows (compRead file) ks1 k = some v ↔
      ∃ a b, k = [a, b] ∧ [a, b, v] ∈ compTable := by
  rw [compDelete_eq _ _ _ _ h1.1, compRead_file hn hf]
  constructor
  · rintro ⟨⟨r, hr, hb, rfl, rfl⟩, h2⟩
    have hk : r.decomp ∈ ks1 := (h1.2 _).mpr (by
      rw [(compRead_file hn hf r.decomp r.cp).mpr ⟨r, hr, hb, rfl, rfl⟩]; simp)
    obtain ⟨h3, h4⟩ := h2 hk
    rw [compCcc_file hn hf] at h3
    have hg : compGood r = true := by
      rw [compGood, h3]
      cases hm : memB r.cp exclRows with
      | false => rfl
      | true => exact absurd (memB_iff.mp hm) h4
    obtain ⟨a, b, hd, hc⟩ := comp_row hr hb
    rcases hc with ⟨_, hc⟩ | ⟨hg', _⟩
    · exact ⟨a, b, hd, compT_row hc⟩
    · rw [hg] at hg'; simp at hg'
  · rintro ⟨a, b, rfl, hrow⟩
    obtain ⟨r, hr, hb, hg, a', b', hd, he⟩ := comp_table_row hrow
    simp only [List.cons.injEq, and_true] at he
    obtain ⟨rfl, rfl, rfl⟩ := he
    refine ⟨⟨r, hr, hb, hd, rfl⟩, fun _ => ?_⟩
    rw [compCcc_file hn hf, ← hd]
    simp only [compGood, Bool.and_eq_true, Nat.beq_eq, Bool.not_eq_true'] at hg
    refine ⟨hg.1, fun hm => ?_⟩
    rw [memB_iff.mpr hm] at hg; simp at hg

theorem genComp_eq (hn : (file.map UcdRow.cp).Nodup) (hf : file.filter Relevant = ucdRows)
    {ks1 ks2 : List (List Nat)} (h1 : IsKeys (compRead file) ks1)
    (h2 : IsKeys (compDelete (compCcc file) exclRows (compRead file) ks1) ks2) :
    genComp ks1 ks2 exclRows file = compTable := by
  have hash := compHash_iff hn hf h1
  have shape : ∀ row ∈ compTable, ∃ a b c, row = [a, b, c] := by
    intro row h
    obtain ⟨r, _, _, _, a, b, _, he⟩ := comp_table_row h
    exact ⟨a, b, r.cp, he⟩
  have hs : ks2.mergeSort compLe = compTable.map (fun row => row.take 2) := by
    refine mergeSort_unique ?_ ?_ ?_ ?_ ?_
    · intro a b c; simp only [compLe, decide_eq_true_eq]; omega
    · intro a b; simp only [compLe, Bool.or_eq_true, decide_eq_true_eq]; omega
    · rw [List.perm_ext_iff_of_nodup h2.1]
      · intro k
        rw [h2.2 k, List.mem_map]
        constructor
        · intro hk
          cases hv : compDelete (compCcc file) exclRows (compRead file) ks1 k with
          | none => exact absurd hv hk
          | some v =>
            obtain ⟨a, b, rfl, hrow⟩ := (hash k v).mp hv
            exact ⟨_, hrow, rfl⟩
        · rintro ⟨row, hrow, rfl⟩
          obtain ⟨a, b, c, rfl⟩ := shape row hrow
          show compDelete (compCcc file) exclRows (compRead file) ks1 [a, b] ≠ none
          rw [(hash [a, b] c).mpr ⟨a, b, rfl, hrow⟩]
          simp
      · rw [List.Nodup, List.pairwise_map]
        refine List.Pairwise.imp_of_mem ?_ comp_sorted
        intro x y hx hy hlt he
        obtain ⟨a, b, c, rfl⟩ := shape x hx
        obtain ⟨a', b', c', rfl⟩ := shape y hy
        simp at he
        simp [key0, key1] at hlt
        omega
    · rw [List.pairwise_map]
      refine List.Pairwise.imp_of_mem ?_ comp_sorted
      intro x y hx hy hlt
      obtain ⟨a, b, c, rfl⟩ := shape x hx
      obtain ⟨a', b', c', rfl⟩ := shape y hy
      simp [key0, key1] at hlt
      simp [compLe]; omega
    · intro x y hx hy g1 g2
      obtain ⟨rx, hrx, rfl⟩ := List.mem_map.mp hx
      obtain ⟨ry, hry, rfl⟩ := List.mem_map.mp hy
      obtain ⟨a, b, c, rfl⟩ := shape rx hrx
      obtain ⟨a', b', c', rfl⟩ := shape ry hry
      simp [compLe] at g1 g2 ⊢; omega
  rw [genComp]
  simp only [hs, List.map_map]
  conv => rhs; rw [← List.map_id compTable]
  refine List.map_congr_left ?_
  intro row hrow
  obtain ⟨a, b, c, rfl⟩ := shape row hrow
  simp only [Function.comp, List.take_succ_cons, List.take_zero, List.headD_cons, List.tail_cons, id,
    (hash [a, b] c).mpr ⟨a, b, rfl, hrow⟩, Option.getD_some]

/-! ### Grapheme cluster breaks -/

theorem perm_classes {β : Type} [DecidableEq β] (f : α → β) (l : List α) {vs : List β} (hn : vs.Nodup) :
    (vs.flatMap (fun v => l.filter (fun r => decide (f r = v)))).Perm (l.filter (fun r => decide (f r ∈ vs))) := by
  induction vs with
  | nil => simp
  | cons v vs ih =>
    rw [List.nodup_cons] at hn
    rw [List.flatMap_cons]
    refine (List.Perm.append_left _ (ih hn.2)).trans ?_
    have hp := List.filter_append_perm (fun r => decide (f r = v)) (l.filter (fun r => decide (f r ∈ v :: vs)))
    refine List.Perm.trans ?_ hp
    rw [List.filter_filter, List.filter_filter]
    refine List.Perm.of_eq (congrArg₂ _ (List.filter_congr ?_) (List.filter_congr ?_))
    · intro x _
      by_cases h : f x = v <;> simp [h]
    · intro x _
      by_cases h : f x = v
      · subst h; simp [hn.1]
      · simp [h]

theorem genGcb_eq : genGcb gcbFileRows = gcbTable := by
  have hall : ∀ r ∈ gcbTable, r.2.2 ∈ gcbOrder := by
    intro r hr
    have := (Tree.all_iff _ _).mp gcb_inOrder r (by rw [gcbTree_toList]; exact hr)
    simpa [gcbInOrder] using this
  have hp : gcbFileRows.Perm gcbTable := by
    rw [← gcb_file]
    refine (perm_classes (fun r : Nat × Nat × GCB => r.2.2) gcbTable (by decide)).trans ?_
    rw [List.filter_eq_self.mpr]
    intro r hr; simpa using hall r hr
  rw [genGcb]
  have hlt : gcbTable.Pairwise (fun a b => a.1 < b.1) := gcb_sorted.imp fun h => by omega
  refine mergeSort_unique ?_ ?_ hp (hlt.imp fun h => by simp; omega) ?_
  · intro a b c; simp; omega
  · intro a b; simp; omega
  · intro a b ha hb h1 h2
    simp at h1 h2
    have he : a.1 = b.1 := by omega
    exact inj_of_nodup_map (f := Prod.fst) ((List.pairwise_map.mpr hlt).imp Nat.ne_of_lt) ha hb he

end U5e
