import Verif.Proofs.GenTables
import Verif.Proofs.TableChecks
import Verif.Proofs.NormText
import Verif.Spec.Ucd
/-! The look-up functions and UnicodeData.txt. -/
namespace U5e
open Data Spec

theorem find_ucd {p : UcdRow → Bool} {k : Nat} (hp : ∀ r, p r = true → r.cp = k) {r : UcdRow} :
    ucdRows.find? p = some r ↔ r ∈ ucdRows ∧ p r = true := by
  constructor
  · intro h; exact ⟨List.mem_of_find?_eq_some h, List.find?_some h⟩
  · rintro ⟨h1, h2⟩
    cases hf : ucdRows.find? p with
    | none => exact absurd h2 (by simpa using List.find?_eq_none.mp hf r h1)
    | some s =>
      have hs := List.mem_of_find?_eq_some hf
      have hps := List.find?_some hf
      rw [inj_of_nodup_map ucd_nodup hs h1 (by rw [hp s hps, hp r h2])]

theorem mapping_iff {tags : Nat → Bool} {k : Nat} {m : List Nat} :
    mapping tags k = some m ↔ ∃ r ∈ ucdRows, r.cp = k ∧ r.decomp ≠ [] ∧ tags r.tag = true ∧ r.decomp = m := by
  rw [mapping, Option.map_eq_some_iff]
  constructor
  · rintro ⟨r, hr, rfl⟩
    rw [find_ucd (k := k) (by intro r h; simp at h; exact h.1)] at hr
    obtain ⟨h1, h2⟩ := hr
    simp at h2
    exact ⟨r, h1, h2.1, h2.2.1, h2.2.2, rfl⟩
  · rintro ⟨r, h1, h2, h3, h4, rfl⟩
    exact ⟨r, (find_ucd (k := k) (by intro r h; simp at h; exact h.1)).mpr ⟨h1, by simp [h2, h3, h4]⟩, rfl⟩

theorem opt_ext {a b : Option α} (h : ∀ x, a = some x ↔ b = some x) : a = b := by
  cases a with
  | none => cases b with
    | none => rfl
    | some x => exact absurd ((h x).mpr rfl) (by simp)
  | some x => exact ((h x).mp rfl).symm

theorem mapping_canonical : mapping canonicalTag = decAt false := by
  funext k
  refine opt_ext fun m => ?_
  rw [mapping_iff, decAt_iff]
  constructor
  · rintro ⟨r, h1, rfl, h3, h4, rfl⟩
    exact ⟨r, h1, by rw [selDec, if_neg h3, if_pos (.inl (by simpa [canonicalTag] using h4))]⟩
  · rintro ⟨r, h1, h2⟩
    obtain ⟨he, h3, h4⟩ := selDec_some h2
    simp only [Prod.mk.injEq] at he
    exact ⟨r, h1, he.1.symm, h3, by simpa [canonicalTag] using h4, he.2.symm⟩

theorem mapping_compat : mapping compatTag = decAt true := by
  funext k
  refine opt_ext fun m => ?_
  rw [mapping_iff, decAt_iff]
  constructor
  · rintro ⟨r, h1, rfl, h3, h4, rfl⟩
    refine ⟨r, h1, ?_⟩
    rw [selDec, if_neg h3, if_pos]
    simpa [compatTag] using h4
  · rintro ⟨r, h1, h2⟩
    obtain ⟨he, h3, h4⟩ := selDec_some h2
    simp only [Prod.mk.injEq] at he
    exact ⟨r, h1, he.1.symm, h3, by simpa [compatTag] using h4, he.2.symm⟩

theorem classOf_eq (k : Nat) : classOf k = cccU k := by
  rw [classOf, cccU]
  have : ∀ r, ucdRows.find? (fun r => decide (r.cp = k)) = some r ↔ ucdAt k = some r := by
    intro r
    rw [find_ucd (k := k) (by simp), ucdAt_iff]; simp
  rw [opt_ext this]
  cases ucdAt k <;> rfl

theorem ccc_lookup (k : Nat) : cccResolve k = classOf k := by
  rw [classOf_eq]
  by_cases h : cccU k = 0
  · rw [h]
    by_cases h0 : cccResolve (k : Int) = 0
    · exact h0
    · exfalso
      have hnn : (0 : Int) ≤ cccResolve (k : Int) := by rw [cccResolve_nat]; omega
      obtain ⟨v, hv⟩ : ∃ v : Nat, cccResolve (k : Int) = v := ⟨_, (Int.toNat_of_nonneg hnn).symm⟩
      obtain ⟨k', hk', hrow⟩ := (C27_ccc_iff k v (by omega)).mp hv
      have : k' = k := by omega
      subst this
      rw [← mk_ccc] at hrow
      obtain ⟨r, hr, hm⟩ := List.mem_filterMap.mp hrow
      simp only [mkCcc, cond_eq_ite, Nat.beq_eq] at hm
      by_cases hc : r.ccc = 0
      · rw [if_pos hc] at hm; simp at hm
      · rw [if_neg hc] at hm
        simp at hm
        rw [cccU, ucdAt_iff.mpr ⟨hr, hm.1⟩] at h
        exact hc h
  · have hrow : [k, cccU k] ∈ cccTable := by
      rw [← mk_ccc]
      rw [cccU] at h ⊢
      cases hu : ucdAt k with
      | none => rw [hu] at h; simp at h
      | some r =>
        rw [hu] at h
        obtain ⟨h1, h2⟩ := ucdAt_iff.mp hu
        refine List.mem_filterMap.mpr ⟨r, h1, ?_⟩
        simp only [mkCcc, cond_eq_ite, Nat.beq_eq]
        rw [if_neg h, h2]
    exact C27_ccc_row _ _ hrow

theorem ucdClass_eq (c : Int) : ucdClass c = cccResolve c := by
  rw [ucdClass]
  split
  · next h => rw [← ccc_lookup, Int.toNat_of_nonneg h]
  · next h => rw [cccResolve_neg c (by omega)]

/-- Rows of the decomposition tables against the file. -/
theorem dec_table_iff (compat : Bool) (k : Nat) (l : List Nat) :
    k :: l ∈ (bif compat then kdecTable else decTable) ↔
      ∃ m, decAt compat k ≠ none ∧ expandN (decAt compat) 8 k = some m ∧ l = m ++ [0] := by
  have htab : (bif compat then kdecTable else decTable) = ucdRows.filterMap (mkDec compat) := by
    cases compat
    · exact mk_dec.symm
    · exact mk_kdec.symm
  rw [htab, List.mem_filterMap]
  constructor
  · rintro ⟨r, hr, hm⟩
    rw [mkDec] at hm
    cases hd : decAt compat r.cp with
    | none => rw [hd] at hm; simp at hm
    | some p =>
      rw [hd] at hm
      cases hx : expandN (decAt compat) 8 r.cp with
      | none => rw [hx] at hm; simp at hm
      | some lx =>
        rw [hx] at hm
        simp at hm
        obtain ⟨rfl, rfl⟩ := hm
        exact ⟨lx, by rw [hd]; simp, hx, rfl⟩
  · rintro ⟨m, h1, h2, rfl⟩
    obtain ⟨r, hr, rfl⟩ := decAt_row h1
    refine ⟨r, hr, ?_⟩
    rw [mkDec]
    cases hd : decAt compat r.cp with
    | none => exact absurd hd h1
    | some p => rw [h2]

theorem expandN_total (compat : Bool) (k : Nat) : ∃ l, expandN (decAt compat) 8 k = some l := by
  by_cases h : decAt compat k = none
  · exact ⟨[k], by rw [expandN, h]⟩
  · obtain ⟨r, hr, rfl⟩ := decAt_row h
    cases hx : expandN (decAt compat) 8 r.cp with
    | some l => exact ⟨l, rfl⟩
    | none =>
      exfalso
      have hm : mkDec compat r = some [] := by
        rw [mkDec]
        cases hd : decAt compat r.cp with
        | none => exact absurd hd h
        | some m => simp only [hx]
      have hmem : ([] : List Nat) ∈ ucdRows.filterMap (mkDec compat) := List.mem_filterMap.mpr ⟨r, hr, hm⟩
      cases compat
      · rw [mk_dec] at hmem
        have := (C27_row_shapes.2.2.1 [] hmem).1; simp at this
      · rw [mk_kdec] at hmem
        have := (C27_row_shapes.2.2.2.1 [] hmem).1; simp at this

theorem full_lookup_aux (compat : Bool) (k : Nat) (res : Int → Option (List Int))
    (hres : ∀ (c : Int) m, res c = some m ↔ ∃ (k : Nat) (l : List Nat), c = k ∧ m = l.map Int.ofNat ∧
      k :: l ∈ (bif compat then kdecTable else decTable))
    (hshape : ∀ (c : Int) m, res c = some m → m = full res c ++ [0]) :
    ∃ l, expandN (decAt compat) 8 k = some l ∧ full res k = l.map Int.ofNat := by
  obtain ⟨l, hl⟩ := expandN_total compat k
  refine ⟨l, hl, ?_⟩
  by_cases h : decAt compat k = none
  · rw [expandN, h] at hl
    simp at hl
    subst hl
    have : res k = none := by
      cases hr : res k with
      | none => rfl
      | some m =>
        obtain ⟨k', l', h1, _, h3⟩ := (hres _ _).mp hr
        have : k' = k := by omega
        subst this
        obtain ⟨_, h4, _⟩ := (dec_table_iff compat _ _).mp h3
        exact absurd h h4
    rw [full, this]; rfl
  · have hrow := (dec_table_iff compat k (l ++ [0])).mpr ⟨l, h, hl, rfl⟩
    have hr := (hres k ((l ++ [0]).map Int.ofNat)).mpr ⟨k, l ++ [0], rfl, rfl, hrow⟩
    have := hshape _ _ hr
    rw [List.map_append] at this
    exact (List.append_inj_left' this rfl).symm

theorem fullD_expandN (k : Nat) : ∃ l, expandN (decAt false) 8 k = some l ∧ fullD k = l.map Int.ofNat :=
  full_lookup_aux false k decResolve C27_dec_iff (fun c m h => goodD.shape c m h)

theorem fullK_expandN (k : Nat) : ∃ l, expandN (decAt true) 8 k = some l ∧ fullK k = l.map Int.ofNat :=
  full_lookup_aux true k kdecResolve C27_kdec_iff (fun c m h => goodK.shape c m h)

theorem fullD_lookup (k : Nat) : ∃ l, Expands (mapping canonicalTag) [k] l ∧ fullD k = l.map Int.ofNat := by
  obtain ⟨l, h1, h2⟩ := fullD_expandN k
  exact ⟨l, by rw [mapping_canonical]; exact expandN_sound h1, h2⟩

theorem fullK_lookup (k : Nat) : ∃ l, Expands (mapping compatTag) [k] l ∧ fullK k = l.map Int.ofNat := by
  obtain ⟨l, h1, h2⟩ := fullK_expandN k
  exact ⟨l, by rw [mapping_compat]; exact expandN_sound h1, h2⟩

/-! ### All tags -/

noncomputable def allAt (k : Nat) : Option (List Nat) :=
  match ucdAt k with
  | none => none
  | some r => match r.decomp with
    | [] => none
    | x :: l => some (x :: l)

theorem mapping_any : mapping anyTag = allAt := by
  funext k
  refine opt_ext fun m => ?_
  rw [mapping_iff, allAt]
  constructor
  · rintro ⟨r, h1, h2, h3, _, rfl⟩
    rw [ucdAt_iff.mpr ⟨h1, h2⟩]
    simp only
    cases hd : r.decomp with
    | nil => exact absurd hd h3
    | cons x l => rfl
  · intro h
    cases hu : ucdAt k with
    | none => rw [hu] at h; simp at h
    | some r =>
      rw [hu] at h
      simp only at h
      obtain ⟨h1, h2⟩ := ucdAt_iff.mp hu
      cases hd : r.decomp with
      | nil => rw [hd] at h; simp at h
      | cons x l =>
        rw [hd] at h
        simp at h
        exact ⟨r, h1, h2, by rw [hd]; simp, rfl, by rw [hd]; exact h⟩

noncomputable def anyRowOK (r : UcdRow) : Bool :=
  match expandN allAt 8 r.cp with
  | none => false
  | some l => (eqRow l (fullT kdecT r.cp) || Nat.blt 1 r.tag) &&
    (Nat.ble r.tag 1 || (match r.decomp with
      | [] => false
      | _ :: _ => (kdecT r.cp).isNone))

set_option maxRecDepth 100000 in
theorem any_rows : ucdTree.all anyRowOK = true := by decide +kernel

theorem otherTag_facts {c : Int} (h : OtherTag c) :
    0 ≤ c ∧ kdecResolve c = none ∧ mapping anyTag c.toNat ≠ none := by
  obtain ⟨r, hr, rfl, ht⟩ := h
  have := ucd_all any_rows hr
  rw [anyRowOK] at this
  split at this
  · simp at this
  · rw [Bool.and_eq_true] at this
    have h := this.2
    rw [Bool.or_eq_true, Nat.ble_eq] at h
    rcases h with h | h
    · omega
    · split at h
      · simp at h
      · next x l hd =>
        refine ⟨by omega, ?_, ?_⟩
        · rw [kdecResolve_nat]
          cases hk : kdecT r.cp with
          | none => rfl
          | some m => rw [hk] at h; simp at h
        · intro h0
          have := (mapping_iff (tags := anyTag) (k := r.cp) (m := r.decomp)).mpr
            ⟨r, hr, rfl, by rw [hd]; simp, rfl, rfl⟩
          rw [show (r.cp : Int).toNat = r.cp from rfl] at h0
          rw [h0] at this; simp at this

theorem fullAny_lookup (k : Nat) (h : ¬ OtherTag k) :
    ∃ l, Expands (mapping anyTag) [k] l ∧ fullK k = l.map Int.ofNat := by
  rw [mapping_any]
  cases hu : ucdAt k with
  | none =>
    refine ⟨[k], .keep (by rw [allAt, hu]) .nil, ?_⟩
    obtain ⟨l, h1, h2⟩ := fullK_expandN k
    rw [expandN, decAt, hu] at h1
    simp at h1
    subst h1
    exact h2
  | some r =>
    obtain ⟨h1, rfl⟩ := ucdAt_iff.mp hu
    have := ucd_all any_rows h1
    rw [anyRowOK] at this
    split at this
    · simp at this
    · next l hl =>
      rw [Bool.and_eq_true, Bool.or_eq_true] at this
      refine ⟨l, expandN_sound hl, ?_⟩
      rcases this.1 with h3 | h3
      · rw [full_nat kdecResolve_nat, eqRow_iff h3]
      · exact absurd ⟨r, h1, rfl, by simpa [Nat.blt_eq] using h3⟩ h

theorem fullAny_total (k : Nat) : ∃ l, Expands (mapping anyTag) [k] l := by
  rw [mapping_any]
  cases hu : ucdAt k with
  | none => exact ⟨[k], .keep (by rw [allAt, hu]) .nil⟩
  | some r =>
    obtain ⟨h1, rfl⟩ := ucdAt_iff.mp hu
    have := ucd_all any_rows h1
    rw [anyRowOK] at this
    split at this
    · simp at this
    · next l hl => exact ⟨l, expandN_sound hl⟩

/-! ### Composition -/

theorem primaryComposite_eq : primaryComposite = compResolve := by
  funext a b
  rw [primaryComposite]
  by_cases hneg : a < 0 ∨ b < 0
  · rw [if_pos hneg]
    cases hc : compResolve a b with
    | none => rfl
    | some c =>
      obtain ⟨i, j, k, h1, h2, _⟩ := (C27_comp_iff a b c).mp hc
      omega
  · rw [if_neg hneg]
    refine opt_ext fun c => ?_
    rw [Option.map_eq_some_iff, C27_comp_iff]
    have hgood : ∀ r : UcdRow, ∀ x y, r.decomp = [x, y] → r.tag = 0 → r.ccc = 0 →
        (compGood r = true ↔ classOf x = 0 ∧ r.cp ∉ exclRows) := by
      intro r x y hd _ _
      rw [compGood, hd, classOf_eq, Bool.and_eq_true, Nat.beq_eq, Bool.not_eq_true']
      refine and_congr Iff.rfl ?_
      rw [← memB_iff]; simp
    have hsel : ∀ r : UcdRow, ∀ x y, r.decomp = [x, y] → (compSelB r = true ↔ r.tag = 0 ∧ r.ccc = 0) := by
      intro r x y hd
      rw [compSelB, hd]; simp
    constructor
    · rintro ⟨r, hr, rfl⟩
      have hp := List.find?_some hr
      have hm := List.mem_of_find?_eq_some hr
      simp only [decide_eq_true_eq] at hp
      obtain ⟨h1, h2, h3, h4, h5⟩ := hp
      have hs := (hsel r _ _ h2).mpr ⟨h1, h3⟩
      have hg := (hgood r _ _ h2 h1 h3).mpr ⟨h4, h5⟩
      obtain ⟨x, y, hd, hc⟩ := comp_row hm hs
      rw [h2] at hd
      simp only [List.cons.injEq, and_true] at hd
      obtain ⟨rfl, rfl⟩ := hd
      rcases hc with ⟨_, hc⟩ | ⟨hg', _⟩
      · exact ⟨a.toNat, b.toNat, r.cp, by omega, by omega, rfl, compT_row hc⟩
      · rw [hg] at hg'; simp at hg'
    · rintro ⟨i, j, k, rfl, rfl, rfl, hrow⟩
      obtain ⟨r, hr, hb, hg, x, y, hd, he⟩ := comp_table_row hrow
      simp only [List.cons.injEq, and_true] at he
      obtain ⟨rfl, rfl, rfl⟩ := he
      have hs := (hsel r _ _ hd).mp hb
      have hg := (hgood r _ _ hd hs.1 hs.2).mp hg
      refine ⟨r, ?_, rfl⟩
      cases hf : ucdRows.find? (fun r => decide (r.tag = 0 ∧ r.decomp = [(i : Int).toNat, (j : Int).toNat] ∧
          r.ccc = 0 ∧ classOf (i : Int).toNat = 0 ∧ r.cp ∉ exclRows)) with
      | none =>
        have := List.find?_eq_none.mp hf r hr
        simp only [decide_eq_true_eq] at this
        exact absurd ⟨hs.1, hd, hs.2, hg.1, hg.2⟩ this
      | some s =>
        have hp := List.find?_some hf
        have hm := List.mem_of_find?_eq_some hf
        simp only [decide_eq_true_eq] at hp
        have hss := (hsel s _ _ hp.2.1).mpr ⟨hp.1, hp.2.2.1⟩
        rw [comp_inj hm hss hr hb (by rw [hd, hp.2.1]; rfl)]

end U5e
