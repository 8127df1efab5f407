import Verif.Proofs.GenSort
import Verif.Proofs.GenTerm
import Verif.Spec.GenSpec
/-! # The generators on any lines -/
namespace U5e
open Spec

theorem nodup_of_increasing {rs : List UcdRow} (h : (rs.map UcdRow.cp).Pairwise (· < ·)) : (rs.map UcdRow.cp).Nodup :=
  h.imp Nat.ne_of_lt

theorem map_inj_of_nodup {rs : List UcdRow} (h : (rs.map UcdRow.cp).Nodup) {r s : UcdRow} (hr : r ∈ rs) (hs : s ∈ rs)
    (he : r.cp = s.cp) : r = s := by
  induction rs with
  | nil => simp at hr
  | cons a l ih =>
    rw [List.map_cons, List.nodup_cons] at h
    rcases List.mem_cons.mp hr with rfl | hr
    · rcases List.mem_cons.mp hs with rfl | hs
      · rfl
      · exact absurd (List.mem_map.mpr ⟨s, hs, he.symm⟩) h.1
    · rcases List.mem_cons.mp hs with rfl | hs
      · exact absurd (List.mem_map.mpr ⟨r, ‹r ∈ l›, he⟩) h.1
      · exact ih h.2 hr hs

theorem genCcc_any {rs : List UcdRow} (hi : (rs.map UcdRow.cp).Pairwise (· < ·)) {ks : List Nat}
    (hk : IsKeys (readCcc rs) ks) : genCcc ks rs = classRows rs := by
  have hn := nodup_of_increasing hi
  have hval : ∀ r ∈ rs, r.ccc ≠ 0 → readCcc rs r.cp = some r.ccc := by
    intro r hr h
    exact (readCcc_iff hn _ _).mpr ⟨r, hr, by rw [selCcc, if_neg h]⟩
  have hs : ks.mergeSort (fun a b => decide (a ≤ b)) =
      (rs.filter (fun r => decide (r.ccc ≠ 0))).map UcdRow.cp := by
    refine sort_keys hk.1 ?_ ?_
    · intro k
      rw [hk.2 k, List.mem_map]
      constructor
      · intro h
        cases hv : readCcc rs k with
        | none => exact absurd hv h
        | some v =>
          obtain ⟨r, hr, hs⟩ := (readCcc_iff hn k v).mp hv
          obtain ⟨he, hc⟩ := selCcc_some hs
          simp only [Prod.mk.injEq] at he
          exact ⟨r, List.mem_filter.mpr ⟨hr, by simpa using hc⟩, he.1.symm⟩
      · rintro ⟨r, hr, rfl⟩
        rw [List.mem_filter] at hr
        rw [hval r hr.1 (by simpa using hr.2)]; simp
    · exact (List.pairwise_map.mpr ((List.pairwise_map.mp hi).filter _))
  rw [genCcc, hs, classRows, List.map_map]
  refine List.map_congr_left ?_
  intro r hr
  rw [List.mem_filter] at hr
  simp [hval r hr.1 (by simpa using hr.2)]

theorem readDec_eq_mapOf (compat : Bool) {rs : List UcdRow} (hn : (rs.map UcdRow.cp).Nodup) :
    readDec compat rs = mapOf compat rs := by
  funext k
  have key : ∀ m, readDec compat rs k = some m ↔ mapOf compat rs k = some m := by
    intro m
    rw [readDec_iff hn, mapOf, Option.map_eq_some_iff]
    constructor
    · rintro ⟨r, hr, hs⟩
      obtain ⟨he, h1, h2⟩ := selDec_some hs
      simp only [Prod.mk.injEq] at he
      obtain ⟨rfl, rfl⟩ := he
      cases hf : rs.find? (fun s => decide (s.cp = r.cp ∧ Mapped compat s)) with
      | none =>
        have := List.find?_eq_none.mp hf r hr
        simp [Mapped, h1, h2] at this
      | some s =>
        have h3 := List.find?_some hf
        simp only [decide_eq_true_eq] at h3
        have := map_inj_of_nodup hn (List.mem_of_find?_eq_some hf) hr h3.1
        exact ⟨s, rfl, by rw [this]⟩
    · rintro ⟨r, hf, rfl⟩
      have h3 := List.find?_some hf
      simp only [decide_eq_true_eq] at h3
      refine ⟨r, List.mem_of_find?_eq_some hf, ?_⟩
      rw [selDec, if_neg h3.2.1, if_pos h3.2.2, h3.1]
  cases h : readDec compat rs k with
  | none => cases h2 : mapOf compat rs k with
    | none => rfl
    | some m => rw [(key m).mpr h2] at h; simp at h
  | some m => exact ((key m).mp h).symm

theorem mapOf_of_mem {compat : Bool} {rs : List UcdRow} (hn : (rs.map UcdRow.cp).Nodup) {r : UcdRow} (hr : r ∈ rs)
    (hm : Mapped compat r) : mapOf compat rs r.cp = some r.decomp := by
  rw [← readDec_eq_mapOf compat hn]
  exact (readDec_iff hn _ _).mpr ⟨r, hr, by rw [selDec, if_neg hm.1, if_pos hm.2]⟩

theorem Expands_of_single {d : Nat → Option (List Nat)} {k : Nat} {m l : List Nat} (hk : d k = some m)
    (h : Expands d [k] l) : Expands d m l := by
  cases h with
  | keep h1 _ => rw [hk] at h1; simp at h1
  | expand h1 h2 h3 =>
    rw [hk] at h1
    cases h1
    cases h3
    rw [List.append_nil]; exact h2

theorem genDec_any (compat : Bool) {rs : List UcdRow} (hi : (rs.map UcdRow.cp).Pairwise (· < ·)) {ks : List Nat}
    {orders : Nat → List Nat} (ho : ∀ n, IsKeys (readDec compat rs) (orders n)) (hk : IsKeys (readDec compat rs) ks)
    (fuel : Nat) {out : List (List Nat)} (h : genDec compat orders ks fuel rs = some out) :
    ∃ full, (∀ r ∈ rs, Mapped compat r → Expands (mapOf compat rs) r.decomp (full r.cp)) ∧
      out = mappingRows compat rs full := by
  have hn := nodup_of_increasing hi
  rw [genDec] at h
  cases hd : substLoop orders fuel 0 (readDec compat rs) with
  | none => rw [hd] at h; simp at h
  | some d =>
    rw [hd] at h
    simp only [Option.some.injEq] at h
    obtain ⟨k1, e1⟩ := loop_correct orders ho fuel 0 (Inv.refl _) hd
    refine ⟨fun k => (d k).getD [], ?_, ?_⟩
    · intro r hr hm
      have h0 := mapOf_of_mem hn hr hm
      rw [← readDec_eq_mapOf compat hn] at h0 ⊢
      cases hdr : d r.cp with
      | none => rw [(k1 r.cp).mp hdr] at h0; simp at h0
      | some m => simpa [hdr] using Expands_of_single h0 (e1 _ _ hdr)
    · have hs : ks.mergeSort (fun a b => decide (a ≤ b)) =
          (rs.filter (fun r => decide (Mapped compat r))).map UcdRow.cp := by
        refine sort_keys hk.1 ?_ ?_
        · intro k
          rw [hk.2 k, List.mem_map]
          constructor
          · intro h
            cases hv : readDec compat rs k with
            | none => exact absurd hv h
            | some v =>
              obtain ⟨r, hr, hs⟩ := (readDec_iff hn k v).mp hv
              obtain ⟨he, hc⟩ := selDec_some hs
              simp only [Prod.mk.injEq] at he
              exact ⟨r, List.mem_filter.mpr ⟨hr, decide_eq_true hc⟩, he.1.symm⟩
          · rintro ⟨r, hr, rfl⟩
            rw [List.mem_filter] at hr
            rw [readDec_eq_mapOf compat hn, mapOf_of_mem hn hr.1 (by simpa using hr.2)]; simp
        · exact (List.pairwise_map.mpr ((List.pairwise_map.mp hi).filter _))
      rw [← h, hs, mappingRows, List.map_map]
      rfl

/-! ## Composition -/

theorem compCcc_classIn {rs : List UcdRow} (hn : (rs.map UcdRow.cp).Nodup) (k : Nat) :
    (compCcc rs k).getD 0 = classIn rs k := by
  rw [classIn]
  cases hc : compCcc rs k with
  | none =>
    cases hf : rs.find? (fun r => decide (r.cp = k)) with
    | none => rfl
    | some r =>
      have h3 := List.find?_some hf
      simp only [decide_eq_true_eq] at h3
      rw [(compCcc_iff hn k r.ccc).mpr ⟨r, List.mem_of_find?_eq_some hf, h3, rfl⟩] at hc
      simp at hc
  | some v =>
    obtain ⟨r, hr, h1, h2⟩ := (compCcc_iff hn k v).mp hc
    cases hf : rs.find? (fun r => decide (r.cp = k)) with
    | none =>
      have := List.find?_eq_none.mp hf r hr
      simp [h1] at this
    | some s =>
      have h3 := List.find?_some hf
      simp only [decide_eq_true_eq] at h3
      have := map_inj_of_nodup hn (List.mem_of_find?_eq_some hf) hr (h3.trans h1.symm)
      rw [this]; simp [h2]

theorem nodup_map_of_inj {α β : Type} {f : α → β} {l : List α} (hl : l.Nodup)
    (hi : ∀ x ∈ l, ∀ y ∈ l, f x = f y → x = y) : (l.map f).Nodup := by
  induction l with
  | nil => simp
  | cons a l ih =>
    rw [List.nodup_cons] at hl
    rw [List.map_cons, List.nodup_cons]
    refine ⟨?_, ih hl.2 fun x hx y hy => hi x (by simp [hx]) y (by simp [hy])⟩
    intro h
    obtain ⟨y, hy, he⟩ := List.mem_map.mp h
    have := hi y (by simp [hy]) a (by simp) he
    subst this; exact hl.1 hy

theorem selComp_filterMap (rs : List UcdRow) :
    (rs.filterMap selComp).map Prod.fst = (rs.filter (fun r => (selComp r).isSome)).map UcdRow.decomp := by
  induction rs with
  | nil => rfl
  | cons r rs ih =>
    rw [List.filterMap_cons, List.filter_cons]
    cases h : selComp r with
    | none => simpa using ih
    | some p => simp [ih, (selComp_some h).1]

theorem compRead_any {rs : List UcdRow} (hn : (rs.map UcdRow.cp).Nodup) (ho : CanonicalOk rs) (k : List Nat) (v : Nat) :
    compRead rs k = some v ↔ ∃ r ∈ rs, r.cp = v ∧ r.tag = 0 ∧ r.decomp = k ∧ k.length = 2 ∧ r.ccc = 0 := by
  have hlen : ∀ r ∈ rs, ∀ p, selComp r = some p → r.tag = 0 ∧ r.decomp.length = 2 ∧ r.ccc = 0 := by
    intro r hr p hp
    obtain ⟨_, h1, h2, h3⟩ := selComp_some hp
    have := ho.short r hr h1
    exact ⟨h1, by omega, h3⟩
  have hnd : ((rs.filterMap selComp).map Prod.fst).Nodup := by
    rw [selComp_filterMap]
    refine nodup_map_of_inj ?_ ?_
    · exact List.Pairwise.filter _ (List.pairwise_map.mp hn |>.imp fun h => fun he => h (by rw [he]))
    · intro x hx y hy he
      rw [List.mem_filter, Option.isSome_iff_exists] at hx hy
      obtain ⟨hx, px, hpx⟩ := hx
      obtain ⟨hy, py, hpy⟩ := hy
      have h1 := hlen x hx px hpx
      have h2 := hlen y hy py hpy
      exact ho.distinct x hx y hy h1.1 h2.1 h1.2.2 h2.2.2 h1.2.1 he
  rw [compRead_iff hnd]
  constructor
  · rintro ⟨r, hr, hs⟩
    have h1 := hlen r hr _ hs
    have := (selComp_some hs).1
    simp only [Prod.mk.injEq] at this
    obtain ⟨rfl, rfl⟩ := this
    exact ⟨r, hr, rfl, h1.1, rfl, h1.2.1, h1.2.2⟩
  · rintro ⟨r, hr, rfl, h1, rfl, h2, h3⟩
    refine ⟨r, hr, ?_⟩
    have : r.decomp ≠ [] := by intro h; rw [h] at h2; simp at h2
    rw [selComp]
    simp [this, h1, h2, h3]

theorem genComp_any {rs : List UcdRow} {excl : List Nat} (hn : (rs.map UcdRow.cp).Nodup) (ho : CanonicalOk rs)
    {ks1 ks2 : List (List Nat)} (h1 : IsKeys (compRead rs) ks1)
    (h2 : IsKeys (compDelete (compCcc rs) excl (compRead rs) ks1) ks2) :
    IsCompositionTable rs excl (genComp ks1 ks2 excl rs) := by
  have hash : ∀ k v, compDelete (compCcc rs) excl (compRead rs) ks1 k = some v ↔
      ∃ a b, k = [a, b] ∧ Composite rs excl a b v := by
    intro k v
    rw [compDelete_eq _ _ _ _ h1.1, compRead_any hn ho, compCcc_classIn hn]
    constructor
    · rintro ⟨⟨r, hr, hv, ht, hd, hl, hc⟩, hx⟩
      have hk : k ∈ ks1 := (h1.2 _).mpr (by
        rw [(compRead_any hn ho k v).mpr ⟨r, hr, hv, ht, hd, hl, hc⟩]; simp)
      obtain ⟨h3, h4⟩ := hx hk
      match k, hl with
      | [a, b], _ => exact ⟨a, b, rfl, ⟨r, hr, hv, ht, hd, hc⟩, h3, h4⟩
    · rintro ⟨a, b, rfl, ⟨r, hr, hv, ht, hd, hc⟩, h3, h4⟩
      exact ⟨⟨r, hr, hv, ht, hd, rfl, hc⟩, fun _ => ⟨h3, h4⟩⟩
  have hmem : ∀ k, k ∈ ks2 ↔ ∃ a b c, k = [a, b] ∧ Composite rs excl a b c := by
    intro k
    rw [h2.2 k]
    cases hv : compDelete (compCcc rs) excl (compRead rs) ks1 k with
    | none =>
      simp only [ne_eq, not_true_eq_false, false_iff]
      rintro ⟨a, b, c, rfl, hc⟩
      rw [(hash [a, b] c).mpr ⟨a, b, rfl, hc⟩] at hv; simp at hv
    | some v =>
      obtain ⟨a, b, rfl, hc⟩ := (hash k v).mp hv
      simp only [ne_eq, reduceCtorEq, not_false_eq_true, true_iff]
      exact ⟨a, b, v, rfl, hc⟩
  have hrow : ∀ a b c, Composite rs excl a b c →
      (compDelete (compCcc rs) excl (compRead rs) ks1 [a, b]).getD 0 = c := by
    intro a b c hc
    rw [(hash [a, b] c).mpr ⟨a, b, rfl, hc⟩]; rfl
  have hsp := List.mergeSort_perm ks2 compLe
  constructor
  · intro row
    rw [genComp, List.mem_map]
    constructor
    · rintro ⟨k, hk, rfl⟩
      obtain ⟨a, b, c, rfl, hc⟩ := (hmem k).mp (hsp.mem_iff.mp hk)
      exact ⟨a, b, c, by simp [hrow a b c hc], hc⟩
    · rintro ⟨a, b, c, rfl, hc⟩
      exact ⟨[a, b], hsp.mem_iff.mpr ((hmem _).mpr ⟨a, b, c, rfl, hc⟩), by simp [hrow a b c hc]⟩
  · rw [genComp, List.pairwise_map]
    have hle : (ks2.mergeSort compLe).Pairwise (fun a b => compLe a b = true) := by
      refine List.pairwise_mergeSort ?_ ?_ ks2
      · intro a b c; simp only [compLe, decide_eq_true_eq]; omega
      · intro a b; simp only [compLe, Bool.or_eq_true, decide_eq_true_eq]; omega
    have hnd : (ks2.mergeSort compLe).Pairwise (fun a b => a ≠ b) := hsp.nodup_iff.mpr h2.1
    refine List.Pairwise.imp_of_mem ?_ (hle.and hnd)
    intro x y hx hy hxy
    obtain ⟨a, b, c, rfl, hc⟩ := (hmem x).mp (hsp.mem_iff.mp hx)
    obtain ⟨a', b', c', rfl, hc'⟩ := (hmem y).mp (hsp.mem_iff.mp hy)
    refine ⟨a, b, c, a', b', c', by simp [hrow a b c hc], by simp [hrow a' b' c' hc'], ?_⟩
    have h1 := hxy.1
    have h2 := hxy.2
    simp [compLe] at h1 h2
    omega

/-! ## Hashes have enumerations -/

theorem exists_keys_set {κ α : Type} [DecidableEq κ] {d : Hash κ α} (h : ∃ ks, IsKeys d ks) (k : κ) (v : α) :
    ∃ ks, IsKeys (d.set k v) ks := by
  obtain ⟨ks, h1, h2⟩ := h
  by_cases hk : k ∈ ks
  · refine ⟨ks, h1, fun x => ?_⟩
    rw [Hash.set]
    by_cases hx : x = k
    · subst hx; simp [hk]
    · simp only [if_neg hx]; exact h2 x
  · refine ⟨k :: ks, List.nodup_cons.mpr ⟨hk, h1⟩, fun x => ?_⟩
    rw [Hash.set]
    by_cases hx : x = k
    · subst hx; simp
    · simp only [List.mem_cons, hx, false_or]; exact h2 x

theorem exists_keys_del {κ α : Type} [DecidableEq κ] {d : Hash κ α} (h : ∃ ks, IsKeys d ks) (k : κ) :
    ∃ ks, IsKeys (d.del k) ks := by
  obtain ⟨ks, h1, h2⟩ := h
  refine ⟨ks.filter (fun x => decide (x ≠ k)), h1.filter _, fun x => ?_⟩
  rw [List.mem_filter, Hash.del, h2 x]
  by_cases hx : x = k <;> simp [hx]

theorem exists_keys_foldl {σ κ α : Type} {f : Hash κ α → σ → Hash κ α}
    (hf : ∀ d s, (∃ ks, IsKeys d ks) → ∃ ks, IsKeys (f d s) ks) (l : List σ) (d : Hash κ α) (h : ∃ ks, IsKeys d ks) :
    ∃ ks, IsKeys (l.foldl f d) ks := by
  induction l generalizing d with
  | nil => exact h
  | cons s l ih => exact ih _ (hf d s h)

theorem exists_keys_empty {κ α : Type} : ∃ ks, IsKeys (fun _ => none : Hash κ α) ks := ⟨[], by simp, by simp⟩

end U5e
