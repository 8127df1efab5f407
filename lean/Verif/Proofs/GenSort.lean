import Verif.Proofs.GenTerm
/-! Reading a file into a hash and writing a hash in sorted order. -/
namespace U5e
open Spec

variable {κ α : Type} [DecidableEq κ]

/-- Reading lines: `sel` says what a line stores. -/
theorem fold_sel (sel : UcdRow → Option (κ × α)) (file : List UcdRow) (init : Hash κ α) :
    file.foldl (fun d r => match sel r with
      | none => d
      | some p => d.set p.1 p.2) init =
    (file.filterMap sel).foldl (fun d p => d.set p.1 p.2) init := by
  induction file generalizing init with
  | nil => rfl
  | cons r file ih =>
    rw [List.foldl_cons, ih, List.filterMap_cons]
    cases sel r <;> rfl

theorem fold_set {ps : List (κ × α)} (hn : (ps.map Prod.fst).Nodup) (init : Hash κ α) (k : κ) (v : α) :
    ps.foldl (fun d p => d.set p.1 p.2) init k = some v ↔
      (k, v) ∈ ps ∨ (k ∉ ps.map Prod.fst ∧ init k = some v) := by
  induction ps generalizing init with
  | nil => simp
  | cons p ps ih =>
    obtain ⟨a, b⟩ := p
    rw [List.map_cons, List.nodup_cons] at hn
    rw [List.foldl_cons, ih hn.2, Hash.set]
    simp only [List.mem_cons, List.map_cons, Prod.mk.injEq, not_or]
    constructor
    · rintro (h | ⟨h1, h2⟩)
      · exact .inl (.inr h)
      · split at h2
        · next e => simp at h2; exact .inl (.inl ⟨e, h2.symm⟩)
        · next e => exact .inr ⟨⟨e, h1⟩, h2⟩
    · rintro ((⟨rfl, rfl⟩ | h) | ⟨⟨h1, h2⟩, h3⟩)
      · exact .inr ⟨hn.1, by rw [if_pos rfl]⟩
      · exact .inl h
      · exact .inr ⟨h2, by rw [if_neg h1]; exact h3⟩

theorem fold_lookup {f : Hash κ α → UcdRow → Hash κ α} {sel : UcdRow → Option (κ × α)}
    (h0 : ∀ d r, sel r = none → f d r = d) (h1 : ∀ d r p, sel r = some p → f d r = d.set p.1 p.2)
    {file : List UcdRow} (hn : ((file.filterMap sel).map Prod.fst).Nodup) (k : κ) (v : α) :
    file.foldl f (fun _ => none) k = some v ↔ ∃ r ∈ file, sel r = some (k, v) := by
  have hf : f = fun d r => match sel r with
      | none => d
      | some p => d.set p.1 p.2 := by
    funext d r
    cases h : sel r with
    | none => exact h0 d r h
    | some p => exact h1 d r p h
  rw [hf, fold_sel, fold_set hn]
  simp

/-- Lines with different codepoints store under different codepoints. -/
theorem nodup_sel {sel : UcdRow → Option (Nat × α)} (hsel : ∀ r p, sel r = some p → p.1 = r.cp)
    {file : List UcdRow} (hn : (file.map UcdRow.cp).Nodup) : ((file.filterMap sel).map Prod.fst).Nodup := by
  induction file with
  | nil => simp
  | cons r file ih =>
    rw [List.map_cons, List.nodup_cons] at hn
    rw [List.filterMap_cons]
    split
    · exact ih hn.2
    · next p hp =>
      rw [List.map_cons, List.nodup_cons]
      refine ⟨?_, ih hn.2⟩
      rw [hsel r p hp]
      intro h
      obtain ⟨q, hq, he⟩ := List.mem_map.mp h
      obtain ⟨s, hs, hsq⟩ := List.mem_filterMap.mp hq
      apply hn.1
      rw [← he, hsel s q hsq]
      exact List.mem_map.mpr ⟨s, hs, rfl⟩

theorem mergeSort_unique {l s : List α} {le : α → α → Bool}
    (trans : ∀ a b c, le a b = true → le b c = true → le a c = true)
    (total : ∀ a b, (le a b || le b a) = true)
    (hp : l.Perm s) (hs : s.Pairwise (fun a b => le a b = true))
    (anti : ∀ a b, a ∈ s → b ∈ s → le a b = true → le b a = true → a = b) : l.mergeSort le = s := by
  have h1 := List.mergeSort_perm l le
  have h2 : (l.mergeSort le).Pairwise (fun a b => le a b = true) := List.pairwise_mergeSort trans total l
  exact List.Perm.eq_of_pairwise
    (fun a b ha hb => anti a b (hp.mem_iff.mp (h1.mem_iff.mp ha)) hb) h2 hs (h1.trans hp)

/-- Sorting any enumeration of the keys. -/
theorem sort_keys {ks s : List Nat} (hn : ks.Nodup) (hm : ∀ k, k ∈ ks ↔ k ∈ s)
    (hs : s.Pairwise (· < ·)) : ks.mergeSort (fun a b => decide (a ≤ b)) = s := by
  refine mergeSort_unique ?_ ?_ ?_ ?_ ?_
  · intro a b c h1 h2; simp at *; omega
  · intro a b; simp; omega
  · rw [List.perm_ext_iff_of_nodup hn (hs.imp Nat.ne_of_lt)]; exact hm
  · exact hs.imp fun h => by simp; omega
  · intro a b _ _ h1 h2; simp at *; omega

/-- What a line of UnicodeData.txt stores in `%d` of the combining class generator. -/
def selCcc (r : UcdRow) : Option (Nat × Nat) := if r.ccc = 0 then none else some (r.cp, r.ccc)

def selDec (compat : Bool) (r : UcdRow) : Option (Nat × List Nat) :=
  if r.decomp = [] then none
  else if r.tag = 0 ∨ (compat = true ∧ r.tag = 1) then some (r.cp, r.decomp) else none

def selComp (r : UcdRow) : Option (List Nat × Nat) :=
  if r.decomp = [] then none
  else if r.tag ≠ 0 then none
  else if r.decomp.length < 2 then none
  else if r.ccc ≠ 0 then none
  else some (r.decomp, r.cp)

theorem selCcc_some {r : UcdRow} {p} (h : selCcc r = some p) : p = (r.cp, r.ccc) ∧ r.ccc ≠ 0 := by
  rw [selCcc] at h; split at h <;> simp_all

theorem selDec_some {compat : Bool} {r : UcdRow} {p} (h : selDec compat r = some p) :
    p = (r.cp, r.decomp) ∧ r.decomp ≠ [] ∧ (r.tag = 0 ∨ (compat = true ∧ r.tag = 1)) := by
  rw [selDec] at h
  by_cases h1 : r.decomp = []
  · simp [h1] at h
  · by_cases h2 : r.tag = 0 ∨ (compat = true ∧ r.tag = 1)
    · rw [if_neg h1, if_pos h2] at h; simp at h; exact ⟨h.symm, h1, h2⟩
    · rw [if_neg h1, if_neg h2] at h; simp at h

theorem selDec_none {compat : Bool} {r : UcdRow} (h : selDec compat r = none) :
    r.decomp = [] ∨ ¬ (r.tag = 0 ∨ (compat = true ∧ r.tag = 1)) := by
  rw [selDec] at h
  by_cases h1 : r.decomp = []
  · exact .inl h1
  · by_cases h2 : r.tag = 0 ∨ (compat = true ∧ r.tag = 1)
    · rw [if_neg h1, if_pos h2] at h; simp at h
    · exact .inr h2

theorem selComp_some {r : UcdRow} {p} (h : selComp r = some p) :
    p = (r.decomp, r.cp) ∧ r.tag = 0 ∧ 2 ≤ r.decomp.length ∧ r.ccc = 0 := by
  rw [selComp] at h
  by_cases h1 : r.decomp = []
  · simp [h1] at h
  · by_cases h2 : r.tag ≠ 0
    · rw [if_neg h1, if_pos h2] at h; simp at h
    · by_cases h3 : r.decomp.length < 2
      · rw [if_neg h1, if_neg h2, if_pos h3] at h; simp at h
      · by_cases h4 : r.ccc ≠ 0
        · rw [if_neg h1, if_neg h2, if_neg h3, if_pos h4] at h; simp at h
        · rw [if_neg h1, if_neg h2, if_neg h3, if_neg h4] at h; simp at h
          exact ⟨h.symm, by omega, by omega, by omega⟩

theorem readCcc_iff {file : List UcdRow} (hn : (file.map UcdRow.cp).Nodup) (k v : Nat) :
    readCcc file k = some v ↔ ∃ r ∈ file, selCcc r = some (k, v) := by
  refine fold_lookup ?_ ?_ (nodup_sel (fun r p h => by rw [(selCcc_some h).1]) hn) k v
  · intro d r h; rw [selCcc] at h; split at h <;> simp_all
  · intro d r p h; obtain ⟨rfl, h2⟩ := selCcc_some h; simp [h2]

theorem readDec_iff {compat : Bool} {file : List UcdRow} (hn : (file.map UcdRow.cp).Nodup) (k : Nat)
    (m : List Nat) : readDec compat file k = some m ↔ ∃ r ∈ file, selDec compat r = some (k, m) := by
  refine fold_lookup ?_ ?_ (nodup_sel (fun r p h => by rw [(selDec_some h).1]) hn) k m
  · intro d r h
    rcases selDec_none h with h | h
    · simp only [if_pos h]
    · simp only [if_neg h, ite_self]
  · intro d r p h; obtain ⟨rfl, h2, h3⟩ := selDec_some h; simp only [if_neg h2, if_pos h3]

theorem compCcc_iff {file : List UcdRow} (hn : (file.map UcdRow.cp).Nodup) (k v : Nat) :
    compCcc file k = some v ↔ ∃ r ∈ file, r.cp = k ∧ r.ccc = v := by
  rw [compCcc, fold_lookup (sel := fun r => some (r.cp, r.ccc)) (by simp) ?_ (nodup_sel ?_ hn)]
  · simp
  · intro d r p h; simp at h; subst h; rfl
  · intro r p h; simp at h; rw [← h]

theorem compRead_iff {file : List UcdRow} (hn : ((file.filterMap selComp).map Prod.fst).Nodup) (k : List Nat)
    (v : Nat) : compRead file k = some v ↔ ∃ r ∈ file, selComp r = some (k, v) := by
  refine fold_lookup ?_ ?_ hn k v
  · intro d r h
    rw [selComp] at h
    by_cases h1 : r.decomp = []
    · simp only [if_pos h1]
    · by_cases h2 : r.tag ≠ 0
      · simp only [if_pos h2, ite_self]
      · by_cases h3 : r.decomp.length < 2
        · simp only [if_pos h3, ite_self]
        · by_cases h4 : r.ccc ≠ 0
          · simp only [if_pos h4, ite_self]
          · rw [if_neg h1, if_neg h2, if_neg h3, if_neg h4] at h; simp at h
  · intro d r p h
    obtain ⟨rfl, h2, h3, h4⟩ := selComp_some h
    rw [if_neg (by rintro h; rw [h] at h3; simp at h3), if_neg (by omega), if_neg (by omega), if_neg (by omega)]

/-- The deletions of the composition generator. -/
theorem compDelete_eq (ccc : Hash Nat Nat) (excl : List Nat) (d : Hash (List Nat) Nat) (ks : List (List Nat))
    (hn : ks.Nodup) (k : List Nat) (v : Nat) :
    compDelete ccc excl d ks k = some v ↔ d k = some v ∧
      (k ∈ ks → (ccc (k.headD 0)).getD 0 = 0 ∧ v ∉ excl) := by
  induction ks generalizing d with
  | nil => simp [compDelete]
  | cons a ks ih =>
    rw [List.nodup_cons] at hn
    have keep : d k = some v ∧ (k ∈ ks → (ccc (k.headD 0)).getD 0 = 0 ∧ v ∉ excl) → k ≠ a →
        d k = some v ∧ (k ∈ a :: ks → (ccc (k.headD 0)).getD 0 = 0 ∧ v ∉ excl) := by
      rintro ⟨h1, h2⟩ h3
      refine ⟨h1, fun h => h2 ?_⟩
      rcases List.mem_cons.mp h with h | h
      · exact absurd h h3
      · exact h
    have del : (d.del a k = some v ∧ (k ∈ ks → (ccc (k.headD 0)).getD 0 = 0 ∧ v ∉ excl)) ↔
        k ≠ a ∧ d k = some v ∧ (k ∈ ks → (ccc (k.headD 0)).getD 0 = 0 ∧ v ∉ excl) := by
      rw [Hash.del]
      by_cases h : k = a <;> simp [h]
    rw [compDelete]
    split
    · next hb =>
      rw [ih _ hn.2, del]
      constructor
      · rintro ⟨h1, h2⟩; exact keep h2 h1
      · rintro ⟨h1, h2⟩
        refine ⟨?_, h1, fun h => h2 (List.mem_cons_of_mem _ h)⟩
        rintro rfl; exact hb (h2 (by simp)).1
    · next hb =>
      have hb := Decidable.not_not.mp hb
      cases hc : d a with
      | some c =>
        simp only
        split
        · next he =>
          rw [ih _ hn.2, del]
          constructor
          · rintro ⟨h1, h2⟩; exact keep h2 h1
          · rintro ⟨h1, h2⟩
            refine ⟨?_, h1, fun h => h2 (List.mem_cons_of_mem _ h)⟩
            rintro rfl
            rw [h1] at hc; cases hc
            exact (h2 (by simp)).2 he
        · next he =>
          rw [ih _ hn.2]
          constructor
          · rintro ⟨h1, h2⟩
            refine ⟨h1, fun h => ?_⟩
            rcases List.mem_cons.mp h with rfl | h
            · rw [h1] at hc; cases hc; exact ⟨hb, he⟩
            · exact h2 h
          · rintro ⟨h1, h2⟩; exact ⟨h1, fun h => h2 (List.mem_cons_of_mem _ h)⟩
      | none =>
        simp only
        rw [ih _ hn.2]
        constructor
        · rintro ⟨h1, h2⟩
          exact keep ⟨h1, h2⟩ (by rintro rfl; rw [h1] at hc; simp at hc)
        · rintro ⟨h1, h2⟩; exact ⟨h1, fun h => h2 (List.mem_cons_of_mem _ h)⟩

end U5e
