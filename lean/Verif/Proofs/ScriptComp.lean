import Verif.Proofs.ScriptSim
/-! # canonical_composition_mapping_data.pl on text -/
namespace U5e
open Spec

/-- The codepoints of a key of `%d`. -/
def unKey (s : Str) : List Nat := (perlSplit 32 s).map hex

theorem perlSplit_entries {l : List Nat} (h : l ≠ []) : perlSplit 32 (entriesText l) = l.map hex4 := by
  rw [entriesText]
  refine perlSplit_join (by simpa using h) ?_ ?_
  · intro w hw
    obtain ⟨n, _, rfl⟩ := List.mem_map.mp hw
    exact not_isHex_mem (by decide) n
  · intro w hw
    obtain ⟨n, _, rfl⟩ := List.mem_map.mp hw
    exact hex4_ne_nil n

theorem unKey_entries {l : List Nat} (h : l ≠ []) : unKey (entriesText l) = l := by
  rw [unKey, perlSplit_entries h, List.map_map]
  conv => rhs; rw [← List.map_id l]
  exact List.map_congr_left fun x _ => by simp [hex_hex4]

theorem entriesText_inj {l l' : List Nat} (h : l ≠ []) (h' : l' ≠ []) (e : entriesText l = entriesText l') :
    l = l' := by
  rw [← unKey_entries h, e, unKey_entries h']

theorem takeWhile_hex (s t : Str) (hs : ∀ c ∈ s, isHex c = true) (ht : isHex (t.headD 0) = false) :
    (s ++ t).takeWhile isHex = s ∧ (s ++ t).dropWhile isHex = t := by
  induction s with
  | nil =>
    cases t with
    | nil => simp
    | cons c t =>
      have : isHex c = false := by simpa using ht
      simp [this]
  | cons c s ih =>
    have hc := hs c (by simp)
    have := ih (fun x hx => hs x (by simp [hx]))
    simp [hc, this]

theorem entriesText_two (x y : Nat) (l : List Nat) :
    entriesText (x :: y :: l) = hex4 x ++ (32 :: entriesText (y :: l)) := by
  simp [entriesText, join]

theorem hexPair_entries (l : List Nat) (hl : l ≠ []) : hexPair (entriesText l) = decide (2 ≤ l.length) := by
  rw [hexPair, entriesText_head hl, Bool.true_and]
  match l, hl with
  | [x], _ =>
    have := (takeWhile_hex (hex4 x) [] (hex4_isHex x) (by decide)).2
    rw [List.append_nil] at this
    simp [entriesText, join, this]
  | x :: y :: l, _ =>
    rw [entriesText_two, (takeWhile_hex (hex4 x) _ (hex4_isHex x) (by simp; decide)).2]
    have hh := entriesText_head (l := y :: l) (by simp)
    cases he : entriesText (y :: l) with
    | nil => exact absurd he (entriesText_ne_nil (by simp))
    | cons c cs =>
      rw [he] at hh
      have : isHex c = true := by simpa using hh
      simp [this]

theorem hexRun_entries (x : Nat) (l : List Nat) : hexRun (entriesText (x :: l)) = hex4 x := by
  rw [hexRun]
  cases l with
  | nil =>
    have := (takeWhile_hex (hex4 x) [] (hex4_isHex x) (by decide)).1
    simpa [entriesText, join] using this
  | cons y l => rw [entriesText_two, (takeWhile_hex (hex4 x) _ (hex4_isHex x) (by simp; decide)).1]

theorem spaceHexRun_hex (s t : Str) (hs : ∀ c ∈ s, isHex c = true) : spaceHexRun (s ++ t) = spaceHexRun t := by
  induction s with
  | nil => rfl
  | cons c s ih =>
    rw [List.cons_append, spaceHexRun, isSpace_of_isHex (hs c (by simp)), Bool.false_and]
    simpa using ih (fun x hx => hs x (by simp [hx]))

theorem spaceHexRun_entries (x y : Nat) (l : List Nat) : spaceHexRun (entriesText (x :: y :: l)) = hex4 y := by
  rw [entriesText_two, spaceHexRun_hex _ _ (hex4_isHex x), spaceHexRun,
    if_pos (by rw [entriesText_head (l := y :: l) (by simp)]; decide), hexRun_entries]

theorem compLeT_entries {a b : List Nat} (ha : 2 ≤ a.length) (hb : 2 ≤ b.length) :
    compLeT (entriesText a) (entriesText b) = compLe a b := by
  match a, ha with
  | x :: y :: a, _ =>
    match b, hb with
    | u :: v :: b, _ =>
      rw [compLeT, compLe]
      simp only [hexRun_entries, spaceHexRun_entries, hex_hex4, List.headD_cons, List.tail_cons]
      congr

/-- `%d` with the decompositions as strings and as lists of numbers. -/
structure KeySim (ds : Hash Str Str) (dn : Hash (List Nat) Nat) : Prop where
  eq : ∀ l, l ≠ [] → ds (entriesText l) = (dn l).map hex4
  keys : ∀ s, ds s ≠ none → ∃ l, l ≠ [] ∧ s = entriesText l
  long : ∀ l, dn l ≠ none → 2 ≤ l.length

theorem KeySim.set {ds : Hash Str Str} {dn : Hash (List Nat) Nat} (h : KeySim ds dn) {l : List Nat}
    (hl : 2 ≤ l.length) (c : Nat) : KeySim (ds.set (entriesText l) (hex4 c)) (dn.set l c) := by
  have hne : l ≠ [] := by rintro rfl; simp at hl
  refine ⟨?_, ?_, ?_⟩
  · intro x hx
    rw [Hash.set, Hash.set]
    by_cases e : x = l
    · simp [e]
    · rw [if_neg e, if_neg (fun he => e (entriesText_inj hx hne he))]; exact h.eq x hx
  · intro s hs
    rw [Hash.set] at hs
    split at hs
    · next e => exact ⟨l, hne, e⟩
    · exact h.keys s hs
  · intro x hx
    rw [Hash.set] at hx
    split at hx
    · next e => rw [e]; exact hl
    · exact h.long x hx

theorem KeySim.del {ds : Hash Str Str} {dn : Hash (List Nat) Nat} (h : KeySim ds dn) {l : List Nat}
    (hl : l ≠ []) : KeySim (ds.del (entriesText l)) (dn.del l) := by
  refine ⟨?_, ?_, ?_⟩
  · intro x hx
    rw [Hash.del, Hash.del]
    by_cases e : x = l
    · simp [e]
    · rw [if_neg e, if_neg (fun he => e (entriesText_inj hx hl he))]; exact h.eq x hx
  · intro s hs
    rw [Hash.del] at hs
    split at hs
    · exact absurd rfl hs
    · exact h.keys s hs
  · intro x hx
    rw [Hash.del] at hx
    split at hx
    · exact absurd rfl hx
    · exact h.long x hx

theorem KeySim.isKeys {ds : Hash Str Str} {dn : Hash (List Nat) Nat} (h : KeySim ds dn)
    {ks : List Str} (hk : IsKeys ds ks) :
    IsKeys dn (ks.map unKey) ∧ (ks.map unKey).map entriesText = ks := by
  have hb : ∀ s ∈ ks, entriesText (unKey s) = s := fun s hs => by
    obtain ⟨l, hl, rfl⟩ := h.keys s ((hk.2 s).mp hs)
    rw [unKey_entries hl]
  refine ⟨⟨?_, ?_⟩, ?_⟩
  · rw [List.Nodup, List.pairwise_map]
    refine List.Pairwise.imp_of_mem ?_ hk.1
    intro a b ha hb' hab e
    exact hab (by rw [← hb a ha, e, hb b hb'])
  · intro l
    rw [List.mem_map]
    constructor
    · rintro ⟨s, hs, rfl⟩
      have := (hk.2 s).mp hs
      obtain ⟨l, hl, rfl⟩ := h.keys s this
      rw [h.eq l hl] at this
      rw [unKey_entries hl]
      intro e; rw [e] at this; exact this rfl
    · intro hn
      have hl : l ≠ [] := by
        rintro rfl
        have := h.long [] hn; simp at this
      refine ⟨entriesText l, (hk.2 _).mpr ?_, unKey_entries hl⟩
      rw [h.eq l hl]
      simpa using hn
  · rw [List.map_map]
    conv => rhs; rw [← List.map_id ks]
    exact List.map_congr_left fun s hs => by simpa using hb s hs

theorem compCccT_sim {file : Str} {rs : List UcdRow} (hf : FileText file rs) :
    HashSim dec (compCccT file) (compCcc rs) := by
  rw [compCccT, compCcc]
  refine foldl_sim (R := HashSim dec) hf ?_ _ _ (.empty _)
  intro s t line r hR hr _
  obtain ⟨h0, h3, _⟩ := rowText_fields hr
  simp only [h0, h3, perlTrue_dec]
  have e0 : dec 0 = [48] := by rw [dec]; rfl
  have : (if decide (r.ccc ≠ 0) = true then dec r.ccc else [48]) = dec r.ccc := by
    by_cases hc : r.ccc = 0
    · simp [hc, e0]
    · simp [hc]
  rw [this]
  exact hR.set r.cp r.ccc

theorem compReadT_sim {file : Str} {rs : List UcdRow} (hf : FileText file rs) :
    KeySim (compReadT file) (compRead rs) := by
  rw [compReadT, compRead]
  refine foldl_sim (R := KeySim) hf ?_ _ _ ⟨fun _ _ => rfl, fun _ h => absurd rfl h, fun _ h => absurd rfl h⟩
  intro s t line r hR hr _
  obtain ⟨h0, h3, h5⟩ := rowText_fields hr
  simp only [h0, h3, num_dec]
  generalize (perlSplit 59 line).getD 5 [] = f at h5
  cases h5 with
  | canonical ht =>
    rw [perlTrue_entries]
    by_cases hd : r.decomp = []
    · simpa [hd] using hR
    · rw [if_neg hd, if_neg (show ¬ r.tag ≠ 0 by simp [ht])]
      simp only [show (!r.decomp.isEmpty) = true by simp [hd], if_true, if_neg (entries_head_ne _),
        hexPair_entries _ hd]
      by_cases hl : r.decomp.length < 2
      · simpa [hl, show ¬ 2 ≤ r.decomp.length by omega] using hR
      · rw [if_neg hl]
        simp only [show decide (2 ≤ r.decomp.length) = true by simp; omega, if_true]
        by_cases hc : r.ccc = 0
        · simpa [hc] using hR.set (by omega) r.cp
        · simpa [hc] using hR
  | compat ht hd =>
    have h1 : (compatPrefix ++ entriesText r.decomp).headD 0 = 60 := rfl
    rw [if_neg hd, if_pos (show r.tag ≠ 0 by simp [ht])]
    simp only [if_pos h1]
    split <;> exact hR
  | @other tag ht hd _ _ =>
    have h1 : ([60] ++ tag ++ [62, 32] ++ entriesText r.decomp).headD 0 = 60 := rfl
    rw [if_neg hd, if_pos (show r.tag ≠ 0 by simp [ht])]
    simp only [if_pos h1]
    split <;> exact hR

theorem compDeleteT_sim {cs : Hash Str Str} {cn : Hash Nat Nat} (hc : HashSim dec cs cn) (excl : List Nat)
    {ds : Hash Str Str} {dn : Hash (List Nat) Nat} (h : KeySim ds dn) (ks : List (List Nat))
    (hks : ∀ k ∈ ks, k ≠ []) :
    KeySim (compDeleteT cs (excl.map hex4) ds (ks.map entriesText)) (compDelete cn excl dn ks) := by
  induction ks generalizing ds dn with
  | nil => exact h
  | cons k ks ih =>
    have hk := hks k (by simp)
    have hks' : ∀ k ∈ ks, k ≠ [] := fun x hx => hks x (by simp [hx])
    rw [List.map_cons, compDeleteT, compDelete]
    have e1 : (perlSplit 32 (entriesText k)).headD [] = hex4 (k.headD 0) := by
      rw [perlSplit_entries hk]
      cases k with
      | nil => exact absurd rfl hk
      | cons x xs => rfl
    have e2 : num ((cs (hex4 (k.headD 0))).getD []) = (cn (k.headD 0)).getD 0 := by
      rw [hc.eq]
      cases cn (k.headD 0) with
      | none => rfl
      | some v => exact num_dec v
    simp only [e1, e2]
    split
    · exact ih (h.del hk) hks'
    · rw [h.eq k hk]
      cases dn k with
      | none =>
        have : ([] : Str) ∉ excl.map hex4 := by
          intro hm
          obtain ⟨n, _, hn⟩ := List.mem_map.mp hm
          exact hex4_ne_nil n hn
        simp only [Option.map_none, Option.getD_none, if_neg this]
        exact ih h hks'
      | some c =>
        have : hex4 c ∈ excl.map hex4 ↔ c ∈ excl := by
          rw [List.mem_map]
          exact ⟨fun ⟨x, hx, e⟩ => hex4_inj e ▸ hx, fun hx => ⟨c, hx, rfl⟩⟩
        simp only [Option.map_some, Option.getD_some, this]
        split
        · exact ih (h.del hk) hks'
        · exact ih h hks'

/-- canonical_composition_mapping_data.pl on text. -/
theorem compScript_eq {file exclFile : Str} {rs : List UcdRow} {excl : List Nat} (hf : FileText file rs)
    (he : exclReadT exclFile = excl.map hex4) {ks1 ks2 : List Str} (h1 : IsKeys (compReadT file) ks1)
    (h2 : IsKeys (compDeleteT (compCccT file) (exclReadT exclFile) (compReadT file) ks1) ks2) :
    IsKeys (compRead rs) (ks1.map unKey) ∧
    IsKeys (compDelete (compCcc rs) excl (compRead rs) (ks1.map unKey)) (ks2.map unKey) ∧
    compScript ks1 ks2 exclFile file = headerText (genComp (ks1.map unKey) (ks2.map unKey) excl rs) := by
  have hr := compReadT_sim hf
  obtain ⟨k1, b1⟩ := hr.isKeys h1
  have hne1 : ∀ k ∈ ks1.map unKey, k ≠ [] := by
    intro k hk e
    have := hr.long k ((k1.2 k).mp hk)
    rw [e] at this; simp at this
  have hd := compDeleteT_sim (compCccT_sim hf) excl hr (ks1.map unKey) hne1
  rw [b1, ← he] at hd
  obtain ⟨k2, b2⟩ := hd.isKeys h2
  refine ⟨k1, k2, ?_⟩
  have hlong : ∀ k ∈ ks2.map unKey, 2 ≤ k.length := fun k hk => hd.long k ((k2.2 k).mp hk)
  have hsort : ks2.mergeSort compLeT = ((ks2.map unKey).mergeSort compLe).map entriesText := by
    conv => lhs; rw [← b2]
    refine (List.map_mergeSort ?_).symm
    intro a ha b hb
    exact (compLeT_entries (hlong a ha) (hlong b hb)).symm
  simp only [compScript, genComp, headerText, hsort, List.map_map]
  congr 1
  refine List.map_congr_left fun k hk => ?_
  have hk : k ∈ ks2.map unKey := (List.mergeSort_perm _ _).mem_iff.mp hk
  have hl := hlong k hk
  have hk0 : k ≠ [] := by rintro rfl; simp at hl
  have hs := (k2.2 k).mp hk
  simp only [Function.comp_apply, hd.eq k hk0, perlSplit_entries hk0]
  cases hc : compDelete (compCcc rs) excl (compRead rs) (ks1.map unKey) k with
  | none => exact absurd hc hs
  | some c =>
    match k, hl with
    | x :: y :: k, _ => simp [rowText, hex_hex4, openBrace, commaSpace, closeBrace]

end U5e
