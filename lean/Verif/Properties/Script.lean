import Verif.Data.Files
import Verif.Proofs.RawUcd
import Verif.Proofs.RawHeaders
import Verif.Proofs.ScriptComp
import Verif.Proofs.ScriptGcb
import Verif.Proofs.GenAny
import Verif.Properties.Generators
/-!
# C41 and C53: the table generators as programs on files

`cccScript`, `decScript`, `compScript`, `gcbScript` (Model/Script.lean) are the scripts from the octets they read to the
octets they write; the enumerations of every hash are parameters. `FileText`, `GcbFile`, `ExclFile`
(Spec/UcdText.lean) say what a well-formed UCD file looks like; `headerText`, `gcbHeaderText` how a table is written
as C++ text. The checked-in files are given octet by octet in Data/Files.lean.
-/
namespace U5e
open Data Spec

/-! ## C53: any well-formed UCD -/

/-- C53, classes: from any UnicodeData.txt, for every order of the hash, exactly the lines with a class other than 0, in
order. -/
theorem C53_combining_class (file : Str) (rs : List UcdRow) (hf : FileText file rs)
    (hi : (rs.map UcdRow.cp).Pairwise (· < ·)) (ks : List Str) (hk : IsKeys (readCccT file) ks) :
    cccScript ks file = headerText (classRows rs) := by
  obtain ⟨h1, h2⟩ := cccScript_eq hf hk
  rw [h2, genCcc_any hi h1]

/-- C53, decompositions: from any UnicodeData.txt whose mappings are not circular, for every order of the hash in every
round: the script ends and writes every mapping fully expanded, in order. -/
theorem C53_decomposition (compat : Bool) (file : Str) (rs : List UcdRow) (hf : FileText file rs)
    (hi : (rs.map UcdRow.cp).Pairwise (· < ·)) (hc : ¬ Circular (mapOf compat rs)) (orders : Nat → List Str)
    (ho : ∀ n, IsKeys (readDecT compat file) (orders n)) (ks : List Str) (hk : IsKeys (readDecT compat file) ks)
    (fuel : Nat) (hfu : ks.length < fuel) :
    ∃ full, (∀ r ∈ rs, Mapped compat r → Expands (mapOf compat rs) r.decomp (full r.cp)) ∧
      decScript compat orders ks fuel file = some (headerText (mappingRows compat rs full)) := by
  have hn := nodup_of_increasing hi
  obtain ⟨h1, h2, h3⟩ := decScript_eq compat hf ho hk fuel
  rw [← readDec_eq_mapOf compat hn] at hc
  obtain ⟨d, hd⟩ := loop_ends h2 hc _ h1 fuel (by simpa using hfu)
  cases hg : genDec compat (fun n => (orders n).map hex) (ks.map hex) fuel rs with
  | none => rw [genDec, hd] at hg; simp at hg
  | some out =>
    obtain ⟨full, g1, g2⟩ := genDec_any compat hi h1 h2 fuel hg
    exact ⟨full, g1, by rw [h3, hg, ← g2]; rfl⟩

/-- C53: with circular mappings the script never ends, whatever the order. -/
theorem C53_decomposition_circular (compat : Bool) (file : Str) (rs : List UcdRow) (hf : FileText file rs)
    (hn : (rs.map UcdRow.cp).Nodup) (hc : Circular (mapOf compat rs)) (orders : Nat → List Str)
    (ho : ∀ n, IsKeys (readDecT compat file) (orders n)) (ks : List Str) (hk : IsKeys (readDecT compat file) ks)
    (fuel : Nat) : decScript compat orders ks fuel file = none := by
  obtain ⟨h1, h2, h3⟩ := decScript_eq compat hf ho hk fuel
  rw [← readDec_eq_mapOf compat hn] at hc
  rw [h3, genDec, C40_circular_never_ends _ hc _ h1]
  rfl

/-- C53, compositions: from any UnicodeData.txt and CompositionExclusions.txt, for every order of the hash in both
places, one row per primary composite, sorted. -/
theorem C53_composition (file exclFile : Str) (rs : List UcdRow) (excl : List Nat) (hf : FileText file rs)
    (he : ExclFile exclFile excl) (hn : (rs.map UcdRow.cp).Nodup) (hc : CanonicalOk rs) (ks1 ks2 : List Str)
    (h1 : IsKeys (compReadT file) ks1)
    (h2 : IsKeys (compDeleteT (compCccT file) (exclReadT exclFile) (compReadT file) ks1) ks2) :
    ∃ rows, IsCompositionTable rs excl rows ∧ compScript ks1 ks2 exclFile file = headerText rows := by
  obtain ⟨g1, g2, g3⟩ := compScript_eq hf (exclReadT_eq he) h1 h2
  exact ⟨_, genComp_any hn hc g1 g2, g3⟩

/-- C53: an entry of CompositionExclusions.txt followed by exactly one blank before its comment is read as
a codepoint with a blank at the end (`s/\s.+//` needs a second character): it excludes nothing, since no
codepoint field of UnicodeData.txt ends in a blank. -/
theorem C53_exclusion_one_blank (x : Nat) (comment : Str) (hc : 10 ∉ comment) :
    exclReadT (hex4 x ++ [32, 35] ++ comment ++ [10]) = [hex4 x ++ [32]] ∧ ∀ y, hex4 y ≠ hex4 x ++ [32] := by
  constructor
  · rw [exclReadT, show hex4 x ++ [32, 35] ++ comment ++ [10] = (hex4 x ++ [32] ++ 35 :: comment) ++ 10 :: [] by simp,
      lines_cons, List.map_cons, exclEntry_oneBlank]
    · have : perlTrue (hex4 x ++ [32]) = true := by
        have := hex4_length x
        rw [perlTrue]
        have h1 : hex4 x ++ [32] ≠ [] := by simp
        have h2 : hex4 x ++ [32] ≠ [48] := by
          intro h
          have := congrArg List.length h
          simp at this; exact absurd this (hex4_ne_nil x)
        simp [h2]
      simp [lines, this]
    · intro h
      simp only [List.mem_append, List.mem_cons, List.not_mem_nil, or_false] at h
      rcases h with (h | h) | h | h
      · exact not_isHex_mem (by decide) x h
      · omega
      · omega
      · exact hc h
  · intro y h
    have h32 : 32 ∈ hex4 y := by rw [h]; simp
    exact not_isHex_mem (by decide) y h32

/-- C53, grapheme cluster breaks: from any GraphemeBreakProperty.txt whose entries start at different codepoints, the
entries sorted by first codepoint. -/
theorem C53_grapheme_cluster_break (file : Str) (rows : List (Nat × Nat × GCB)) (hf : GcbFile file rows)
    (hn : (rows.map Prod.fst).Nodup) :
    ∃ sorted, sorted.Perm rows ∧ sorted.Pairwise (fun a b => a.1 < b.1) ∧ gcbScript file = gcbHeaderText sorted := by
  refine ⟨genGcb rows, List.mergeSort_perm _ _, ?_, gcbScript_eq hf⟩
  have h1 : (genGcb rows).Pairwise (fun a b => decide (a.1 ≤ b.1) = true) := by
    refine List.pairwise_mergeSort ?_ ?_ rows
    · intro a b c; simp only [decide_eq_true_eq]; omega
    · intro a b; simp only [Bool.or_eq_true, decide_eq_true_eq]; omega
  have h2 : (genGcb rows).Pairwise (fun a b => a.1 ≠ b.1) :=
    List.pairwise_map.mp (((List.mergeSort_perm rows _).map Prod.fst).nodup_iff.mpr hn)
  refine (h1.and h2).imp ?_
  intro a b h
  have := h.1
  simp only [decide_eq_true_eq] at this
  omega

/-- Every hash has an enumeration, so the hypotheses of the theorems above can be met for every file. -/
theorem C53_enumerations_exist (file : Str) : (∃ ks, IsKeys (readCccT file) ks) ∧
    (∀ compat, ∃ ks, IsKeys (readDecT compat file) ks) ∧ ∀ exclFile : Str, ∃ ks1, IsKeys (compReadT file) ks1 ∧
      ∃ ks2, IsKeys (compDeleteT (compCccT file) (exclReadT exclFile) (compReadT file) ks1) ks2 := by
  refine ⟨?_, ?_, ?_⟩
  · refine exists_keys_foldl ?_ _ _ exists_keys_empty
    intro d l h
    simp only
    split
    · exact exists_keys_set h _ _
    · exact h
  · intro compat
    refine exists_keys_foldl ?_ _ _ exists_keys_empty
    intro d l h
    simp only
    split
    · generalize (if compat = true then _ else _ : Str) = t
      by_cases h60 : t.headD 0 = 60
      · rw [if_pos h60]; exact h
      · rw [if_neg h60]; exact exists_keys_set h _ _
    · exact h
  · intro exclFile
    have h1 : ∃ ks, IsKeys (compReadT file) ks := by
      refine exists_keys_foldl ?_ _ _ exists_keys_empty
      intro d l h
      simp only
      split
      · split
        · exact h
        · split
          · split
            · exact exists_keys_set h _ _
            · exact h
          · exact h
      · exact h
    obtain ⟨ks1, hk1⟩ := h1
    refine ⟨ks1, hk1, ?_⟩
    have : ∀ (ks : List Str) (d : Hash Str Str), (∃ l, IsKeys d l) →
        ∃ l, IsKeys (compDeleteT (compCccT file) (exclReadT exclFile) d ks) l := by
      intro ks
      induction ks with
      | nil => intro d h; exact h
      | cons k ks ih =>
        intro d h
        rw [compDeleteT]
        simp only
        split
        · exact ih _ (exists_keys_del h _)
        · split
          · exact ih _ (exists_keys_del h _)
          · exact ih _ h
    exact this ks1 _ ⟨ks1, hk1⟩

/-! ## C41: the checked-in files -/

/-- The checked-in UnicodeData.txt is a well-formed file, with increasing codepoints, and the lines with a class
or a decomposition are those of Data/Ucd.lean. -/
theorem C41_unicode_data_well_formed : ∃ rs, FileText unicodeDataTxt rs ∧ (rs.map UcdRow.cp).Pairwise (· < ·) ∧
    IsUnicodeData rs := by
  obtain ⟨⟨rs, h1, h2, h3, _⟩, _⟩ := unicodeData_lines
  exact ⟨rs, h1, h3, nodup_of_increasing h3, h2⟩

/-- The other two are well-formed too. -/
theorem C41_other_files_well_formed : ExclFile compositionExclusionsTxt exclRows ∧
    GcbFile graphemeBreakPropertyTxt gcbFileRows := ⟨excl_file_text, gcb_file_text⟩

/-- The checked-in headers, octet by octet, are the C++ text of the tables of the model. -/
theorem C41_headers_are_tables : combiningClassHpp = headerText cccTable ∧
    canonicalDecompositionHpp = headerText decTable ∧ compatibilityDecompositionHpp = headerText kdecTable ∧
    compositionHpp = headerText compTable ∧ graphemeClusterBreakHpp = gcbHeaderText gcbTable :=
  ⟨ccc_header.symm, dec_header.symm, kdec_header.symm, comp_header.symm, gcb_header.symm⟩

/-- C41 for files: canonical_combining_class_data.pl makes the checked-in header of the checked-in UnicodeData.txt, octet
by octet, for every order of its hash. -/
theorem C41_combining_class_octets (ks : List Str) (hk : IsKeys (readCccT unicodeDataTxt) ks) :
    cccScript ks unicodeDataTxt = combiningClassHpp := by
  obtain ⟨rs, hf, _, hu⟩ := C41_unicode_data_well_formed
  obtain ⟨h1, h2⟩ := cccScript_eq hf hk
  rw [h2, C41_combining_class rs hu _ h1]
  exact ccc_header

/-- C41 for files: canonical_decomposition_mapping_data.pl, for every order of its hash in every round. -/
theorem C41_canonical_decomposition_octets (orders : Nat → List Str)
    (ho : ∀ n, IsKeys (readDecT false unicodeDataTxt) (orders n)) (ks : List Str)
    (hk : IsKeys (readDecT false unicodeDataTxt) ks) (fuel : Nat) (hfu : 8 < fuel) :
    decScript false orders ks fuel unicodeDataTxt = some canonicalDecompositionHpp := by
  obtain ⟨rs, hf, _, hu⟩ := C41_unicode_data_well_formed
  obtain ⟨h1, h2, h3⟩ := decScript_eq false hf ho hk fuel
  rw [h3, C41_canonical_decomposition rs hu _ h1 _ h2 fuel hfu]
  exact congrArg some dec_header

/-- C41 for files: compatibility_and_canonical_decomposition_mapping_data.pl, likewise. -/
theorem C41_compatibility_decomposition_octets (orders : Nat → List Str)
    (ho : ∀ n, IsKeys (readDecT true unicodeDataTxt) (orders n)) (ks : List Str)
    (hk : IsKeys (readDecT true unicodeDataTxt) ks) (fuel : Nat) (hfu : 8 < fuel) :
    decScript true orders ks fuel unicodeDataTxt = some compatibilityDecompositionHpp := by
  obtain ⟨rs, hf, _, hu⟩ := C41_unicode_data_well_formed
  obtain ⟨h1, h2, h3⟩ := decScript_eq true hf ho hk fuel
  rw [h3, C41_compatibility_decomposition rs hu _ h1 _ h2 fuel hfu]
  exact congrArg some kdec_header

/-- C41 for files: canonical_composition_mapping_data.pl, for every order of its hash in both places. -/
theorem C41_composition_octets (ks1 ks2 : List Str) (h1 : IsKeys (compReadT unicodeDataTxt) ks1)
    (h2 : IsKeys (compDeleteT (compCccT unicodeDataTxt) (exclReadT compositionExclusionsTxt)
      (compReadT unicodeDataTxt) ks1) ks2) :
    compScript ks1 ks2 compositionExclusionsTxt unicodeDataTxt = compositionHpp := by
  obtain ⟨rs, hf, _, hu⟩ := C41_unicode_data_well_formed
  obtain ⟨g1, g2, g3⟩ := compScript_eq hf (exclReadT_eq C41_other_files_well_formed.1) h1 h2
  rw [g3, C41_composition rs hu _ _ g1 g2]
  exact comp_header

/-- C41 for files: grapheme_cluster_break_data.sh. -/
theorem C41_grapheme_cluster_break_octets : gcbScript graphemeBreakPropertyTxt = graphemeClusterBreakHpp := by
  have := gcbScript_eq gcb_file_text
  rw [C41_grapheme_cluster_break] at this
  exact this.trans gcb_header

/-- Non-vacuity of C53: the checked-in files meet all hypotheses. -/
theorem C53_checked_in_files : ∃ rs, FileText unicodeDataTxt rs ∧ (rs.map UcdRow.cp).Pairwise (· < ·) ∧
    CanonicalOk rs ∧ (∀ compat, ¬ Circular (mapOf compat rs)) ∧ ExclFile compositionExclusionsTxt exclRows ∧
    GcbFile graphemeBreakPropertyTxt gcbFileRows ∧ (gcbFileRows.map Prod.fst).Nodup := by
  obtain ⟨rs, hf, hi, hu⟩ := C41_unicode_data_well_formed
  have hrel : ∀ r ∈ rs, r.decomp ≠ [] → r ∈ ucdRows := fun r hr hd => (mem_file hu.relevant (.inr hd)).mp hr
  refine ⟨rs, hf, hi, ⟨?_, ?_⟩, ?_, C41_other_files_well_formed.1, C41_other_files_well_formed.2, ?_⟩
  · intro r hr ht
    by_cases hd : r.decomp = []
    · simp [hd]
    · have := ucd_all (p := fun r => or (!Nat.beq r.tag 0) (Nat.ble r.decomp.length 2)) (by decide +kernel) (hrel r hr hd)
      simp only [ht, Bool.or_eq_true, Nat.ble_eq] at this
      simpa using this
  · intro r hr s hs tr ts cr cs hl he
    have hdr : r.decomp ≠ [] := by intro h; rw [h] at hl; simp at hl
    have hds : s.decomp ≠ [] := by rw [← he]; exact hdr
    have hsel : ∀ x : UcdRow, x.tag = 0 → x.ccc = 0 → x.decomp.length = 2 → compSelB x = true := by
      intro x h1 h2 h3
      have : selComp x = some (x.decomp, x.cp) := by
        have : x.decomp ≠ [] := by intro h; rw [h] at h3; simp at h3
        rw [selComp]; simp [this, h1, h2, h3]
      exact (selComp_iff.mp this).1
    exact comp_inj (hrel r hr hdr) (hsel r tr cr hl) (hrel s hs hds) (hsel s ts cs (he ▸ hl)) he
  · intro compat hc
    obtain ⟨S, hS, hc⟩ := hc
    have hm : mapOf compat rs = decAt compat := by
      rw [← readDec_eq_mapOf compat hu.distinct, readDec_file compat hu.distinct hu.relevant]
    obtain ⟨ks, hk⟩ : ∃ ks, IsKeys (decAt compat) ks := by
      rw [← readDec_file compat hu.distinct hu.relevant]
      refine exists_keys_foldl ?_ _ _ exists_keys_empty
      intro d r h
      split
      · exact h
      · split
        · exact exists_keys_set h _ _
        · exact h
    obtain ⟨d', hd'⟩ := dec_terminates compat (fun _ => ks) (fun _ => hk) 9 (by omega)
    rw [C40_circular_never_ends _ (by rw [← hm]; exact ⟨S, hS, hc⟩) _ (fun _ => hk)] at hd'
    simp at hd'
  · have hp : gcbFileRows.Perm gcbTable := by
      have := List.mergeSort_perm gcbFileRows (fun a b => decide (a.1 ≤ b.1))
      rw [← C41_grapheme_cluster_break]
      exact this.symm
    refine ((hp.map Prod.fst).nodup_iff).mpr ?_
    exact List.pairwise_map.mpr (gcb_sorted.imp fun h => by omega)

/-- The theorems applied to the checked-in files, whose lines are `rs`: the hypotheses hold, and hashes have
enumerations. -/
example : ∃ rs ks, cccScript ks unicodeDataTxt = headerText (classRows rs) := by
  obtain ⟨rs, hf, hi, _⟩ := C53_checked_in_files
  obtain ⟨ks, hk⟩ := (C53_enumerations_exist unicodeDataTxt).1
  exact ⟨rs, ks, C53_combining_class _ rs hf hi ks hk⟩

example (compat : Bool) : ∃ rs full ks, (∀ r ∈ rs, Mapped compat r → Expands (mapOf compat rs) r.decomp (full r.cp)) ∧
    decScript compat (fun _ => ks) ks (ks.length + 1) unicodeDataTxt = some (headerText (mappingRows compat rs full)) := by
  obtain ⟨rs, hf, hi, _, hc, _⟩ := C53_checked_in_files
  obtain ⟨ks, hk⟩ := (C53_enumerations_exist unicodeDataTxt).2.1 compat
  obtain ⟨full, h1, h2⟩ := C53_decomposition compat _ rs hf hi (hc compat) (fun _ => ks) (fun _ => hk) ks hk
    (ks.length + 1) (Nat.lt_succ_self _)
  exact ⟨rs, full, ks, h1, h2⟩

example : ∃ rs rows ks1 ks2, IsCompositionTable rs exclRows rows ∧
    compScript ks1 ks2 compositionExclusionsTxt unicodeDataTxt = headerText rows := by
  obtain ⟨rs, hf, hi, hcan, _, he, _⟩ := C53_checked_in_files
  obtain ⟨ks1, h1, ks2, h2⟩ := (C53_enumerations_exist unicodeDataTxt).2.2 compositionExclusionsTxt
  obtain ⟨rows, h3, h4⟩ := C53_composition _ _ rs exclRows hf he
    (hi.imp (fun h => Nat.ne_of_lt h)) hcan ks1 ks2 h1 h2
  exact ⟨rs, rows, ks1, ks2, h3, h4⟩

example := let ⟨_, _, _, _, _, _, hg, hn⟩ := C53_checked_in_files
  C53_grapheme_cluster_break _ gcbFileRows hg hn

example : ∃ ks, decScript false (fun _ => ks) ks 9 unicodeDataTxt = some canonicalDecompositionHpp ∧
    ∃ ks', decScript true (fun _ => ks') ks' 9 unicodeDataTxt = some compatibilityDecompositionHpp := by
  obtain ⟨ks, hk⟩ := (C53_enumerations_exist unicodeDataTxt).2.1 false
  obtain ⟨ks', hk'⟩ := (C53_enumerations_exist unicodeDataTxt).2.1 true
  exact ⟨ks, C41_canonical_decomposition_octets _ (fun _ => hk) ks hk 9 (by decide), ks',
    C41_compatibility_decomposition_octets _ (fun _ => hk') ks' hk' 9 (by decide)⟩

/-- Non-vacuity of C53 on a small file, `0041;A;;0;;;` and `0300;B;;230;;;`, and its class table `{ 768, 230 }`. -/
example : FileText ([48, 48, 52, 49, 59, 65, 59, 59, 48, 59, 59, 59] ++ [10] ++
      ([48, 51, 48, 48, 59, 66, 59, 59, 50, 51, 48, 59, 59, 59] ++ [10] ++ []))
      [⟨0x41, 0, 0, []⟩, ⟨0x300, 230, 0, []⟩] ∧
    classRows [⟨0x41, 0, 0, []⟩, ⟨0x300, 230, 0, []⟩] = [[0x300, 230]] ∧
    headerText [[0x300, 230]] = [123, 32, 55, 54, 56, 44, 32, 50, 51, 48, 32, 125] := by
  have h1 : hex4 0x41 = [48, 48, 52, 49] := by simp [hex4, hexPad, hexChar]
  have h2 : hex4 0x300 = [48, 51, 48, 48] := by simp [hex4, hexPad, hexChar]
  have d0 : dec 0 = [48] := by simp [dec]
  have d1 : dec 230 = [50, 51, 48] := by simp [dec]
  have d2 : dec 0x300 = [55, 54, 56] := by simp [dec]
  refine ⟨.cons ?_ (by decide) (.cons ?_ (by decide) .nil), by decide, ?_⟩
  · exact ⟨[65], [], [], [], [], by decide, by decide, by decide, by decide, .canonical rfl, by rw [h1, d0]; rfl⟩
  · exact ⟨[66], [], [], [], [], by decide, by decide, by decide, by decide, .canonical rfl, by rw [h2, d1]; rfl⟩
  · simp [headerText, rowText, join, d1, d2]

end U5e
