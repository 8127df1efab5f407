import Verif.Proofs.UcdForms
import Verif.Properties.Generators
import Verif.Properties.Uax15
/-!
# C41 (look-ups), C43, C46: the library against the Unicode Character Database files it ships

The specification is Spec/Ucd.lean: it mentions only the rows of UnicodeData.txt and
CompositionExclusions.txt (Data/Ucd.lean, Data/CompExcl.lean), never the library's own tables.
-/
namespace U5e
open Data Spec

/-! ## C41: every look-up is what the UCD files say -/

/-- C41: `canonical_combining_class::resolve` is the class in UnicodeData.txt, for every `int`. -/
theorem C41_lookup_combining_class (c : Int) : cccResolve c = ucdClass c := (ucdClass_eq c).symm

/-- C41: the decomposition of every codepoint is the full expansion of the canonical mappings of
UnicodeData.txt. -/
theorem C41_lookup_canonical (k : Nat) :
    ∃ l, Expands (mapping canonicalTag) [k] l ∧ fullD k = l.map Int.ofNat := fullD_lookup k

/-- C41: ... and of the canonical and `<compat>` mappings for the compatibility table. -/
theorem C41_lookup_compatibility (k : Nat) :
    ∃ l, Expands (mapping compatTag) [k] l ∧ fullK k = l.map Int.ofNat := fullK_lookup k

/-- C41: `canonical_composition_mapping::resolve` is the primary composite, for every pair of `int`s. -/
theorem C41_lookup_composition (a b : Int) : compResolve a b = primaryComposite a b := by
  rw [primaryComposite_eq]

/-- C41: `grapheme_cluster_break::resolve` gives exactly the ranges of GraphemeBreakProperty.txt. -/
theorem C41_lookup_grapheme_cluster_break (c : Int) :
    (∀ lo hi v, (lo, hi, v) ∈ gcbFileRows → (lo : Int) ≤ c → c ≤ (hi : Int) → gcbResolve c = v) ∧
    ((∀ lo hi v, (lo, hi, v) ∈ gcbFileRows → ¬ ((lo : Int) ≤ c ∧ c ≤ (hi : Int))) → gcbResolve c = .OTHER) := by
  have hm : ∀ r, r ∈ gcbFileRows ↔ r ∈ gcbTable := by
    intro r
    rw [← genGcb_eq, genGcb]
    exact (List.mergeSort_perm _ _).mem_iff.symm
  constructor
  · intro lo hi v h h1 h2
    exact C27_gcb_range lo hi v ((hm _).mp h) c h1 h2
  · intro h
    exact C27_gcb_default c fun lo hi v hr => h lo hi v ((hm _).mpr hr)

example : mapping canonicalTag 0x1E69 = some [0x1E63, 0x307] ∧ classOf 0x301 = 230 ∧
    primaryComposite 0x65 0x301 = some 0xE9 ∧ primaryComposite 0x915 0x93C = none := by
  refine ⟨?_, ?_, ?_, ?_⟩
  · rw [mapping_canonical]; decide +kernel
  · rw [classOf_eq]; decide +kernel
  · rw [primaryComposite_eq]; decide +kernel
  · rw [primaryComposite_eq]; decide +kernel

/-! ## C43 -/

/-- C43, exact: a pair composes to `c` if and only if UnicodeData.txt maps `c` canonically to that pair,
`c` and the first of the pair are starters, and CompositionExclusions.txt does not list `c`. -/
theorem C43_composes_iff (a b c : Int) : compResolve a b = some c ↔
    ∃ r ∈ ucdRows, c = r.cp ∧ r.tag = 0 ∧ r.ccc = 0 ∧ r.cp ∉ exclRows ∧
      ∃ i j : Nat, a = i ∧ b = j ∧ r.decomp = [i, j] ∧ classOf i = 0 := by
  rw [← primaryComposite_eq]
  constructor
  · intro h
    rw [primaryComposite] at h
    split at h
    · simp at h
    · next hn =>
      obtain ⟨r, hr, rfl⟩ := Option.map_eq_some_iff.mp h
      have hp := List.find?_some hr
      simp only [decide_eq_true_eq] at hp
      exact ⟨r, List.mem_of_find?_eq_some hr, rfl, hp.1, hp.2.2.1, hp.2.2.2.2, a.toNat, b.toNat,
        by omega, by omega, hp.2.1, hp.2.2.2.1⟩
  · rintro ⟨r, hr, rfl, h1, h2, h3, i, j, rfl, rfl, h4, h5⟩
    rw [primaryComposite, if_neg (by omega), Option.map_eq_some_iff]
    refine ⟨r, ?_, rfl⟩
    cases hf : ucdRows.find? (fun r => decide (r.tag = 0 ∧ r.decomp = [(i : Int).toNat, (j : Int).toNat] ∧
        r.ccc = 0 ∧ classOf (i : Int).toNat = 0 ∧ r.cp ∉ exclRows)) with
    | none =>
      have := List.find?_eq_none.mp hf r hr
      simp only [decide_eq_true_eq] at this
      exact absurd ⟨h1, h4, h2, h5, h3⟩ this
    | some s =>
      have hp := List.find?_some hf
      have hm := List.mem_of_find?_eq_some hf
      simp only [decide_eq_true_eq] at hp
      have sel : ∀ r : UcdRow, r.tag = 0 → r.ccc = 0 → r.decomp = [i, j] → compSelB r = true := by
        intro r g1 g2 g3; rw [compSelB, g3]; simp [g1, g2]
      rw [comp_inj hm (sel s hp.1 hp.2.2.1 hp.2.1) hr (sel r h1 h2 h4) (by rw [h4, hp.2.1]; rfl)]

/-- C43: no excluded codepoint is ever composed. -/
theorem C43_exclusions (a b : Int) (c : Nat) (h : compResolve a b = some (c : Int)) : c ∉ exclRows := by
  obtain ⟨r, _, hc, _, _, h3, _⟩ := (C43_composes_iff a b c).mp h
  have : c = r.cp := by omega
  rw [this]; exact h3

/-- Instance. -/
example : 0xE9 ∉ exclRows := C43_exclusions 0x65 0x301 0xE9 (by decide +kernel)

/-- C43: composition is injective: different pairs compose to different codepoints. -/
theorem C43_injective (a b a' b' c : Int) (h : compResolve a b = some c) (h' : compResolve a' b' = some c) :
    a = a' ∧ b = b' := by
  obtain ⟨r, hr, h1, _, _, _, i, j, rfl, rfl, h2, _⟩ := (C43_composes_iff _ _ _).mp h
  obtain ⟨s, hs, g1, _, _, _, i', j', rfl, rfl, g2, _⟩ := (C43_composes_iff _ _ _).mp h'
  have := inj_of_nodup_map ucd_nodup hr hs (by omega)
  subst this
  rw [h2] at g2
  simp at g2
  simp [g2]

/-- Instance. -/
example (a b : Int) (h : compResolve a b = some 0xE9) : a = 0x65 ∧ b = 0x301 :=
  C43_injective a b 0x65 0x301 0xE9 h (by decide +kernel)

/-- Non-vacuity: U+0958 is excluded although its mapping is a pair of starter and nukta; é is composed. -/
example : 0x958 ∈ exclRows ∧ mapping canonicalTag 0x958 = some [0x915, 0x93C] ∧ compResolve 0x915 0x93C = none ∧
    compResolve 0x65 0x301 = some 0xE9 := by
  refine ⟨?_, ?_, ?_, ?_⟩
  · decide +kernel
  · rw [mapping_canonical]; decide +kernel
  · decide +kernel
  · decide +kernel

/-! ## C46: the forms against the UCD -/

/-- C46: `canonical_decomposition` gives the UAX #15 full canonical decomposition (Hangul arithmetic
included) for exactly the codepoints that are not precomposed Hangul syllables. -/
theorem C46_canonical_decomposition_iff (c : Int) :
    UcdFull canonicalTag c (fullD c) ↔ ¬ IsHangulSyllable c := by
  have h := Form.ucdFull_iff .D (c := c) id (fullD c)
  refine h.trans ?_
  by_cases hs : IsHangulSyllable c
  · rw [Form.ufull_syl .D hs]
    have : fullD c = [c] := Form.full_hang .D (.inr hs)
    rw [this]
    constructor
    · intro he
      have := congrArg List.length he
      have h2 := hangulDecomposition_length (c := c)
      simp only [List.length_cons, List.length_nil] at this
      omega
    · intro h; exact absurd hs h
  · rw [Form.ufull_not .D hs]
    exact ⟨fun _ => hs, fun _ => rfl⟩

/-- C46: `compatibility_and_canonical_decomposition` gives the UAX #15 full compatibility decomposition for
exactly the codepoints that are neither precomposed Hangul syllables nor carry a compatibility tag other
than `<compat>` in UnicodeData.txt. -/
theorem C46_compatibility_decomposition_iff (c : Int) :
    UcdFull anyTag c (fullK c) ↔ ¬ IsHangulSyllable c ∧ ¬ OtherTag c := by
  by_cases ho : OtherTag c
  · obtain ⟨h0, h1, h2⟩ := otherTag_facts ho
    constructor
    · intro h
      exact absurd (ucdFull_atoms h c (by rw [factsK.none_ h1]; simp) h0) h2
    · rintro ⟨_, h⟩; exact absurd ho h
  · refine (Form.ucdFull_iff .KD (c := c) ho (fullK c)).trans ?_
    by_cases hs : IsHangulSyllable c
    · rw [Form.ufull_syl .KD hs]
      have : fullK c = [c] := Form.full_hang .KD (.inr hs)
      rw [this]
      constructor
      · intro he
        have := congrArg List.length he
        have h2 := hangulDecomposition_length (c := c)
        simp only [List.length_cons, List.length_nil] at this
        omega
      · rintro ⟨h, _⟩; exact absurd hs h
    · rw [Form.ufull_not .KD hs]
      exact ⟨fun _ => ⟨hs, ho⟩, fun _ => rfl⟩

set_option maxRecDepth 100000 in
/-- C46: how many codepoints that is: 2942 of the 5722 lines with a mapping have such a tag. -/
theorem C46_other_tags : (ucdRows.filter (fun r => decide (1 < r.tag))).length = 2942 ∧
    (ucdRows.filter (fun r => !r.decomp.isEmpty)).length = 5722 := by
  constructor <;> decide +kernel

/-- C46, exact, for NFD: over UnicodeData.txt alone. -/
theorem C46_nfd_conforms_iff (sort : SortFn) (hs : StableSort sort) (cs : List Int) (gs : List (List Int))
    (hgs : IsSegmentation Breaks cs gs) (fuel : Nat) (hf : cs.length < fuel)
    (hb : (cs.flatMap fullD).length < 2 ^ 31) :
    ∃ ys, normalize32 .D sort fuel cs [] = .ok ((ys.length : Int), ys) ∧
      (IsUcdD canonicalTag cs ys ↔ (∀ c ∈ cs, ¬ IsHangulSyllable c) ∧
        ∀ g ∈ gs, StartersFirst ucdClass (g.flatMap fullD)) := by
  obtain ⟨ys, h1, h2⟩ := C35_conforms_iff .D (.inl rfl) sort hs cs gs hgs fuel hf hb
  refine ⟨ys, h1, ?_⟩
  rw [ucdClass_fun]
  exact (Form.isUcdD_iff .D (fun _ _ => id) ys).trans h2

/-- Instance. -/
example := C46_nfd_conforms_iff insSort insSort_stable [0x61, 0x307, 0x323, 0xAC00]
  [[0x61, 0x307, 0x323], [0xAC00]] (segmentation_of (by decide +kernel)) 5 (by decide) (by decide +kernel)

/-- C46, exact, for NFKD: the output is the NFKD of UAX #15 if and only if the text has no precomposed
Hangul syllable, no codepoint with a tag other than `<compat>`, and in no grapheme the decomposition puts
a starter after a non-starter. -/
theorem C46_nfkd_conforms_iff (sort : SortFn) (hs : StableSort sort) (cs : List Int) (gs : List (List Int))
    (hgs : IsSegmentation Breaks cs gs) (fuel : Nat) (hf : cs.length < fuel)
    (hb : (cs.flatMap fullK).length < 2 ^ 31) :
    ∃ ys, normalize32 .KD sort fuel cs [] = .ok ((ys.length : Int), ys) ∧
      (IsUcdD anyTag cs ys ↔ (∀ c ∈ cs, ¬ IsHangulSyllable c ∧ ¬ OtherTag c) ∧
        ∀ g ∈ gs, StartersFirst ucdClass (g.flatMap fullK)) := by
  obtain ⟨ys, h1, h2⟩ := C35_conforms_iff .KD (.inr rfl) sort hs cs gs hgs fuel hf hb
  refine ⟨ys, h1, ?_⟩
  rw [ucdClass_fun]
  by_cases ho : ∃ c ∈ cs, OtherTag c
  · obtain ⟨c, hc, ho⟩ := ho
    have hy : ys = Form.text .KD sort cs := by
      have := (normalize32_eq .KD hs.1 cs [] fuel hf hb).symm.trans h1
      injection this with this
      simp at this
      exact this.2.symm
    constructor
    · intro h
      obtain ⟨y, hy1, hy2⟩ := text_keeps (F := .KD) hs.1 rfl hc ho
      exact absurd (ucdD_noMapping h y (by rw [hy]; exact hy1)) hy2
    · rintro ⟨h, _⟩; exact absurd ho (h c hc).2
  · have hno : ∀ c ∈ cs, ¬ OtherTag c := fun c hc h => ho ⟨c, hc, h⟩
    refine (Form.isUcdD_iff .KD hno ys).trans (h2.trans ?_)
    exact and_congr ⟨fun h c hc => ⟨h c hc, hno c hc⟩, fun h c hc => (h c hc).1⟩ Iff.rfl

/-- Instance. -/
example := C46_nfkd_conforms_iff insSort insSort_stable [0x61, 0x307, 0x323, 0xFF21]
  [[0x61, 0x307, 0x323], [0xFF21]] (segmentation_of (by decide +kernel)) 5 (by decide) (by decide +kernel)

/-- C46, exact, for NFC. -/
theorem C46_nfc_conforms_iff (sort : SortFn) (hs : StableSort sort) (cs : List Int) (gs : List (List Int))
    (hgs : IsSegmentation Breaks cs gs) (fuel : Nat) (hf : cs.length < fuel)
    (hb : (cs.flatMap fullD).length < 2 ^ 31) :
    ∃ ys, normalize32 .C sort fuel cs [] = .ok ((ys.length : Int), ys) ∧
      (IsUcdC canonicalTag cs ys ↔ (∀ g ∈ gs, StartersFirst ucdClass (g.flatMap fullD)) ∧
        ¬ HasUnblockedPair ucdClass (uaxComp primaryComposite) ys) := by
  obtain ⟨ys, h1, h2⟩ := C36_conforms_iff .C (.inl rfl) sort hs cs gs hgs fuel hf hb
  refine ⟨ys, h1, ?_⟩
  rw [ucdClass_fun, primaryComposite_eq]
  exact (Form.isUcdC_iff .C (fun _ _ => id) ys).trans h2

/-- Instance. -/
example := C46_nfc_conforms_iff insSort insSort_stable [0x61, 0x316, 0x301, 0xAC00]
  [[0x61, 0x316, 0x301], [0xAC00]] (segmentation_of (by decide +kernel)) 5 (by decide) (by decide +kernel)

/-- C46, exact, for NFKC. -/
theorem C46_nfkc_conforms_iff (sort : SortFn) (hs : StableSort sort) (cs : List Int) (gs : List (List Int))
    (hgs : IsSegmentation Breaks cs gs) (fuel : Nat) (hf : cs.length < fuel)
    (hb : (cs.flatMap fullK).length < 2 ^ 31) :
    ∃ ys, normalize32 .KC sort fuel cs [] = .ok ((ys.length : Int), ys) ∧
      (IsUcdC anyTag cs ys ↔ (∀ c ∈ cs, ¬ OtherTag c) ∧
        (∀ g ∈ gs, StartersFirst ucdClass (g.flatMap fullK)) ∧
        ¬ HasUnblockedPair ucdClass (uaxComp primaryComposite) ys) := by
  obtain ⟨ys, h1, h2⟩ := C36_conforms_iff .KC (.inr rfl) sort hs cs gs hgs fuel hf hb
  refine ⟨ys, h1, ?_⟩
  rw [ucdClass_fun, primaryComposite_eq]
  by_cases ho : ∃ c ∈ cs, OtherTag c
  · obtain ⟨c, hc, ho⟩ := ho
    have hy : ys = Form.text .KC sort cs := by
      have := (normalize32_eq .KC hs.1 cs [] fuel hf hb).symm.trans h1
      injection this with this
      simp at this
      exact this.2.symm
    constructor
    · intro h
      obtain ⟨y, hy1, hy2⟩ := text_keeps (F := .KC) hs.1 rfl hc ho
      exact absurd (ucdC_noMapping h y (by rw [hy]; exact hy1)) hy2
    · rintro ⟨h, _⟩; exact absurd ho (h c hc)
  · have hno : ∀ c ∈ cs, ¬ OtherTag c := fun c hc h => ho ⟨c, hc, h⟩
    refine (Form.isUcdC_iff .KC hno ys).trans (h2.trans ?_)
    exact ⟨fun h => ⟨hno, h⟩, fun h => h.2⟩

/-- Instance. -/
example := C46_nfkc_conforms_iff insSort insSort_stable [0x61, 0x316, 0x301, 0xFF21]
  [[0x61, 0x316, 0x301], [0xFF21]] (segmentation_of (by decide +kernel)) 5 (by decide) (by decide +kernel)

/-- C46: the four forms of the specification exist and are unique for every text. -/
theorem C46_spec_exists_unique (cs : List Int) :
    (∃ d, IsUcdD canonicalTag cs d ∧ ∀ d', IsUcdD canonicalTag cs d' → d' = d) ∧
    (∃ d, IsUcdD anyTag cs d ∧ ∀ d', IsUcdD anyTag cs d' → d' = d) := by
  have key : ∀ F : Form, ∃ d, IsUcdD F.tags cs d ∧ ∀ d', IsUcdD F.tags cs d' → d' = d := by
    intro F
    obtain ⟨l, hl⟩ := F.ucdDecomposition_exists cs
    refine ⟨corder cccResolve l, ⟨l, hl, by rw [ucdClass_fun]; exact (isCanonicalOrder_iff _ _).mpr rfl⟩, ?_⟩
    rintro d' ⟨l', hl', h⟩
    rw [ucdDecomposition_det hl' hl, ucdClass_fun] at h
    exact (isCanonicalOrder_iff _ _).mp h
  exact ⟨key .D, key .KD⟩

/-- C46, counterexamples: no-break space U+00A0, ① U+2460 and fullwidth A U+FF21 are left alone by NFKD
and NFKC, where UAX #15 gives space, 1 and A. -/
theorem C46_counterexamples :
    normalize32 .KD insSort 9 [0xA0, 0x2460, 0xFF21] [] = .ok (3, [0xA0, 0x2460, 0xFF21]) ∧
    normalize32 .KC insSort 9 [0xA0, 0x2460, 0xFF21] [] = .ok (3, [0xA0, 0x2460, 0xFF21]) ∧
    IsUcdD anyTag [0xA0, 0x2460, 0xFF21] [0x20, 0x31, 0x41] ∧
    ¬ IsUcdD anyTag [0xA0, 0x2460, 0xFF21] [0xA0, 0x2460, 0xFF21] := by
  have hd : IsUcdD anyTag [0xA0, 0x2460, 0xFF21] [0x20, 0x31, 0x41] := by
    have one : ∀ (k x : Nat), mapping anyTag k = some [x] → mapping anyTag x = none →
        ¬ IsHangulSyllable k → UcdFull anyTag k [(x : Int)] := by
      intro k x h1 h2 h3
      rw [UcdFull, if_neg h3, if_neg (by omega)]
      exact ⟨[x], .expand h1 (.keep h2 .nil) .nil, rfl⟩
    refine ⟨[0x20] ++ ([0x31] ++ ([0x41] ++ [])), .cons ?_ (.cons ?_ (.cons ?_ .nil)), ?_⟩
    · exact one 0xA0 0x20 (by rw [mapping_any]; decide +kernel) (by rw [mapping_any]; decide +kernel) (by decide)
    · exact one 0x2460 0x31 (by rw [mapping_any]; decide +kernel) (by rw [mapping_any]; decide +kernel) (by decide)
    · exact one 0xFF21 0x41 (by rw [mapping_any]; decide +kernel) (by rw [mapping_any]; decide +kernel) (by decide)
    · rw [ucdClass_fun, isCanonicalOrder_iff]; decide +kernel
  refine ⟨by decide +kernel, by decide +kernel, hd, ?_⟩
  intro h
  obtain ⟨d, _, hu⟩ := (C46_spec_exists_unique [0xA0, 0x2460, 0xFF21]).2
  have := (hu _ hd).trans (hu _ h).symm
  revert this; decide

/-- Non-vacuity, a conforming NFKD: ﬁ + ṩ. -/
example : ∃ ys, normalize32 .KD insSort 9 [0xFB01, 0x1E69] [] = .ok (5, ys) ∧ IsUcdD anyTag [0xFB01, 0x1E69] ys := by
  refine ⟨[0x66, 0x69, 0x73, 0x323, 0x307], by decide +kernel, ?_⟩
  obtain ⟨ys, h1, h2⟩ := C46_nfkd_conforms_iff insSort insSort_stable [0xFB01, 0x1E69] _ (segments_breaks _) 9
    (by decide) (by decide +kernel)
  have he : ys = [0x66, 0x69, 0x73, 0x323, 0x307] := by
    have h3 : normalize32 .KD insSort 9 [0xFB01, 0x1E69] [] = .ok (5, [0x66, 0x69, 0x73, 0x323, 0x307]) := by
      decide +kernel
    rw [h3] at h1
    injection h1 with h1
    simp at h1
    exact h1.2.symm
  rw [← he]
  refine h2.mpr ⟨?_, ?_⟩
  · have ho : ∀ k : Nat, (match ucdAt k with
        | some r => Nat.ble r.tag 1
        | none => true) = true → ¬ OtherTag k := by
      rintro k h ⟨r, hr, hc, ht⟩
      rw [ucdAt_iff.mpr ⟨hr, by omega⟩] at h
      simp only [Nat.ble_eq] at h
      omega
    intro c hc
    simp at hc
    rcases hc with rfl | rfl
    · exact ⟨by decide, ho 0xFB01 (by decide +kernel)⟩
    · exact ⟨by decide, ho 0x1E69 (by decide +kernel)⟩
  · rw [ucdClass_fun]
    intro g hg
    have hall : ∀ g ∈ segments isGraphemeBoundary [0xFB01, 0x1E69],
        (g.flatMap fullK).Pairwise (fun a b => cccResolve a ≠ 0 → cccResolve b ≠ 0) := by decide +kernel
    exact hall g hg

end U5e
