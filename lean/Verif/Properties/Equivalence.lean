import Verif.Proofs.Equivalence
import Verif.Properties.Mixed
import Verif.Properties.NormalizeUtf8
/-!
# C68: normalization and canonical equivalence

`Equivalent canonicalTag` is canonical equivalence, `Equivalent anyTag` compatibility equivalence, defined in
Spec/Equivalence.lean from single steps of UnicodeData.txt, without any normalization form; `Equivalent compatTag` is
the part of compatibility equivalence that uses the `<compat>` mappings only (the ones the library ships).
`MarksLast tags gs`: no grapheme has a starter after a non-starter in its decomposition.
`normalize32 F sort fuel cs out` filters the NUL-terminated utf32ne string `cs` through form `F`.
-/
namespace U5e
open Spec Data

theorem canonical_ctags {F : Form} (h : F = .D ∨ F = .C) : F.ctags = canonicalTag := by
  rcases h with rfl | rfl <;> rfl
theorem compat_ctags {F : Form} (h : F = .KD ∨ F = .KC) : F.ctags = compatTag := by
  rcases h with rfl | rfl <;> rfl

theorem Form.marksLast_iff (F : Form) (gs : List (List Int)) :
    MarksLast F.ctags gs ↔ ∀ g ∈ gs, StartersFirst cccResolve (decompose F.map g) :=
  ⟨fun h g hg => (F.startersFirst_iff g).mp (h g hg), fun h g hg => (F.startersFirst_iff g).mpr (h g hg)⟩

/-- C68, the specification itself (D70): texts are equivalent exactly if they have the same full decomposition in
canonical order. -/
theorem C68_equivalence_is_same_decomposition (tags : Nat → Bool)
    (ht : tags = canonicalTag ∨ tags = compatTag ∨ tags = anyTag) (cs ds : List Int) :
    Equivalent tags cs ds ↔ ∃ d, IsUcdD tags cs d ∧ IsUcdD tags ds d := by
  rcases ht with rfl | rfl | rfl
  · exact equivalent_iff Form.D.total_ctags cs ds
  · exact equivalent_iff Form.KD.total_ctags cs ds
  · exact equivalent_iff (fun c => Form.KD.ucdFull_exists c) cs ds

/-- Non-vacuity: U+1E69 and s, U+0307, U+0323 are canonically equivalent. -/
example : Equivalent canonicalTag [0x1E69] [0x73, 0x307, 0x323] :=
  (Form.D.equivalent_iff_order _ _).mpr (by decide +kernel)

/-- C68: normalizing by a canonical form preserves canonical equivalence exactly for the texts in which no grapheme
has a starter after a non-starter. -/
theorem C68_canonical_output_equivalent_iff (F : Form) (hF : F = .D ∨ F = .C) (sort : SortFn) (hs : StableSort sort)
    (cs : List Int) (gs : List (List Int)) (hgs : IsSegmentation Breaks cs gs) (fuel : Nat) (hf : cs.length < fuel)
    (hb : (cs.flatMap fullD).length < 2 ^ 31) :
    ∃ ys, normalize32 F sort fuel cs [] = .ok ((ys.length : Int), ys) ∧
      (Equivalent canonicalTag cs ys ↔ MarksLast canonicalTag gs) := by
  obtain rfl := segments_unique hgs
  have hm : F.map = decResolve := by rcases hF with rfl | rfl <;> rfl
  refine ⟨F.text sort cs, normalize32_eq F hs.1 cs [] fuel hf (by rw [hm]; exact hb), ?_⟩
  rw [← canonical_ctags hF, F.marksLast_iff]
  exact F.text_equivalent_iff hs cs

example := C68_canonical_output_equivalent_iff .C (.inr rfl) insSort insSort_stable [0x61, 0x307, 0x323, 0xAC00]
  [[0x61, 0x307, 0x323], [0xAC00]] (segmentation_of (by decide +kernel)) 5 (by decide) (by decide +kernel)

/-- C68: the same for the compatibility forms and the `<compat>` mappings; in particular their output is then
compatibility equivalent to the input. -/
theorem C68_compat_output_equivalent_iff (F : Form) (hF : F = .KD ∨ F = .KC) (sort : SortFn) (hs : StableSort sort)
    (cs : List Int) (gs : List (List Int)) (hgs : IsSegmentation Breaks cs gs) (fuel : Nat) (hf : cs.length < fuel)
    (hb : (cs.flatMap fullK).length < 2 ^ 31) :
    ∃ ys, normalize32 F sort fuel cs [] = .ok ((ys.length : Int), ys) ∧
      (Equivalent compatTag cs ys ↔ MarksLast compatTag gs) ∧ (MarksLast compatTag gs → Equivalent anyTag cs ys) := by
  obtain rfl := segments_unique hgs
  have hm : F.map = kdecResolve := by rcases hF with rfl | rfl <;> rfl
  refine ⟨F.text sort cs, normalize32_eq F hs.1 cs [] fuel hf (by rw [hm]; exact hb), ?_⟩
  have h : Equivalent compatTag cs (F.text sort cs) ↔ MarksLast compatTag (segments isGraphemeBoundary cs) := by
    rw [← compat_ctags hF, F.marksLast_iff]
    exact F.text_equivalent_iff hs cs
  exact ⟨h, fun hm => equivalent_mono (fun _ _ => rfl) (h.mpr hm)⟩

example := C68_compat_output_equivalent_iff .KC (.inr rfl) insSort insSort_stable [0xFB01, 0x307, 0x323]
  [[0xFB01, 0x307, 0x323]] (segmentation_of (by decide +kernel)) 5 (by decide) (by decide +kernel)

/-- C68: two texts are equivalent exactly if their NFD (NFKD) outputs are the same after every Hangul syllable is
written as jamo. (The library does not decompose Hangul syllables.) -/
theorem C68_equivalent_iff_same_decomposition (F : Form) (tags : Nat → Bool)
    (hF : F = .D ∧ tags = canonicalTag ∨ F = .KD ∧ tags = compatTag)
    (sort : SortFn) (hs : StableSort sort) (cs ds : List Int) (gs gs' : List (List Int))
    (hgs : IsSegmentation Breaks cs gs) (hgs' : IsSegmentation Breaks ds gs')
    (hm : MarksLast tags gs) (hm' : MarksLast tags gs') (fuel : Nat) (hf : cs.length < fuel) (hf' : ds.length < fuel)
    (hb : (cs.flatMap (full F.map)).length < 2 ^ 31) (hb' : (ds.flatMap (full F.map)).length < 2 ^ 31) :
    ∃ ys zs, normalize32 F sort fuel cs [] = .ok ((ys.length : Int), ys) ∧
      normalize32 F sort fuel ds [] = .ok ((zs.length : Int), zs) ∧
      (Equivalent tags cs ds ↔ expandHangul ys = expandHangul zs) := by
  obtain rfl := segments_unique hgs
  obtain rfl := segments_unique hgs'
  have ht : F.ctags = tags ∧ F.base = F := by rcases hF with ⟨rfl, rfl⟩ | ⟨rfl, rfl⟩ <;> exact ⟨rfl, rfl⟩
  refine ⟨_, _, normalize32_eq F hs.1 cs [] fuel hf hb, normalize32_eq F hs.1 ds [] fuel hf' hb', ?_⟩
  rw [← ht.1] at hm hm' ⊢
  have := F.same_order_iff hs ((F.marksLast_iff _).mp hm) ((F.marksLast_iff _).mp hm')
  rw [ht.2] at this
  exact this

/-- C68: under the same condition on the graphemes, texts with the same output are equivalent, for each of the four
forms. -/
theorem C68_same_output_implies_equivalent (F : Form) (tags : Nat → Bool)
    (hF : (F = .D ∨ F = .C) ∧ tags = canonicalTag ∨ (F = .KD ∨ F = .KC) ∧ tags = compatTag)
    (sort : SortFn) (hs : StableSort sort) (cs ds : List Int) (gs gs' : List (List Int))
    (hgs : IsSegmentation Breaks cs gs) (hgs' : IsSegmentation Breaks ds gs')
    (hm : MarksLast tags gs) (hm' : MarksLast tags gs') (fuel : Nat) (hf : cs.length < fuel) (hf' : ds.length < fuel)
    (hb : (cs.flatMap (full F.map)).length < 2 ^ 31) (hb' : (ds.flatMap (full F.map)).length < 2 ^ 31)
    (h : normalize32 F sort fuel cs [] = normalize32 F sort fuel ds []) :
    Equivalent tags cs ds ∧ Equivalent anyTag cs ds := by
  obtain rfl := segments_unique hgs
  obtain rfl := segments_unique hgs'
  have ht : F.ctags = tags := by
    rcases hF with ⟨hF, rfl⟩ | ⟨hF, rfl⟩
    · exact canonical_ctags hF
    · exact compat_ctags hF
  rw [normalize32_eq F hs.1 cs [] fuel hf hb, normalize32_eq F hs.1 ds [] fuel hf' hb'] at h
  simp only [List.nil_append, Res.ok.injEq, Prod.mk.injEq] at h
  rw [← ht] at hm hm' ⊢
  have := (F.same_order_iff hs ((F.marksLast_iff _).mp hm) ((F.marksLast_iff _).mp hm')).mpr
    (by rw [(F.text_inj hs cs ds).mp h.2])
  exact ⟨this, equivalent_mono (fun _ _ => rfl) this⟩

theorem Form.no_syl_text (F : Form) {sort : SortFn} (hs : StableSort sort) {cs : List Int}
    (h : ∀ c ∈ cs, ¬ IsHangulSyllable c) : ∀ y ∈ F.base.text sort cs, ¬ IsHangulSyllable y := by
  intro y hy
  rw [F.base_text] at hy
  obtain ⟨g, hg, hyg⟩ := List.mem_flatMap.mp hy
  obtain ⟨c, hcg, hyc⟩ := List.mem_flatMap.mp ((hs.1.perm _).mem_iff.mp hyg)
  exact F.full_not_syl (h c (grapheme_mem hg c hcg)) hyc

theorem Form.no_jamo_text (F : Form) {sort : SortFn} (hs : StableSort sort) {cs : List Int}
    (h : ∀ c ∈ cs, ∀ x ∈ full F.map c, ¬ IsJamo x) : ∀ y ∈ F.base.text sort cs, ¬ IsJamo y := by
  intro y hy
  rw [F.base_text] at hy
  obtain ⟨g, hg, hyg⟩ := List.mem_flatMap.mp hy
  obtain ⟨c, hcg, hyc⟩ := List.mem_flatMap.mp ((hs.1.perm _).mem_iff.mp hyg)
  exact h c (grapheme_mem hg c hcg) y hyc

/-- C68: comparing two texts by any one of the forms decides equivalence, if no grapheme has a starter after a
non-starter and the texts do not mix Hangul syllables and jamo (no syllables at all, or no jamo in the
decompositions). -/
theorem C68_same_output_iff_equivalent (F : Form) (tags : Nat → Bool)
    (hF : (F = .D ∨ F = .C) ∧ tags = canonicalTag ∨ (F = .KD ∨ F = .KC) ∧ tags = compatTag)
    (sort : SortFn) (hs : StableSort sort) (cs ds : List Int) (gs gs' : List (List Int))
    (hgs : IsSegmentation Breaks cs gs) (hgs' : IsSegmentation Breaks ds gs')
    (hm : MarksLast tags gs) (hm' : MarksLast tags gs')
    (hh : (∀ c ∈ cs ++ ds, ¬ IsHangulSyllable c) ∨ (∀ c ∈ cs ++ ds, ∀ x ∈ full F.map c, ¬ IsJamo x))
    (fuel : Nat) (hf : cs.length < fuel) (hf' : ds.length < fuel)
    (hb : (cs.flatMap (full F.map)).length < 2 ^ 31) (hb' : (ds.flatMap (full F.map)).length < 2 ^ 31) :
    normalize32 F sort fuel cs [] = normalize32 F sort fuel ds [] ↔ Equivalent tags cs ds := by
  refine ⟨fun h => (C68_same_output_implies_equivalent F tags hF sort hs cs ds gs gs' hgs hgs' hm hm' fuel hf hf'
    hb hb' h).1, ?_⟩
  obtain rfl := segments_unique hgs
  obtain rfl := segments_unique hgs'
  have ht : F.ctags = tags := by
    rcases hF with ⟨hF, rfl⟩ | ⟨hF, rfl⟩
    · exact canonical_ctags hF
    · exact compat_ctags hF
  rw [← ht] at hm hm' ⊢
  intro h
  have h := (F.same_order_iff hs ((F.marksLast_iff _).mp hm) ((F.marksLast_iff _).mp hm')).mp h
  have hbase : F.base.text sort cs = F.base.text sort ds := by
    rcases hh with hh | hh
    · rwa [expandHangul_id (F.no_syl_text hs fun c hc => hh c (by simp [hc])),
        expandHangul_id (F.no_syl_text hs fun c hc => hh c (by simp [hc]))] at h
    · exact expandHangul_inj (F.no_jamo_text hs fun c hc => hh c (by simp [hc]))
        (F.no_jamo_text hs fun c hc => hh c (by simp [hc])) h
  rw [normalize32_eq F hs.1 cs [] fuel hf hb, normalize32_eq F hs.1 ds [] fuel hf' hb',
    (F.text_inj hs cs ds).mpr hbase]

theorem marksLast_of (F : Form) {tags : Nat → Bool} (ht : F.ctags = tags) {gs : List (List Int)}
    (h : ∀ g ∈ gs, StartersFirst cccResolve (g.flatMap (full F.map))) : MarksLast tags gs := by
  rw [← ht]; exact (F.marksLast_iff gs).mpr h

instance (ccc : Int → Int) (l : List Int) : Decidable (StartersFirst ccc l) :=
  inferInstanceAs (Decidable (List.Pairwise _ _))

/-- Non-vacuity: the Vietnamese letter U+1EAD, once precomposed and once as a letter with a dot below followed by a
circumflex, next to a Hangul syllable. -/
example := C68_equivalent_iff_same_decomposition .D canonicalTag (.inl ⟨rfl, rfl⟩) insSort insSort_stable
  [0x1EAD, 0xAC00] [0x61, 0x302, 0x323, 0x1100, 0x1161] [[0x1EAD], [0xAC00]] [[0x61, 0x302, 0x323], [0x1100, 0x1161]]
  (segmentation_of (by decide +kernel)) (segmentation_of (by decide +kernel))
  (marksLast_of .D rfl (by decide +kernel)) (marksLast_of .D rfl (by decide +kernel)) 9 (by decide) (by decide)
  (by decide +kernel) (by decide +kernel)

example := C68_same_output_implies_equivalent .KC compatTag (.inr ⟨.inr rfl, rfl⟩) insSort insSort_stable
  [0xFB01, 0x323, 0x307] [0x66, 0x69, 0x307, 0x323] [[0xFB01, 0x323, 0x307]] [[0x66], [0x69, 0x307, 0x323]]
  (segmentation_of (by decide +kernel)) (segmentation_of (by decide +kernel))
  (marksLast_of .KC rfl (by decide +kernel)) (marksLast_of .KC rfl (by decide +kernel)) 9 (by decide) (by decide)
  (by decide +kernel) (by decide +kernel) (by decide +kernel)

example := C68_same_output_iff_equivalent .C canonicalTag (.inl ⟨.inr rfl, rfl⟩) insSort insSort_stable
  [0x1EAD, 0x78] [0x61, 0x302, 0x323, 0x78] [[0x1EAD], [0x78]] [[0x61, 0x302, 0x323], [0x78]]
  (segmentation_of (by decide +kernel)) (segmentation_of (by decide +kernel))
  (marksLast_of .C rfl (by decide +kernel)) (marksLast_of .C rfl (by decide +kernel)) (.inl (by decide)) 9 (by decide)
  (by decide) (by decide +kernel) (by decide +kernel)

/-- C68 for the canonical forms with the condition on the input alone: no Hangul syllables, or no jamo. -/
theorem C68_canonical_same_output_iff_equivalent (F : Form) (hF : F = .D ∨ F = .C)
    (sort : SortFn) (hs : StableSort sort) (cs ds : List Int) (gs gs' : List (List Int))
    (hgs : IsSegmentation Breaks cs gs) (hgs' : IsSegmentation Breaks ds gs')
    (hm : MarksLast canonicalTag gs) (hm' : MarksLast canonicalTag gs')
    (hh : (∀ c ∈ cs ++ ds, ¬ IsHangulSyllable c) ∨ (∀ c ∈ cs ++ ds, ¬ IsJamo c))
    (fuel : Nat) (hf : cs.length < fuel) (hf' : ds.length < fuel)
    (hb : (cs.flatMap fullD).length < 2 ^ 31) (hb' : (ds.flatMap fullD).length < 2 ^ 31) :
    normalize32 F sort fuel cs [] = normalize32 F sort fuel ds [] ↔ Equivalent canonicalTag cs ds := by
  have hmap : F.map = decResolve := by rcases hF with rfl | rfl <;> rfl
  refine C68_same_output_iff_equivalent F canonicalTag (.inl ⟨hF, rfl⟩) sort hs cs ds gs gs' hgs hgs' hm hm'
    (hh.imp id fun h c hc => ?_) fuel hf hf' (by rw [hmap]; exact hb) (by rw [hmap]; exact hb')
  rw [hmap]
  exact fullD_not_jamo (h c hc)

example := C68_canonical_same_output_iff_equivalent .D (.inl rfl) insSort insSort_stable
  [0x1EAD, 0xAC00] [0x61, 0x302, 0x323, 0xAC00] [[0x1EAD], [0xAC00]] [[0x61, 0x302, 0x323], [0xAC00]]
  (segmentation_of (by decide +kernel)) (segmentation_of (by decide +kernel))
  (marksLast_of .D rfl (by decide +kernel)) (marksLast_of .D rfl (by decide +kernel)) (.inr (by decide)) 9 (by decide)
  (by decide) (by decide +kernel) (by decide +kernel)

/-- C68: canonically equivalent texts have the same number of graphemes (emoji modifiers only directly after emoji bases, no starter after a
non-starter in a grapheme, no mix of Hangul syllables and jamo). -/
theorem C68_equivalent_same_graphemes (sort : SortFn) (hs : StableSort sort) (cs ds : List Int)
    (gs gs' : List (List Int)) (hgs : IsSegmentation Breaks cs gs) (hgs' : IsSegmentation Breaks ds gs')
    (hm : MarksLast canonicalTag gs) (hm' : MarksLast canonicalTag gs')
    (hh : (∀ c ∈ cs ++ ds, ¬ IsHangulSyllable c) ∨ (∀ c ∈ cs ++ ds, ¬ IsJamo c))
    (hmod : ModifiersFollowBases cs) (hmod' : ModifiersFollowBases ds)
    (hb : (cs.flatMap fullD).length < 2 ^ 31) (hb' : (ds.flatMap fullD).length < 2 ^ 31)
    (h : Equivalent canonicalTag cs ds) : gs.length = gs'.length := by
  have h1 := (C68_canonical_same_output_iff_equivalent .D (.inl rfl) sort hs cs ds gs gs' hgs hgs' hm hm' hh
    (cs.length + ds.length + 1) (by omega) (by omega) hb hb').mpr h
  obtain ⟨ys, ns, a1, a2, a3, _⟩ := C59_graphemes_of_normal_form .D (.inl rfl) sort hs cs
    hmod gs hgs (cs.length + ds.length + 1) (by omega) hb
  obtain ⟨zs, ms, b1, b2, b3, _⟩ := C59_graphemes_of_normal_form .D (.inl rfl) sort hs ds
    hmod' gs' hgs' (cs.length + ds.length + 1) (by omega) hb'
  rw [a1, b1] at h1
  simp only [Res.ok.injEq, Prod.mk.injEq] at h1
  obtain ⟨_, rfl⟩ := h1
  rw [← a3, ← b3, segments_unique a2, segments_unique b2]

example := C68_equivalent_same_graphemes insSort insSort_stable
  [0x1EAD, 0xAC00] [0x61, 0x302, 0x323, 0xAC00] [[0x1EAD], [0xAC00]] [[0x61, 0x302, 0x323], [0xAC00]]
  (segmentation_of (by decide +kernel)) (segmentation_of (by decide +kernel))
  (marksLast_of .D rfl (by decide +kernel)) (marksLast_of .D rfl (by decide +kernel)) (.inr (by decide))
  (modifiers_of (by decide +kernel)) (modifiers_of (by decide +kernel)) (by decide +kernel) (by decide +kernel)
  ((Form.D.equivalent_iff_order _ _).mpr (by decide +kernel))

/-- `OtherTag` by look-up, for the instances. -/
noncomputable def noOtherTag (c : Int) : Bool := decide (c < 0) || (match ucdAt c.toNat with
  | some r => Nat.ble r.tag 1
  | none => true)

theorem not_otherTag {c : Int} (h : noOtherTag c = true) : ¬ OtherTag c := by
  rintro ⟨r, hr, rfl, ht⟩
  rw [noOtherTag, show ((r.cp : Int)).toNat = r.cp from rfl, ucdAt_iff.mpr ⟨hr, rfl⟩] at h
  simp [Nat.ble_eq] at h
  omega

theorem marksLast_any {gs : List (List Int)} (h1 : ∀ g ∈ gs, ∀ c ∈ g, noOtherTag c = true)
    (h2 : ∀ g ∈ gs, StartersFirst cccResolve (g.flatMap fullK)) : MarksLast anyTag gs := by
  intro g hg l hl
  have := (Form.KD.ucdDecomposition_iff (fun c hc => not_otherTag (h1 g hg c hc)) l).mp hl
  exact (Form.KD.startersFirst_iff g).mpr (h2 g hg) l ((Form.KD.ucdDecomposition_ctags g l).mpr this)

/-- C68: for texts without codepoints of another tag (`<font>`, `<wide>`, …) the same holds of full compatibility
equivalence. -/
theorem C68_compat_same_output_iff_equivalent (F : Form) (hF : F = .KD ∨ F = .KC)
    (sort : SortFn) (hs : StableSort sort) (cs ds : List Int) (gs gs' : List (List Int))
    (hgs : IsSegmentation Breaks cs gs) (hgs' : IsSegmentation Breaks ds gs')
    (hm : MarksLast anyTag gs) (hm' : MarksLast anyTag gs') (ho : ∀ c ∈ cs ++ ds, ¬ OtherTag c)
    (hh : (∀ c ∈ cs ++ ds, ¬ IsHangulSyllable c) ∨ (∀ c ∈ cs ++ ds, ∀ x ∈ fullK c, ¬ IsJamo x))
    (fuel : Nat) (hf : cs.length < fuel) (hf' : ds.length < fuel)
    (hb : (cs.flatMap fullK).length < 2 ^ 31) (hb' : (ds.flatMap fullK).length < 2 ^ 31) :
    normalize32 F sort fuel cs [] = normalize32 F sort fuel ds [] ↔ Equivalent anyTag cs ds := by
  have hmap : F.map = kdecResolve := by rcases hF with rfl | rfl <;> rfl
  have htags : F.tags = anyTag := by rcases hF with rfl | rfl <;> rfl
  have hmiss : ∀ c ∈ cs ++ ds, ¬ F.Missing c := by
    intro c hc; have := ho c hc; rcases hF with rfl | rfl <;> exact this
  have hml : ∀ (xs : List Int) (hs : List (List Int)), (∀ c ∈ xs, ¬ F.Missing c) → IsSegmentation Breaks xs hs →
      MarksLast anyTag hs → MarksLast compatTag hs := by
    intro xs hs' hx hseg h g hg l hl
    obtain rfl := segments_unique hseg
    rw [← compat_ctags hF, F.ucdDecomposition_ctags] at hl
    refine h g hg l ?_
    rw [← htags]
    exact (F.ucdDecomposition_iff (fun c hc => hx c (grapheme_mem hg c hc)) l).mpr hl
  have h1 : ∀ c ∈ cs, ¬ F.Missing c := fun c hc => hmiss c (by simp [hc])
  have h2 : ∀ c ∈ ds, ¬ F.Missing c := fun c hc => hmiss c (by simp [hc])
  rw [← htags, F.equivalent_tags_iff h1 h2, compat_ctags hF]
  exact C68_same_output_iff_equivalent F compatTag (.inr ⟨hF, rfl⟩) sort hs cs ds gs gs' hgs hgs'
    (hml cs gs h1 hgs hm) (hml ds gs' h2 hgs' hm') (by rw [hmap]; exact hh) fuel hf hf'
    (by rw [hmap]; exact hb) (by rw [hmap]; exact hb')

example := C68_compat_same_output_iff_equivalent .KD (.inl rfl) insSort insSort_stable
  [0xFB01] [0x66, 0x69] [[0xFB01]] [[0x66], [0x69]]
  (segmentation_of (by decide +kernel)) (segmentation_of (by decide +kernel))
  (marksLast_any (by decide +kernel) (by decide +kernel)) (marksLast_any (by decide +kernel) (by decide +kernel))
  (fun c hc => not_otherTag (by revert c; decide +kernel))
  (.inl (by decide)) 9 (by decide) (by decide) (by decide +kernel) (by decide +kernel)

/-- C68, UTF-8 to UTF-8: under the same conditions equivalent texts get the same octets, the same return value and the
same definedness. -/
theorem C68_utf8_equivalent_same_output (F : Form) (tags : Nat → Bool)
    (hF : (F = .D ∨ F = .C) ∧ tags = canonicalTag ∨ (F = .KD ∨ F = .KC) ∧ tags = compatTag)
    (sort : SortFn) (hs : StableSort sort) (cs ds : List Nat) (hc : ∀ c ∈ cs, c < 2 ^ 31) (hd : ∀ c ∈ ds, c < 2 ^ 31)
    (gs gs' : List (List Int))
    (hgs : IsSegmentation Breaks (cs.map Int.ofNat) gs) (hgs' : IsSegmentation Breaks (ds.map Int.ofNat) gs')
    (hm : MarksLast tags gs) (hm' : MarksLast tags gs')
    (hh : (∀ c ∈ cs.map Int.ofNat ++ ds.map Int.ofNat, ¬ IsHangulSyllable c) ∨
      (∀ c ∈ cs.map Int.ofNat ++ ds.map Int.ofNat, ∀ x ∈ full F.map c, ¬ IsJamo x))
    (fuel : Nat) (hf : cs.length < fuel) (hf' : ds.length < fuel)
    (hb : ((cs.map Int.ofNat).flatMap (full F.map)).length < 2 ^ 31)
    (hb' : ((ds.map Int.ofNat).flatMap (full F.map)).length < 2 ^ 31) (out : List UInt8)
    (h : Equivalent tags (cs.map Int.ofNat) (ds.map Int.ofNat)) :
    normalize8 F sort fuel cs out = normalize8 F sort fuel ds out := by
  have h1 := (C68_same_output_iff_equivalent F tags hF sort hs _ _ gs gs' hgs hgs' hm hm' hh fuel (by simpa)
    (by simpa) hb hb').mpr h
  obtain ⟨ns, a1, a2⟩ := C38_exact F sort hs.1 cs hc fuel hf hb out
  obtain ⟨ms, b1, b2⟩ := C38_exact F sort hs.1 ds hd fuel hf' hb' out
  rw [a1, b1] at h1
  simp only [Res.ok.injEq, Prod.mk.injEq] at h1
  rw [a2, b2, h1.2]

example := C68_utf8_equivalent_same_output .C canonicalTag (.inl ⟨.inr rfl, rfl⟩) insSort insSort_stable
  [0x1EAD, 0x78] [0x61, 0x302, 0x323, 0x78] (by decide) (by decide) [[0x1EAD], [0x78]] [[0x61, 0x302, 0x323], [0x78]]
  (segmentation_of (by decide +kernel)) (segmentation_of (by decide +kernel))
  (marksLast_of .C rfl (by decide +kernel)) (marksLast_of .C rfl (by decide +kernel)) (.inl (by decide)) 9 (by decide)
  (by decide) (by decide +kernel) (by decide +kernel) [] ((Form.C.equivalent_iff_order _ _).mpr (by decide +kernel))

/-- C68, why the conditions are there: a joiner after a mark is moved (the outputs are the same, the texts are not
equivalent); a Hangul syllable is not decomposed (equivalent, different outputs in NFD and in NFC); a wide letter is
not decomposed (compatibility equivalent, different outputs in NFKD). -/
theorem C68_counterexamples :
    (normalize32 .D insSort 9 [0x62, 0x301, 0x200D] [] = normalize32 .D insSort 9 [0x62, 0x200D, 0x301] [] ∧
      ¬ Equivalent canonicalTag [0x62, 0x301, 0x200D] [0x62, 0x200D, 0x301]) ∧
    (Equivalent canonicalTag [0xAC00] [0x1100, 0x1161] ∧
      normalize32 .D insSort 9 [0xAC00] [] ≠ normalize32 .D insSort 9 [0x1100, 0x1161] [] ∧
      normalize32 .C insSort 9 [0xAC00] [] ≠ normalize32 .C insSort 9 [0x1100, 0x1161] []) ∧
    (Equivalent anyTag [0xFF21] [0x41] ∧
      normalize32 .KD insSort 9 [0xFF21] [] ≠ normalize32 .KD insSort 9 [0x41] []) := by
  refine ⟨⟨by decide +kernel, ?_⟩, ⟨?_, by decide +kernel, by decide +kernel⟩, ?_, by decide +kernel⟩
  · rw [show canonicalTag = Form.D.ctags from rfl, Form.D.equivalent_iff_order]
    decide +kernel
  · exact (Form.D.equivalent_iff_order _ _).mpr (by decide +kernel)
  · have := EquivalenceStep.map (tags := anyTag) [] [] (k := 0xFF21) (m := [0x41]) (by
      rw [mapping_any]; decide +kernel)
    exact .step this

end U5e
