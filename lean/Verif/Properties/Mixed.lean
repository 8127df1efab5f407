import Verif.Proofs.MixedText
import Verif.Proofs.MixedExact
import Verif.Properties.Idempotence
/-!
# C58, C59: mixing canonical and compatibility forms; the graphemes of normalized text

`normalize32 F sort fuel cs out` filters the NUL-terminated utf32ne string `cs` through form `F`
(Properties/Normalize.lean); `sort` is any stable sort. `fullD c`, `fullK c` are the canonical and the
compatibility decomposition of a codepoint, `cccResolve` its combining class, `gcbResolve` its break class.
-/
namespace U5e
open Spec

/-! ### C58 -/

/-- C58: on the result of a compatibility form the canonical forms do what the compatibility forms do,
for every text: nothing is left that only a compatibility mapping would change. -/
theorem C58_canonical_equals_compat_after_compat (F : Form) (hF : F = .KD ∨ F = .KC)
    (sort : SortFn) (hs : StableSort sort) (cs : List Int) (fuel : Nat) (hf : cs.length < fuel)
    (hb : (cs.flatMap fullK).length < 2 ^ 31) :
    ∃ ys, normalize32 F sort fuel cs [] = .ok ((ys.length : Int), ys) ∧
      (∀ c ∈ ys, fullD c = fullK c) ∧
      ∀ fuel', ys.length < fuel' →
        (∃ zs, normalize32 .D sort fuel' ys [] = .ok ((zs.length : Int), zs) ∧
          normalize32 .KD sort fuel' ys [] = .ok ((zs.length : Int), zs)) ∧
        (∃ zs, normalize32 .C sort fuel' ys [] = .ok ((zs.length : Int), zs) ∧
          normalize32 .KC sort fuel' ys [] = .ok ((zs.length : Int), zs)) := by
  have hbase : F.base = .KD := by rcases hF with rfl | rfl <;> rfl
  have hmap : F.map = kdecResolve := by rcases hF with rfl | rfl <;> rfl
  have hsame := same_text F hbase hs.1 cs
  refine ⟨F.text sort cs, normalize32_eq F hs.1 cs [] fuel hf (by rw [hmap]; exact hb), hsame, ?_⟩
  intro fuel' hf'
  have hlen := F.decompose_text_length hs.1 cs
  rw [hmap] at hlen
  have hbK : ((F.text sort cs).flatMap fullK).length < 2 ^ 31 := by
    rw [show (F.text sort cs).flatMap fullK = decompose kdecResolve (F.text sort cs) from rfl, hlen]; exact hb
  have hbD : ((F.text sort cs).flatMap fullD).length < 2 ^ 31 :=
    Nat.lt_of_le_of_lt (decomposeD_length_le _) hbK
  refine ⟨⟨Form.KD.text sort (F.text sort cs), ?_, normalize32_eq .KD hs.1 _ [] fuel' hf' hbK⟩,
    ⟨Form.KC.text sort (F.text sort cs), ?_, normalize32_eq .KC hs.1 _ [] fuel' hf' hbK⟩⟩
  · have := text_same .D sort hsame
    rw [show Form.D.compat = .KD from rfl] at this
    rw [← this]; exact normalize32_eq .D hs.1 _ [] fuel' hf' hbD
  · have := text_same .C sort hsame
    rw [show Form.C.compat = .KC from rfl] at this
    rw [← this]; exact normalize32_eq .C hs.1 _ [] fuel' hf' hbD

/-- Instance. -/
example := C58_canonical_equals_compat_after_compat .KC (.inr rfl) insSort insSort_stable
  [0xFB01, 0x1E9B, 0x323, 0x2025] 5 (by decide) (by decide +kernel)

/-- C58, exact: a canonical form `G` applied to the result of a compatibility form `F` gives the
compatibility form `GK` of the original text if and only if the text has no modifier trap for `F`. -/
theorem C58_canonical_after_compat_iff (F G GK : Form) (hF : F = .KD ∨ F = .KC)
    (hG : G = .D ∧ GK = .KD ∨ G = .C ∧ GK = .KC)
    (sort : SortFn) (hs : StableSort sort) (cs : List Int)
    (gs : List (List Int)) (hgs : IsSegmentation Breaks cs gs) (fuel : Nat) (hf : cs.length < fuel)
    (hb : (cs.flatMap fullK).length < 2 ^ 31) :
    ∃ ys zs, normalize32 F sort fuel cs [] = .ok ((ys.length : Int), ys) ∧
      normalize32 GK sort fuel cs [] = .ok ((zs.length : Int), zs) ∧
      ∀ fuel', ys.length < fuel' →
        (normalize32 G sort fuel' ys [] = .ok ((zs.length : Int), zs) ↔ ¬ ModifierTrap F sort gs) := by
  obtain rfl := segments_unique hgs
  have hbase : F.base = .KD := by rcases hF with rfl | rfl <;> rfl
  have hmap : F.map = kdecResolve := by rcases hF with rfl | rfl <;> rfl
  have hGKb : GK.base = .KD := by rcases hG with ⟨_, rfl⟩ | ⟨_, rfl⟩ <;> rfl
  have hGKm : GK.map = kdecResolve := by rcases hG with ⟨_, rfl⟩ | ⟨_, rfl⟩ <;> rfl
  have hGm : G.map = decResolve := by rcases hG with ⟨rfl, _⟩ | ⟨rfl, _⟩ <;> rfl
  have hc : G.compat = GK := by rcases hG with ⟨rfl, rfl⟩ | ⟨rfl, rfl⟩ <;> rfl
  refine ⟨F.text sort cs, GK.text sort cs, normalize32_eq F hs.1 cs [] fuel hf (by rw [hmap]; exact hb),
    normalize32_eq GK hs.1 cs [] fuel hf (by rw [hGKm]; exact hb), ?_⟩
  intro fuel' hf'
  have hlen := F.decompose_text_length hs.1 cs
  rw [hmap] at hlen
  have hbK : ((F.text sort cs).flatMap fullK).length < 2 ^ 31 := by
    rw [show (F.text sort cs).flatMap fullK = decompose kdecResolve (F.text sort cs) from rfl, hlen]; exact hb
  rw [normalize32_eq G hs.1 _ [] fuel' hf' (by
      rw [hGm]; exact Nat.lt_of_le_of_lt (decomposeD_length_le _) hbK),
    text_same G sort (same_text F hbase hs.1 cs), hc, modifierTrap_iff,
    ← F.settled_text_iff hs, ← F.renormalize GK (by rw [hbase, hGKb]) hs]
  constructor
  · intro h; simp at h; exact h.2
  · intro h; rw [h]; simp

/-- Instance. -/
example := C58_canonical_after_compat_iff .KC .D .KD (.inr rfl) (.inl ⟨rfl, rfl⟩) insSort insSort_stable
  [0xFB01, 0x1E9B, 0x323, 0x2025] [[0xFB01], [0x1E9B, 0x323], [0x2025]] (segmentation_of (by decide +kernel)) 5
  (by decide) (by decide +kernel)

/-- Non-vacuity: NFD and NFC of NFKC("ﬁ" U+1E9B U+0323, "‥") are its NFKD and NFKC. -/
example : normalize32 .KC insSort 9 [0xFB01, 0x1E9B, 0x323, 0x2025] [] =
      .ok (5, [0x66, 0x69, 0x1E69, 0x2E, 0x2E]) ∧
    normalize32 .D insSort 9 [0x66, 0x69, 0x1E69, 0x2E, 0x2E] [] =
      .ok (7, [0x66, 0x69, 0x73, 0x323, 0x307, 0x2E, 0x2E]) ∧
    normalize32 .KD insSort 9 [0xFB01, 0x1E9B, 0x323, 0x2025] [] =
      .ok (7, [0x66, 0x69, 0x73, 0x323, 0x307, 0x2E, 0x2E]) := by decide +kernel

/-- Where a compatibility form is sensitive to canonical normalization before it: in one grapheme
U+0F77 or U+0F79 (Tibetan vowel signs that are starters but whose compatibility decomposition ends in
the non-starter U+0F80 of class 130) comes after another codepoint of class 130. -/
def TibetanTrap (gs : List (List Int)) : Prop :=
  ∃ g ∈ gs, ∃ p s q n, g = p ++ s :: q ∧ (s = 0xF77 ∨ s = 0xF79) ∧ n ∈ p.flatMap fullD ∧
    cccResolve n = 130 ∧ n ≠ 0xF80

theorem tibetanTrap_iff (gs : List (List Int)) :
    ¬ TibetanTrap gs ↔ ∀ g ∈ gs, ¬ TibTrap (decompose decResolve g) := by
  constructor
  · intro h g hg ht
    exact h ⟨g, hg, (tibTrap_iff g).mp ht⟩
  · rintro h ⟨g, hg, ht⟩
    exact h g hg ((tibTrap_iff g).mpr ht)

/-- C58, exact: for every text in which emoji modifiers directly follow emoji bases, a compatibility form `G` of the canonical form
`F` of the text is `G` of the text if and only if the text does not contain the Tibetan trap. -/
theorem C58_compat_after_canonical_iff (F G : Form) (hF : F = .D ∨ F = .C) (hG : G = .KD ∨ G = .KC)
    (sort : SortFn) (hs : StableSort sort) (cs : List Int)
    (hmod : ModifiersFollowBases cs)
    (gs : List (List Int)) (hgs : IsSegmentation Breaks cs gs) (fuel : Nat) (hf : cs.length < fuel)
    (hb : (cs.flatMap fullK).length < 2 ^ 31) :
    ∃ ys zs, normalize32 F sort fuel cs [] = .ok ((ys.length : Int), ys) ∧
      normalize32 G sort fuel cs [] = .ok ((zs.length : Int), zs) ∧
      ∀ fuel', ys.length < fuel' →
        (normalize32 G sort fuel' ys [] = .ok ((zs.length : Int), zs) ↔ ¬ TibetanTrap gs) := by
  obtain rfl := segments_unique hgs
  have hFb : F.base = .D := by rcases hF with rfl | rfl <;> rfl
  have hFm : F.map = decResolve := by rcases hF with rfl | rfl <;> rfl
  have hGb : G.base = .KD := by rcases hG with rfl | rfl <;> rfl
  have hGm : G.map = kdecResolve := by rcases hG with rfl | rfl <;> rfl
  have hbD : (cs.flatMap (full F.map)).length < 2 ^ 31 := by
    rw [hFm]; exact Nat.lt_of_le_of_lt (decomposeD_length_le _) hb
  refine ⟨F.text sort cs, G.text sort cs, normalize32_eq F hs.1 cs [] fuel hf hbD,
    normalize32_eq G hs.1 cs [] fuel hf (by rw [hGm]; exact hb), ?_⟩
  intro fuel' hf'
  rw [normalize32_eq G hs.1 _ [] fuel' hf' (by
      rw [hGm]
      have := decomposeK_text_length F hFb hs.1 cs
      rw [show (F.text sort cs).flatMap fullK = decompose kdecResolve (F.text sort cs) from rfl, this]
      exact hb)]
  have key : G.text sort (F.text sort cs) = G.text sort cs ↔ ¬ TibetanTrap (segments isGraphemeBoundary cs) := by
    rw [compat_text_iff G hGb hs, tibetanTrap_iff, ← kd_of_d_iff hs (goodMod_iff.mp hmod)]
    rcases hF with rfl | rfl
    · exact Iff.rfl
    · rw [kd_of_c hs (goodMod_iff.mp hmod)]
  rw [← key]
  constructor
  · intro h; simp at h; exact h.2
  · intro h; rw [h]; simp

/-- Instance: with a Tibetan letter of the trap. -/
example := C58_compat_after_canonical_iff .D .KD (.inl rfl) (.inl rfl) insSort insSort_stable
  [0x61, 0xF7A, 0xF79, 0xFB01] (modifiers_of (by decide +kernel)) [[0x61, 0xF7A, 0xF79], [0xFB01]]
  (segmentation_of (by decide +kernel)) 5 (by decide) (by decide +kernel)

/-- C58, the simple case: with emoji modifiers only directly after emoji bases, without U+0F77 and U+0F79, canonical normalization first
does not change the compatibility forms. -/
theorem C58_compat_after_canonical (F G : Form) (hF : F = .D ∨ F = .C) (hG : G = .KD ∨ G = .KC)
    (sort : SortFn) (hs : StableSort sort) (cs : List Int)
    (hmod : ModifiersFollowBases cs) (htib : ∀ c ∈ cs, c ≠ 0xF77 ∧ c ≠ 0xF79)
    (fuel : Nat) (hf : cs.length < fuel) (hb : (cs.flatMap fullK).length < 2 ^ 31) :
    ∃ ys zs, normalize32 F sort fuel cs [] = .ok ((ys.length : Int), ys) ∧
      normalize32 G sort fuel cs [] = .ok ((zs.length : Int), zs) ∧
      ∀ fuel', ys.length < fuel' → normalize32 G sort fuel' ys [] = .ok ((zs.length : Int), zs) := by
  obtain ⟨ys, zs, h1, h2, h3⟩ := C58_compat_after_canonical_iff F G hF hG sort hs cs
    hmod _ (segments_breaks cs) fuel hf hb
  refine ⟨ys, zs, h1, h2, fun fuel' hf' => (h3 fuel' hf').mpr ?_⟩
  rintro ⟨g, hg, p, s, q, n, rfl, hts, _⟩
  have := htib s (grapheme_mem hg s (by simp))
  rcases hts with rfl | rfl
  · exact this.1 rfl
  · exact this.2 rfl

/-- Instance. -/
example := C58_compat_after_canonical .D .KC (.inl rfl) (.inr rfl) insSort insSort_stable
  [0xFB01, 0xE9, 0x323, 0x212B] (modifiers_of (by decide +kernel)) (by decide) 5 (by decide) (by decide +kernel)

/-- Non-vacuity: NFKC of NFD of "ﬁé Å" with marks out of order; and U+0F79 harmless after U+0F80. -/
example : normalize32 .D insSort 9 [0xFB01, 0xE9, 0x323, 0x212B] [] =
      .ok (6, [0xFB01, 0x65, 0x323, 0x301, 0x41, 0x30A]) ∧
    normalize32 .KC insSort 9 [0xFB01, 0x65, 0x323, 0x301, 0x41, 0x30A] [] =
      .ok (5, [0x66, 0x69, 0x1EB9, 0x301, 0xC5]) ∧
    normalize32 .KC insSort 9 [0xFB01, 0xE9, 0x323, 0x212B] [] =
      .ok (5, [0x66, 0x69, 0x1EB9, 0x301, 0xC5]) := by decide +kernel

/-- The exact condition matters: NFKD depends on prior NFD for U+0F7A U+0F79 (the Tibetan trap; the
same in the Unicode standard), not for U+0F80 U+0F79; and for U+00A8 U+0301 U+1F3FB, where the emoji
modifier starts a grapheme in the text but not in its NFD (a difference from the standard). -/
theorem C58_counterexamples :
    normalize32 .KD insSort 9 [0xF7A, 0xF79] [] = .ok (4, [0xFB3, 0xF71, 0xF7A, 0xF80]) ∧
    normalize32 .D insSort 9 [0xF7A, 0xF79] [] = .ok (2, [0xF79, 0xF7A]) ∧
    normalize32 .KD insSort 9 [0xF79, 0xF7A] [] = .ok (4, [0xFB3, 0xF71, 0xF80, 0xF7A]) ∧
    normalize32 .KD insSort 9 [0xF80, 0xF79] [] = .ok (4, [0xFB3, 0xF71, 0xF80, 0xF80]) ∧
    normalize32 .D insSort 9 [0xF80, 0xF79] [] = .ok (2, [0xF79, 0xF80]) ∧
    normalize32 .KD insSort 9 [0xF79, 0xF80] [] = .ok (4, [0xFB3, 0xF71, 0xF80, 0xF80]) ∧
    normalize32 .KD insSort 9 [0xE9, 0x1F3FB] [] = .ok (3, [0x65, 0x301, 0x1F3FB]) ∧
    normalize32 .D insSort 9 [0xE9, 0x1F3FB] [] = .ok (3, [0x65, 0x301, 0x1F3FB]) ∧
    normalize32 .KD insSort 9 [0x65, 0x301, 0x1F3FB] [] = .ok (3, [0x65, 0x1F3FB, 0x301]) := by
  decide +kernel

/-- C58: comparing texts by one form of a pair is comparing by the other, for every two texts: equal
NFD if and only if equal NFC; equal NFKD if and only if equal NFKC. -/
theorem C58_same_comparison (F G : Form) (hFG : F = .D ∧ G = .C ∨ F = .KD ∧ G = .KC)
    (sort : SortFn) (hs : StableSort sort) (xs ys : List Int) (fuel : Nat) (hx : xs.length < fuel)
    (hy : ys.length < fuel) (hbx : (xs.flatMap (full F.map)).length < 2 ^ 31)
    (hby : (ys.flatMap (full F.map)).length < 2 ^ 31) :
    normalize32 F sort fuel xs [] = normalize32 F sort fuel ys [] ↔
      normalize32 G sort fuel xs [] = normalize32 G sort fuel ys [] := by
  have hbase : F.base = F ∧ G.base = F ∧ F.map = G.map := by
    rcases hFG with ⟨rfl, rfl⟩ | ⟨rfl, rfl⟩ <;> exact ⟨rfl, rfl, rfl⟩
  rw [normalize32_eq F hs.1 xs [] fuel hx hbx, normalize32_eq F hs.1 ys [] fuel hy hby,
    normalize32_eq G hs.1 xs [] fuel hx (by rw [← hbase.2.2]; exact hbx),
    normalize32_eq G hs.1 ys [] fuel hy (by rw [← hbase.2.2]; exact hby)]
  simp only [List.nil_append, Res.ok.injEq, Prod.mk.injEq]
  constructor
  · rintro ⟨_, h⟩
    have : G.text sort xs = G.text sort ys := by rw [G.text_eq hs, G.text_eq hs, hbase.2.1, h]
    rw [this]; exact ⟨rfl, rfl⟩
  · rintro ⟨_, h⟩
    have := congrArg (decompose G.map) h
    rw [G.decompose_text hs.1, G.decompose_text hs.1, hbase.2.1] at this
    rw [this]; exact ⟨rfl, rfl⟩

/-- Instance: U+212B and its decomposition. -/
example := C58_same_comparison .D .C (.inl ⟨rfl, rfl⟩) insSort insSort_stable [0x212B, 0xFB01] [0x41, 0x30A, 0xFB01] 4
  (by decide) (by decide) (by decide +kernel) (by decide +kernel)

/-- C58: canonically equivalent texts (with emoji modifiers only directly after emoji bases, without U+0F77 and U+0F79) are compatibility
equivalent: equal NFD or equal NFC implies equal NFKD and equal NFKC. -/
theorem C58_canonical_implies_compat (F G : Form) (hF : F = .D ∨ F = .C) (hG : G = .KD ∨ G = .KC)
    (sort : SortFn) (hs : StableSort sort) (xs ys : List Int)
    (hmx : ModifiersFollowBases xs) (htx : ∀ c ∈ xs, c ≠ 0xF77 ∧ c ≠ 0xF79)
    (hmy : ModifiersFollowBases ys) (hty : ∀ c ∈ ys, c ≠ 0xF77 ∧ c ≠ 0xF79)
    (fuel : Nat) (hx : xs.length < fuel) (hy : ys.length < fuel)
    (hbx : (xs.flatMap fullK).length < 2 ^ 31) (hby : (ys.flatMap fullK).length < 2 ^ 31)
    (h : normalize32 F sort fuel xs [] = normalize32 F sort fuel ys []) :
    normalize32 G sort fuel xs [] = normalize32 G sort fuel ys [] := by
  obtain ⟨a, b, h1, h2, h3⟩ := C58_compat_after_canonical F G hF hG sort hs xs hmx htx fuel hx hbx
  obtain ⟨a', b', h1', h2', h3'⟩ := C58_compat_after_canonical F G hF hG sort hs ys hmy hty fuel hy hby
  rw [h1, h1'] at h
  simp only [Res.ok.injEq, Prod.mk.injEq] at h
  obtain ⟨_, rfl⟩ := h
  rw [h2, h2', ← h3 (a.length + 1) (by omega), ← h3' (a.length + 1) (by omega)]

/-- Instance: U+212B and its decomposition. -/
example : normalize32 .KC insSort 4 [0x212B, 0xFB01] [] = normalize32 .KC insSort 4 [0x41, 0x30A, 0xFB01] [] :=
  C58_canonical_implies_compat .C .KC (.inr rfl) (.inr rfl) insSort insSort_stable _ _ (modifiers_of (by decide +kernel))
    (by decide) (modifiers_of (by decide +kernel)) (by decide) 4 (by decide) (by decide) (by decide +kernel) (by decide +kernel) (by decide +kernel)

example : normalize32 .C insSort 9 [0x212B, 0xFB01] [] = normalize32 .C insSort 9 [0x41, 0x30A, 0xFB01] [] ∧
    normalize32 .KC insSort 9 [0x212B, 0xFB01] [] = .ok (3, [0xC5, 0x66, 0x69]) ∧
    normalize32 .KC insSort 9 [0x41, 0x30A, 0xFB01] [] = .ok (3, [0xC5, 0x66, 0x69]) := by decide +kernel

/-! ### C59 -/

/-- C59: for every text in which emoji modifiers directly follow emoji bases the graphemes of its NFD (NFC) are the NFD (NFC) of its
graphemes, one for one. `gs` are the graphemes of the text, `ns` those of the normalized text. -/
theorem C59_graphemes_of_normal_form (F : Form) (hF : F = .D ∨ F = .C)
    (sort : SortFn) (hs : StableSort sort) (cs : List Int)
    (hmod : ModifiersFollowBases cs)
    (gs : List (List Int)) (hgs : IsSegmentation Breaks cs gs) (fuel : Nat) (hf : cs.length < fuel)
    (hb : (cs.flatMap fullD).length < 2 ^ 31) :
    ∃ ys ns, normalize32 F sort fuel cs [] = .ok ((ys.length : Int), ys) ∧
      IsSegmentation Breaks ys ns ∧ ns.length = gs.length ∧
      ∀ (i : Nat) (g n : List Int), gs[i]? = some g → ns[i]? = some n →
        normalize32 F sort fuel g [] = .ok ((n.length : Int), n) := by
  obtain rfl := segments_unique hgs
  have hFb : F.base = .D := by rcases hF with rfl | rfl <;> rfl
  have hFm : F.map = decResolve := by rcases hF with rfl | rfl <;> rfl
  refine ⟨F.text sort cs, (graphemes cs).map (F.result sort),
    normalize32_eq F hs.1 cs [] fuel hf (by rw [hFm]; exact hb), ?_, by simp, ?_⟩
  · rw [← graphemes_canonical F hFb hs (goodMod_iff.mp hmod)]; exact segments_breaks _
  · intro i g n hg hn
    rw [List.getElem?_map, hg] at hn
    simp at hn; subst hn
    have hgm := List.mem_of_getElem? hg
    have hlen : g.length ≤ cs.length ∧ (g.flatMap fullD).length ≤ (cs.flatMap fullD).length := by
      obtain ⟨p, q, hpq⟩ := List.append_of_mem hgm
      have := segments_flatten isGraphemeBoundary cs
      rw [hpq] at this
      rw [← this]
      simp only [List.flatten_append, List.flatten_cons, List.flatMap_append, List.length_append]
      omega
    rw [normalize32_eq F hs.1 g [] fuel (by omega) (by rw [hFm]; omega), text_grapheme F sort hgm]
    simp

/-- Instance. -/
example := C59_graphemes_of_normal_form .C (.inr rfl) insSort insSort_stable [0x61, 0xE9, 0x323, 0x1F44B, 0x1F3FB]
  (modifiers_of (by decide +kernel)) [[0x61], [0xE9, 0x323], [0x1F44B, 0x1F3FB]] (segmentation_of (by decide +kernel)) 6 (by decide)
  (by decide +kernel)

/-- Non-vacuity: three graphemes, the middle one an "ẹ́" given as "é" U+0323. -/
example : graphemes [0x61, 0xE9, 0x323, 0x1F1E6, 0x1F1E7] = [[0x61], [0xE9, 0x323], [0x1F1E6, 0x1F1E7]] ∧
    normalize32 .C insSort 9 [0x61, 0xE9, 0x323, 0x1F1E6, 0x1F1E7] [] =
      .ok (5, [0x61, 0x1EB9, 0x301, 0x1F1E6, 0x1F1E7]) ∧
    graphemes [0x61, 0x1EB9, 0x301, 0x1F1E6, 0x1F1E7] = [[0x61], [0x1EB9, 0x301], [0x1F1E6, 0x1F1E7]] := by
  decide +kernel

/-- C59 is false for the compatibility forms (two compatibility jamo become one syllable block of
conjoining ones) and with emoji modifiers elsewhere (NFD joins "é" and U+1F3FB, both with 2 graphemes before and
1 after). -/
theorem C59_counterexamples :
    (graphemes [0x3131, 0x314F]).length = 2 ∧
    normalize32 .KD insSort 9 [0x3131, 0x314F] [] = .ok (2, [0x1100, 0x1161]) ∧
    (graphemes [0x1100, 0x1161]).length = 1 ∧
    (graphemes [0xE9, 0x1F3FB]).length = 2 ∧
    normalize32 .D insSort 9 [0xE9, 0x1F3FB] [] = .ok (3, [0x65, 0x301, 0x1F3FB]) ∧
    (graphemes [0x65, 0x301, 0x1F3FB]).length = 1 := by decide +kernel

/-- The graphemes of the normal form are the normal forms of the graphemes, one for one, iff the lists agree. -/
theorem one_for_one_iff (F : Form) (hF : F = .D ∨ F = .C) {sort : SortFn} (hs : StableSort sort) {cs : List Int}
    {gs : List (List Int)} (hgs : IsSegmentation Breaks cs gs) {fuel : Nat} (hf : cs.length < fuel)
    (hb : (cs.flatMap fullD).length < 2 ^ 31) :
    (∀ g ∈ gs, ∀ n, normalize32 F sort fuel g [] = .ok ((n.length : Int), n) ↔ n = F.result sort g) ∧
    ((∃ ys ns, normalize32 F sort fuel cs [] = .ok ((ys.length : Int), ys) ∧
      IsSegmentation Breaks ys ns ∧ ns.length = gs.length ∧
      ∀ (i : Nat) (g n : List Int), gs[i]? = some g → ns[i]? = some n →
        normalize32 F sort fuel g [] = .ok ((n.length : Int), n)) ↔
      graphemes (F.text sort cs) = (graphemes cs).map (F.result sort)) := by
  obtain rfl := segments_unique hgs
  have hFm : F.map = decResolve := by rcases hF with rfl | rfl <;> rfl
  have key : ∀ g ∈ segments isGraphemeBoundary cs, ∀ n,
      normalize32 F sort fuel g [] = .ok ((n.length : Int), n) ↔ n = F.result sort g := by
    intro g hgm n
    have hlen : g.length ≤ cs.length ∧ (g.flatMap fullD).length ≤ (cs.flatMap fullD).length := by
      obtain ⟨p, q, hpq⟩ := List.append_of_mem hgm
      have := segments_flatten isGraphemeBoundary cs
      rw [hpq] at this
      rw [← this]
      simp only [List.flatten_append, List.flatten_cons, List.flatMap_append, List.length_append]
      omega
    rw [normalize32_eq F hs.1 g [] fuel (by omega) (by rw [hFm]; omega), text_grapheme F sort hgm]
    constructor
    · intro h
      simp only [Res.ok.injEq, Prod.mk.injEq, List.nil_append] at h
      exact h.2.symm
    · rintro rfl; simp
  refine ⟨key, ?_⟩
  have hn := normalize32_eq F hs.1 cs [] fuel hf (by rw [hFm]; exact hb)
  constructor
  · rintro ⟨ys, ns, h1, h2, h3, h4⟩
    rw [hn] at h1
    simp only [Res.ok.injEq, Prod.mk.injEq, List.nil_append] at h1
    obtain ⟨_, rfl⟩ := h1
    have h5 := segments_unique h2
    show segments isGraphemeBoundary (F.text sort cs) = _
    rw [← h5]
    refine List.ext_getElem? fun i => ?_
    rw [List.getElem?_map]
    show _ = Option.map _ (segments isGraphemeBoundary cs)[i]?
    cases hg : (segments isGraphemeBoundary cs)[i]? with
    | none =>
      rw [List.getElem?_eq_none_iff] at hg
      simp only [Option.map_none, List.getElem?_eq_none_iff]; omega
    | some g =>
      have hi : i < ns.length := by
        rw [h3]; exact (List.getElem?_eq_some_iff.mp hg).1
      rw [Option.map_some, List.getElem?_eq_getElem hi]
      exact congrArg some ((key g (List.mem_of_getElem? hg) _).mp (h4 i g _ hg (List.getElem?_eq_getElem hi)))
  · intro h
    refine ⟨F.text sort cs, (graphemes cs).map (F.result sort), hn, ?_, by simp, ?_⟩
    · rw [← h]; exact segments_breaks _
    · intro i g n hg hn
      rw [List.getElem?_map, hg] at hn
      simp at hn; subst hn
      exact (key g (List.mem_of_getElem? hg) _).mpr rfl

/-- C59, exactly: the graphemes of the NFD (NFC) of a text are the NFD (NFC) of its graphemes, one for one, if and only if no
emoji modifier stands after a break in the normal form of a grapheme, and none begins a grapheme after one whose
normal form ends in Extend. Nothing but emoji modifiers can change the number of graphemes. -/
theorem C59_exact (F : Form) (hF : F = .D ∨ F = .C)
    (sort : SortFn) (hs : StableSort sort) (cs : List Int)
    (gs : List (List Int)) (hgs : IsSegmentation Breaks cs gs) (fuel : Nat) (hf : cs.length < fuel)
    (hb : (cs.flatMap fullD).length < 2 ^ 31) :
    (∃ ys ns, normalize32 F sort fuel cs [] = .ok ((ys.length : Int), ys) ∧
      IsSegmentation Breaks ys ns ∧ ns.length = gs.length ∧
      ∀ (i : Nat) (g n : List Int), gs[i]? = some g → ns[i]? = some n →
        normalize32 F sort fuel g [] = .ok ((n.length : Int), n)) ↔
    (∀ g ∈ gs, ∀ n, normalize32 F sort fuel g [] = .ok ((n.length : Int), n) →
      ∀ p a m q, n = p ++ a :: m :: q → gcbResolve m = .E_MODIFIER → ¬ Breaks a m) ∧
    ∀ p g m h r, gs = p ++ g :: (m :: h) :: r → gcbResolve m = .E_MODIFIER →
      ∀ n w y, normalize32 F sort fuel g [] = .ok ((n.length : Int), n) → n = w ++ [y] → gcbResolve y ≠ .EXTEND := by
  obtain ⟨key, hone⟩ := one_for_one_iff F hF hs hgs hf hb
  obtain rfl := segments_unique hgs
  have hFb : F.base = .D := by rcases hF with rfl | rfl <;> rfl
  rw [hone, graphemes_exact F hFb hs]
  refine and_congr ?_ ?_
  · refine forall_congr' fun g => forall_congr' fun hg => ?_
    constructor
    · rintro h n hn p a m q rfl hm
      intro hbk
      have := (isGraphemeBoundary_iff a m).mpr hbk
      rw [h p a m q ((key g hg _).mp hn).symm hm] at this; simp at this
    · intro h p a m q he hm
      have := h _ ((key g hg _).mpr rfl) p a m q he hm
      cases hbr : isGraphemeBoundary a m with
      | false => rfl
      | true => exact absurd ((isGraphemeBoundary_iff a m).mp hbr) this
  · constructor
    · intro h p g m h' r he hm n w y hn hw
      have hg : g ∈ segments isGraphemeBoundary cs := by rw [he]; simp
      refine h p g m h' r he hm y ?_
      rw [← (key g hg n).mp hn, hw]; simp
    · intro h p g m h' r he hm y hy
      have hg : g ∈ segments isGraphemeBoundary cs := by
        rw [show segments isGraphemeBoundary cs = graphemes cs from rfl, he]; simp
      obtain ⟨w, hw⟩ := List.getLast?_eq_some_iff.mp hy
      exact h p g m h' r he hm _ w y ((key g hg _).mpr rfl) hw

/-- C59 for NFD, by the source text: an emoji modifier stays with its grapheme iff it does not break from the last
starter before it in the canonical decomposition of the grapheme. -/
theorem C59_exact_decomposed (sort : SortFn) (hs : StableSort sort) (cs : List Int)
    (gs : List (List Int)) (hgs : IsSegmentation Breaks cs gs) (fuel : Nat) (hf : cs.length < fuel)
    (hb : (cs.flatMap fullD).length < 2 ^ 31) :
    (∃ ys ns, normalize32 .D sort fuel cs [] = .ok ((ys.length : Int), ys) ∧
      IsSegmentation Breaks ys ns ∧ ns.length = gs.length ∧
      ∀ (i : Nat) (g n : List Int), gs[i]? = some g → ns[i]? = some n →
        normalize32 .D sort fuel g [] = .ok ((n.length : Int), n)) ↔
    (∀ g ∈ gs, ∀ p a q m r, g.flatMap fullD = p ++ a :: (q ++ m :: r) → cccResolve a = 0 →
      (∀ x ∈ q, cccResolve x ≠ 0) → gcbResolve m = .E_MODIFIER → ¬ Breaks a m) ∧
    ∀ p g m h r, gs = p ++ g :: (m :: h) :: r → gcbResolve m = .E_MODIFIER →
      ∀ n w y, normalize32 .D sort fuel g [] = .ok ((n.length : Int), n) → n = w ++ [y] → gcbResolve y ≠ .EXTEND := by
  obtain ⟨key, hone⟩ := one_for_one_iff .D (.inl rfl) hs hgs hf hb
  obtain rfl := segments_unique hgs
  rw [hone, show (graphemes cs).map (Form.D.result sort) = (graphemes cs).map (Form.D.block sort) from rfl,
    graphemes_nfd_exact hs]
  refine and_congr ?_ ?_
  · refine forall_congr' fun g => forall_congr' fun hg => ?_
    constructor
    · intro h p a q m r he ha hq hm
      intro hbk
      have := (isGraphemeBoundary_iff a m).mpr hbk
      rw [h p a q m r he ha hq hm] at this; simp at this
    · intro h p a q m r he ha hq hm
      have := h p a q m r he ha hq hm
      cases hbr : isGraphemeBoundary a m with
      | false => rfl
      | true => exact absurd ((isGraphemeBoundary_iff a m).mp hbr) this
  · constructor
    · intro h p g m h' r he hm n w y hn hw
      have hg : g ∈ segments isGraphemeBoundary cs := by rw [he]; simp
      refine h p g m h' r he hm y ?_
      rw [show Form.D.block sort g = Form.D.result sort g from rfl, ← (key g hg n).mp hn, hw]; simp
    · intro h p g m h' r he hm y hy
      have hg : g ∈ segments isGraphemeBoundary cs := by
        rw [show segments isGraphemeBoundary cs = graphemes cs from rfl, he]; simp
      obtain ⟨w, hw⟩ := List.getLast?_eq_some_iff.mp hy
      exact h p g m h' r he hm _ w y ((key g hg _).mpr rfl) hw

/-- Instances: "é" before an emoji modifier keeps its two graphemes in NFC and loses one in NFD; the Bengali vowel
sign O followed by one is one grapheme, which NFC splits and NFD keeps. -/
example : (graphemes [0xE9, 0x1F3FB]).length = 2 ∧
    normalize32 .C insSort 9 [0xE9, 0x1F3FB] [] = .ok (2, [0xE9, 0x1F3FB]) ∧
    normalize32 .D insSort 9 [0xE9, 0x1F3FB] [] = .ok (3, [0x65, 0x301, 0x1F3FB]) ∧
    (graphemes [0x65, 0x301, 0x1F3FB]).length = 1 ∧
    (graphemes [0x9C7, 0x9BE, 0x1F3FB]).length = 1 ∧
    normalize32 .C insSort 9 [0x9C7, 0x9BE, 0x1F3FB] [] = .ok (2, [0x9CB, 0x1F3FB]) ∧
    (graphemes [0x9CB, 0x1F3FB]).length = 2 ∧
    normalize32 .D insSort 9 [0x9C7, 0x9BE, 0x1F3FB] [] = .ok (3, [0x9C7, 0x9BE, 0x1F3FB]) := by decide +kernel

example := (C59_exact .C (.inr rfl) insSort insSort_stable [0xE9, 0x1F3FB] [[0xE9], [0x1F3FB]]
  (segmentation_of (by decide +kernel)) 9 (by decide) (by decide +kernel)).mpr
  ⟨by
    intro g hg n hn p a m q he hm
    have h1 : normalize32 .C insSort 9 [0xE9] [] = .ok (1, [0xE9]) := by decide +kernel
    have h2 : normalize32 .C insSort 9 [0x1F3FB] [] = .ok (1, [0x1F3FB]) := by decide +kernel
    have : n.length ≤ 1 := by
      rcases (by simpa using hg : g = [0xE9] ∨ g = [0x1F3FB]) with rfl | rfl
      · rw [h1] at hn; simp only [Res.ok.injEq, Prod.mk.injEq] at hn; omega
      · rw [h2] at hn; simp only [Res.ok.injEq, Prod.mk.injEq] at hn; omega
    rw [he] at this; simp at this; omega,
   by
    intro p g m h r he hm n w y hn hw
    have h1 : normalize32 .C insSort 9 [0xE9] [] = .ok (1, [0xE9]) := by decide +kernel
    cases p with
    | nil =>
      simp at he
      obtain ⟨rfl, _⟩ := he
      rw [h1] at hn
      simp only [Res.ok.injEq, Prod.mk.injEq] at hn
      rw [← hn.2] at hw
      have : y = 0xE9 := by
        have := congrArg List.getLast? hw; simp at this; exact this.symm
      subst this
      decide +kernel
    | cons g0 p =>
      have := congrArg List.length he
      simp at this; omega⟩

/-- C58 and C59 together, for every text whose graphemes a canonical form `F` keeps (`C59_exact` says which these are;
emoji modifiers may stand anywhere): a compatibility form `G` of the canonical form of the text is `G` of the text if and
only if the text does not contain the Tibetan trap. -/
theorem C58_compat_after_canonical_kept (F G : Form) (hF : F = .D ∨ F = .C) (hG : G = .KD ∨ G = .KC)
    (sort : SortFn) (hs : StableSort sort) (cs : List Int)
    (gs : List (List Int)) (hgs : IsSegmentation Breaks cs gs) (fuel : Nat) (hf : cs.length < fuel)
    (hb : (cs.flatMap fullK).length < 2 ^ 31)
    (ys : List Int) (hy : normalize32 F sort fuel cs [] = .ok ((ys.length : Int), ys))
    (ns : List (List Int)) (hns : IsSegmentation Breaks ys ns) (hlen : ns.length = gs.length)
    (hone : ∀ (i : Nat) (g n : List Int), gs[i]? = some g → ns[i]? = some n →
      normalize32 F sort fuel g [] = .ok ((n.length : Int), n)) :
    ∃ zs, normalize32 G sort fuel cs [] = .ok ((zs.length : Int), zs) ∧
      ∀ fuel', ys.length < fuel' →
        (normalize32 G sort fuel' ys [] = .ok ((zs.length : Int), zs) ↔ ¬ TibetanTrap gs) := by
  have hFb : F.base = .D := by rcases hF with rfl | rfl <;> rfl
  have hFm : F.map = decResolve := by rcases hF with rfl | rfl <;> rfl
  have hGb : G.base = .KD := by rcases hG with rfl | rfl <;> rfl
  have hGm : G.map = kdecResolve := by rcases hG with rfl | rfl <;> rfl
  have hbD : (cs.flatMap fullD).length < 2 ^ 31 := Nat.lt_of_le_of_lt (decomposeD_length_le _) hb
  have hk := (one_for_one_iff F hF hs hgs hf hbD).2.mp ⟨ys, ns, hy, hns, hlen, hone⟩
  obtain rfl := segments_unique hgs
  rw [normalize32_eq F hs.1 cs [] fuel hf (by rw [hFm]; exact hbD)] at hy
  simp only [Res.ok.injEq, Prod.mk.injEq, List.nil_append] at hy
  obtain ⟨_, rfl⟩ := hy
  refine ⟨G.text sort cs, normalize32_eq G hs.1 cs [] fuel hf (by rw [hGm]; exact hb), ?_⟩
  intro fuel' hf'
  rw [normalize32_eq G hs.1 _ [] fuel' hf' (by
      rw [hGm]
      have := decomposeK_text_length F hFb hs.1 cs
      rw [show (F.text sort cs).flatMap fullK = decompose kdecResolve (F.text sort cs) from rfl, this]
      exact hb)]
  have key : G.text sort (F.text sort cs) = G.text sort cs ↔ ¬ TibetanTrap (segments isGraphemeBoundary cs) := by
    rw [compat_text_iff G hGb hs, tibetanTrap_iff]
    exact kd_of_kept_iff F hFb hs hk
  rw [← key]
  constructor
  · intro h; simp at h; exact h.2
  · intro h; rw [h]; simp

/-- Instance: an emoji modifier after "é". -/
example := C58_compat_after_canonical_kept .C .KD (.inr rfl) (.inl rfl) insSort insSort_stable [0xE9, 0x1F3FB]
  [[0xE9], [0x1F3FB]] (segmentation_of (by decide +kernel)) 9 (by decide) (by decide +kernel)
  [0xE9, 0x1F3FB] (by decide +kernel) [[0xE9], [0x1F3FB]] (segmentation_of (by decide +kernel)) rfl
  (by
    intro i g n hg hn
    match i with
    | 0 => simp at hg hn; subst hg hn; decide +kernel
    | 1 => simp at hg hn; subst hg hn; decide +kernel
    | i + 2 => simp at hg)

example : normalize32 .KD insSort 9 [0xE9, 0x1F3FB] [] = .ok (3, [0x65, 0x301, 0x1F3FB]) ∧
    normalize32 .C insSort 9 [0xE9, 0x1F3FB] [] = .ok (2, [0xE9, 0x1F3FB]) := by decide +kernel

end U5e
