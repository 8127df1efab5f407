import Verif.Proofs.Idem
import Verif.Properties.Normalize
/-!
# C34, C45: normalizing normalized text

`normalize32 F sort fuel cs out` filters the NUL-terminated utf32ne string `cs` through form `F`
(Properties/Normalize.lean). The full statements - "idempotent", "NFD and NFC determine each other" -
are false of the code; the theorems give the exact condition, for every text.
-/
namespace U5e
open Spec

theorem normalize32_again (F G : Form) (hFG : F.base = G.base) (sort : SortFn) (hs : StableSort sort)
    (cs : List Int) (hb : (cs.flatMap (full F.map)).length < 2 ^ 31) (fuel : Nat)
    (hf : (F.text sort cs).length < fuel) (out : List Int) :
    normalize32 G sort fuel (F.text sort cs) out =
      .ok (((G.text sort (F.text sort cs)).length : Int), out ++ G.text sort (F.text sort cs)) := by
  have hmap : F.map = G.map := by rw [← F.base_map, ← G.base_map, hFG]
  refine normalize32_eq G hs.1 _ out fuel hf ?_
  have := F.decompose_text_length hs.1 cs
  rw [hmap] at this hb
  rw [show (F.text sort cs).flatMap (full G.map) = decompose G.map (F.text sort cs) from rfl, this]
  exact hb

/-- The only texts that re-normalization can change: some grapheme starts with an emoji modifier
(a codepoint of break class E_Modifier) and the normal form of the grapheme before it ends in a
codepoint of class Extend whose decomposition ends in a non-starter. `F.result sort g` is the normal
form of the grapheme `g` (decompose, sort, and for C/KC compose). -/
def ModifierTrap (F : Form) (sort : SortFn) (gs : List (List Int)) : Prop :=
  ∃ p g h q m e l, gs = p ++ g :: h :: q ∧ h.head? = some m ∧ gcbResolve m = .E_MODIFIER ∧
    (F.result sort g).getLast? = some e ∧ gcbResolve e = .EXTEND ∧
    (full F.map e).getLast? = some l ∧ cccResolve l ≠ 0

theorem modifierTrap_iff (F : Form) (sort : SortFn) (gs : List (List Int)) :
    ModifierTrap F sort gs ↔ F.BadJunction sort gs := by
  constructor
  · rintro ⟨p, g, h, q, m, e, l, h1, h2, h3, h4, h5, h6, h7⟩
    rw [F.last_full] at h6; cases h6
    exact ⟨p, g, h, q, m, e, h1, h2, h3, h4, h5, h7⟩
  · rintro ⟨p, g, h, q, m, e, h1, h2, h3, h4, h5, h7⟩
    exact ⟨p, g, h, q, m, e, F.ls e, h1, h2, h3, h4, h5, F.last_full e, h7⟩

/-- C34, exact, all four forms, every text, every stable sort: normalizing twice equals normalizing
once if and only if the text does not contain the modifier trap. -/
theorem C34_idempotent_iff (F : Form) (sort : SortFn) (hs : StableSort sort) (cs : List Int)
    (gs : List (List Int)) (hgs : IsSegmentation Breaks cs gs) (fuel : Nat) (hf : cs.length < fuel)
    (hb : (cs.flatMap (full F.map)).length < 2 ^ 31) :
    ∃ ys, normalize32 F sort fuel cs [] = .ok ((ys.length : Int), ys) ∧
      ∀ fuel', ys.length < fuel' →
        (normalize32 F sort fuel' ys [] = .ok ((ys.length : Int), ys) ↔ ¬ ModifierTrap F sort gs) := by
  obtain rfl := segments_unique hgs
  refine ⟨F.text sort cs, normalize32_eq F hs.1 cs [] fuel hf hb, ?_⟩
  intro fuel' hf'
  rw [normalize32_again F F rfl sort hs cs hb fuel' hf', modifierTrap_iff,
    ← F.settled_text_iff hs, ← F.renormalize F rfl hs]
  constructor
  · intro h; simp at h; exact h.2
  · intro h; rw [h]; simp

/-- Instance: "é" and an emoji modifier (the trap) - and "ṩ". -/
example := C34_idempotent_iff .D insSort insSort_stable [0xE9, 0x1F3FB, 0x1E69] [[0xE9], [0x1F3FB], [0x1E69]]
  (segmentation_of (by decide +kernel)) 4 (by decide) (by decide +kernel)

/-- C34 for texts in which emoji modifiers directly follow emoji bases (or that contain none): normalization is idempotent. -/
theorem C34_idempotent (F : Form) (sort : SortFn) (hs : StableSort sort) (cs : List Int)
    (hmod : ModifiersFollowBases cs) (fuel : Nat) (hf : cs.length < fuel)
    (hb : (cs.flatMap (full F.map)).length < 2 ^ 31) :
    ∃ ys, normalize32 F sort fuel cs [] = .ok ((ys.length : Int), ys) ∧
      ∀ fuel', ys.length < fuel' → normalize32 F sort fuel' ys [] = .ok ((ys.length : Int), ys) := by
  obtain ⟨ys, h1, h2⟩ := C34_idempotent_iff F sort hs cs _ (segments_breaks cs) fuel hf hb
  refine ⟨ys, h1, fun fuel' hf' => (h2 fuel' hf').mpr ?_⟩
  rintro ⟨p, g, h, q, m, e, l, hg, hm, hmm, _⟩
  exact ((goodMod_iff.mp hmod).grapheme (show h ∈ graphemes cs by rw [graphemes, hg]; simp)).head m hm hmm

/-- Instance: Hangul compatibility letters and "ṩ" in NFKD. -/
example := C34_idempotent .KD insSort insSort_stable [0x3131, 0x3131, 0x1E69, 0x1F44B, 0x1F3FB]
  (modifiers_of (by decide +kernel)) 6 (by decide) (by decide +kernel)

/-- Non-vacuity of `C34_idempotent`, and a case where the second pass re-segments: NFKD turns a
compatibility jamo (class Other) into a conjoining one. -/
example : normalize32 .KD insSort 9 [0x3131, 0x3131, 0x1E69] [] =
      .ok (5, [0x1100, 0x1100, 0x73, 0x323, 0x307]) ∧
    normalize32 .KD insSort 9 [0x1100, 0x1100, 0x73, 0x323, 0x307] [] =
      .ok (5, [0x1100, 0x1100, 0x73, 0x323, 0x307]) ∧
    graphemes [0x3131, 0x3131] ≠ graphemes [0x1100, 0x1100] ∧
    (∀ c ∈ [0x3131, 0x3131, 0x1E69], gcbResolve c ≠ .E_MODIFIER) := by decide +kernel

/-- C34 is false with emoji modifiers: "é" + U+1F3FB in form D, "क़" U+0958 + U+1F3FB in form C. -/
theorem C34_counterexamples :
    normalize32 .D insSort 9 [0xE9, 0x1F3FB] [] = .ok (3, [0x65, 0x301, 0x1F3FB]) ∧
    normalize32 .D insSort 9 [0x65, 0x301, 0x1F3FB] [] = .ok (3, [0x65, 0x1F3FB, 0x301]) ∧
    normalize32 .C insSort 9 [0x958, 0x1F3FB] [] = .ok (3, [0x915, 0x93C, 0x1F3FB]) ∧
    normalize32 .C insSort 9 [0x915, 0x93C, 0x1F3FB] [] = .ok (3, [0x915, 0x1F3FB, 0x93C]) := by
  decide +kernel

/-- C34 also needs the sort to be stable: with a conforming unstable sort it fails without emoji. -/
theorem C34_needs_stability : ConformingSort unstableSort ∧
    normalize32 .D unstableSort 9 [0x62, 0x301, 0x300] [] = .ok (3, [0x62, 0x300, 0x301]) ∧
    normalize32 .D unstableSort 9 [0x62, 0x300, 0x301] [] = .ok (3, [0x62, 0x301, 0x300]) :=
  ⟨unstableSort_conforming, by decide +kernel, by decide +kernel⟩

/-- C45, exact: for two forms over the same table (D and C, or KD and KC): applying `G` to the result
of `F` gives what `G` gives on the original text, if and only if the text has no modifier trap for
`F`. (`F = .C, G = .D`: NFD(NFC x) = NFD x; `F = .D, G = .C`: NFC(NFD x) = NFC x.) -/
theorem C45_interchange_iff (F G : Form)
    (hFG : F = .D ∧ G = .C ∨ F = .C ∧ G = .D ∨ F = .KD ∧ G = .KC ∨ F = .KC ∧ G = .KD)
    (sort : SortFn) (hs : StableSort sort) (cs : List Int)
    (gs : List (List Int)) (hgs : IsSegmentation Breaks cs gs) (fuel : Nat) (hf : cs.length < fuel)
    (hb : (cs.flatMap (full F.map)).length < 2 ^ 31) :
    ∃ ys zs, normalize32 F sort fuel cs [] = .ok ((ys.length : Int), ys) ∧
      normalize32 G sort fuel cs [] = .ok ((zs.length : Int), zs) ∧
      ∀ fuel', ys.length < fuel' →
        (normalize32 G sort fuel' ys [] = .ok ((zs.length : Int), zs) ↔ ¬ ModifierTrap F sort gs) := by
  obtain rfl := segments_unique hgs
  have hbase : F.base = G.base := by
    rcases hFG with ⟨rfl, rfl⟩ | ⟨rfl, rfl⟩ | ⟨rfl, rfl⟩ | ⟨rfl, rfl⟩ <;> rfl
  have hmap : F.map = G.map := by rw [← F.base_map, ← G.base_map, hbase]
  refine ⟨F.text sort cs, G.text sort cs, normalize32_eq F hs.1 cs [] fuel hf hb,
    normalize32_eq G hs.1 cs [] fuel hf (by rw [← hmap]; exact hb), ?_⟩
  intro fuel' hf'
  rw [normalize32_again F G hbase sort hs cs hb fuel' hf', modifierTrap_iff,
    ← F.settled_text_iff hs, ← F.renormalize G hbase hs]
  constructor
  · intro h; simp at h; exact h.2
  · intro h; rw [h]; simp

/-- Instance: NFC of NFD. -/
example := C45_interchange_iff .D .C (.inl ⟨rfl, rfl⟩) insSort insSort_stable [0xE9, 0x1F3FB, 0x1E69]
  [[0xE9], [0x1F3FB], [0x1E69]] (segmentation_of (by decide +kernel)) 4 (by decide) (by decide +kernel)

/-- C45 for texts in which emoji modifiers directly follow emoji bases. -/
theorem C45_interchange (F G : Form)
    (hFG : F = .D ∧ G = .C ∨ F = .C ∧ G = .D ∨ F = .KD ∧ G = .KC ∨ F = .KC ∧ G = .KD)
    (sort : SortFn) (hs : StableSort sort) (cs : List Int)
    (hmod : ModifiersFollowBases cs) (fuel : Nat) (hf : cs.length < fuel)
    (hb : (cs.flatMap (full F.map)).length < 2 ^ 31) :
    ∃ ys zs, normalize32 F sort fuel cs [] = .ok ((ys.length : Int), ys) ∧
      normalize32 G sort fuel cs [] = .ok ((zs.length : Int), zs) ∧
      ∀ fuel', ys.length < fuel' → normalize32 G sort fuel' ys [] = .ok ((zs.length : Int), zs) := by
  obtain ⟨ys, zs, h0, h1, h2⟩ := C45_interchange_iff F G hFG sort hs cs _ (segments_breaks cs) fuel hf hb
  refine ⟨ys, zs, h0, h1, fun fuel' hf' => (h2 fuel' hf').mpr ?_⟩
  rintro ⟨p, g, h, q, m, e, l, hg, hm, hmm, _⟩
  exact ((goodMod_iff.mp hmod).grapheme (show h ∈ graphemes cs by rw [graphemes, hg]; simp)).head m hm hmm

/-- Instance: NFKD of NFKC. -/
example := C45_interchange .KC .KD (.inr (.inr (.inr ⟨rfl, rfl⟩))) insSort insSort_stable [0xFB01, 0x65, 0x301]
  (modifiers_of (by decide +kernel)) 4 (by decide) (by decide +kernel)

/-- C45: NFC of a text is the greedy composition of its NFD, whatever the text (also across grapheme
boundaries nothing composes); NFKC likewise. -/
theorem C45_nfc_is_composed_nfd (sort : SortFn) (hs : StableSort sort) (cs : List Int) (fuel : Nat)
    (hf : cs.length < fuel) :
    ((cs.flatMap fullD).length < 2 ^ 31 →
      ∃ d, normalize32 .D sort fuel cs [] = .ok ((d.length : Int), d) ∧
        normalize32 .C sort fuel cs [] =
          .ok (((compose compResolve d).length : Int), compose compResolve d)) ∧
    ((cs.flatMap fullK).length < 2 ^ 31 →
      ∃ d, normalize32 .KD sort fuel cs [] = .ok ((d.length : Int), d) ∧
        normalize32 .KC sort fuel cs [] =
          .ok (((compose compResolve d).length : Int), compose compResolve d)) := by
  constructor
  · intro hb
    refine ⟨_, normalize32_eq .D hs.1 cs [] fuel hf hb, ?_⟩
    rw [normalize32_eq .C hs.1 cs [] fuel hf hb, Form.C.text_eq hs]; rfl
  · intro hb
    refine ⟨_, normalize32_eq .KD hs.1 cs [] fuel hf hb, ?_⟩
    rw [normalize32_eq .KC hs.1 cs [] fuel hf hb, Form.KC.text_eq hs]; rfl

/-- Instance. -/
example := (C45_nfc_is_composed_nfd insSort insSort_stable [0xFB01, 0x73, 0x307, 0x323] 5 (by decide)).1
  (by decide +kernel)

/-- C45 is false with emoji modifiers: NFD(NFC x) ≠ NFD(x) for "क़" + modifier, NFC(NFD x) ≠ NFC(x)
for "é" + modifier. -/
theorem C45_counterexamples :
    normalize32 .D insSort 9 [0x958, 0x1F3FB] [] = .ok (3, [0x915, 0x93C, 0x1F3FB]) ∧
    normalize32 .C insSort 9 [0x958, 0x1F3FB] [] = .ok (3, [0x915, 0x93C, 0x1F3FB]) ∧
    normalize32 .D insSort 9 [0x915, 0x93C, 0x1F3FB] [] = .ok (3, [0x915, 0x1F3FB, 0x93C]) ∧
    normalize32 .C insSort 9 [0xE9, 0x1F3FB] [] = .ok (2, [0xE9, 0x1F3FB]) ∧
    normalize32 .C insSort 9 [0x65, 0x301, 0x1F3FB] [] = .ok (3, [0x65, 0x1F3FB, 0x301]) := by
  decide +kernel

end U5e
