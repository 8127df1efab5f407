import Verif.Proofs.UaxComp
import Verif.Properties.Normalize
/-!
# C35, C36: the forms against UAX #15

The specification is Spec/Uax15.lean: canonical ordering as exchanges of reorderable pairs (D108/D109),
arithmetic Hangul decomposition and composition, canonical composition with blocking (D115/D117). The
full statements "NFD conforms", "NFC conforms" are false of the code; the theorems say for exactly
which texts they hold, for every text and every stable sort. `normalize32` is the modelled filter over a
NUL-terminated utf32ne string (Properties/Normalize.lean); `fullD`/`fullK` are the rows of the code's
decomposition tables.
-/
namespace U5e
open Spec

/-- The specification is meaningful: every sequence has exactly one canonical order. -/
theorem C35_canonical_order_exists_unique (l : List Int) :
    ∃ d, IsCanonicalOrder cccResolve l d ∧ ∀ d', IsCanonicalOrder cccResolve l d' → d' = d :=
  ⟨corder cccResolve l, (isCanonicalOrder_iff _ _).mpr rfl, fun _ h => (isCanonicalOrder_iff _ _).mp h⟩

/-- C35, exact (`F = .D`: NFD, `F = .KD`: NFKD): the output is the UAX #15 form if and only if the text
contains no precomposed Hangul syllable and in no grapheme the decomposition puts a starter after a
non-starter. -/
theorem C35_conforms_iff (F : Form) (hF : F = .D ∨ F = .KD) (sort : SortFn) (hs : StableSort sort)
    (cs : List Int) (gs : List (List Int)) (hgs : IsSegmentation Breaks cs gs) (fuel : Nat)
    (hf : cs.length < fuel) (hb : (cs.flatMap (full F.map)).length < 2 ^ 31) :
    ∃ ys, normalize32 F sort fuel cs [] = .ok ((ys.length : Int), ys) ∧
      (IsUaxD cccResolve F.map cs ys ↔
        (∀ c ∈ cs, ¬ IsHangulSyllable c) ∧
          ∀ g ∈ gs, StartersFirst cccResolve (g.flatMap (full F.map))) := by
  obtain rfl := segments_unique hgs
  refine ⟨F.text sort cs, normalize32_eq F hs.1 cs [] fuel hf hb, ?_⟩
  have : F.base = F := by rcases hF with rfl | rfl <;> rfl
  have h := F.isUaxD_iff hs cs
  rw [this] at h
  exact h

/-- Instance. -/
example := C35_conforms_iff .D (.inl rfl) insSort insSort_stable [0x61, 0x307, 0x323, 0xAC00]
  [[0x61, 0x307, 0x323], [0xAC00]] (segmentation_of (by decide +kernel)) 5 (by decide) (by decide +kernel)

/-- Non-vacuity, a conforming case: "a" with its marks in the wrong order, then U+1E69. -/
example : normalize32 .D insSort 9 [0x61, 0x307, 0x323, 0x1E69] [] =
      .ok (6, [0x61, 0x323, 0x307, 0x73, 0x323, 0x307]) ∧
    segments isGraphemeBoundary [0x61, 0x307, 0x323, 0x1E69] = [[0x61, 0x307, 0x323], [0x1E69]] := by
  decide +kernel

/-- C35 fails for Hangul syllables (U+AC00 stays), and for a starter after a non-starter in a grapheme:
U+0301, ZWJ, U+0327 → the ZWJ is moved to the front. -/
theorem C35_counterexamples :
    normalize32 .D insSort 9 [0xAC00] [] = .ok (1, [0xAC00]) ∧
    hangulDecomposition 0xAC00 = [0x1100, 0x1161] ∧
    ¬ IsUaxD cccResolve decResolve [0xAC00] [0xAC00] ∧
    normalize32 .D insSort 9 [0x62, 0x301, 0x200D] [] = .ok (3, [0x62, 0x200D, 0x301]) ∧
    ¬ IsUaxD cccResolve decResolve [0x62, 0x301, 0x200D] [0x62, 0x200D, 0x301] := by
  refine ⟨by decide +kernel, by decide +kernel, ?_, by decide +kernel, ?_⟩
  · rw [IsUaxD, isCanonicalOrder_iff]; decide +kernel
  · rw [IsUaxD, isCanonicalOrder_iff]; decide +kernel

/-- C36, exact (`F = .C`: NFC, `F = .KC`: NFKC): the output is the UAX #15 form if and only if in no
grapheme the decomposition puts a starter after a non-starter, and in the output no codepoint is left
that is unblocked from a starter and has a primary composite with it (Hangul included). -/
theorem C36_conforms_iff (F : Form) (hF : F = .C ∨ F = .KC) (sort : SortFn) (hs : StableSort sort)
    (cs : List Int) (gs : List (List Int)) (hgs : IsSegmentation Breaks cs gs) (fuel : Nat)
    (hf : cs.length < fuel) (hb : (cs.flatMap (full F.map)).length < 2 ^ 31) :
    ∃ ys, normalize32 F sort fuel cs [] = .ok ((ys.length : Int), ys) ∧
      (IsUaxC cccResolve F.map compResolve cs ys ↔
        (∀ g ∈ gs, StartersFirst cccResolve (g.flatMap (full F.map))) ∧
          ¬ HasUnblockedPair cccResolve (uaxComp compResolve) ys) := by
  obtain rfl := segments_unique hgs
  refine ⟨F.text sort cs, normalize32_eq F hs.1 cs [] fuel hf hb, ?_⟩
  have : F.post = compose compResolve := by rcases hF with rfl | rfl <;> rfl
  exact F.isUaxC_iff this hs cs

/-- Instance. -/
example := C36_conforms_iff .C (.inl rfl) insSort insSort_stable [0x61, 0x316, 0x301, 0xAC00]
  [[0x61, 0x316, 0x301], [0xAC00]] (segmentation_of (by decide +kernel)) 5 (by decide) (by decide +kernel)

/-- Non-vacuity, a conforming case with Hangul syllables and compositions: 가 + ḍ̇ from unordered marks. -/
example : normalize32 .C insSort 9 [0xAC00, 0x64, 0x307, 0x323] [] = .ok (3, [0xAC00, 0x1E0D, 0x307]) ∧
    uaxCompose cccResolve (uaxComp compResolve) [0x1100, 0x1161, 0x64, 0x323, 0x307] =
      [0xAC00, 0x1E0D, 0x307] ∧
    IsUaxC cccResolve decResolve compResolve [0xAC00, 0x64, 0x307, 0x323] [0xAC00, 0x1E0D, 0x307] := by
  refine ⟨by decide +kernel, by decide +kernel, [0x1100, 0x1161, 0x64, 0x323, 0x307], ?_, ?_⟩
  · rw [IsUaxD, isCanonicalOrder_iff]; decide +kernel
  · decide +kernel

/-- C36 fails when marks intervene ("a" + U+0316 + U+0301: the library does not compose á across the
U+0316), and for conjoining jamo. -/
theorem C36_counterexamples :
    normalize32 .C insSort 9 [0x61, 0x316, 0x301] [] = .ok (3, [0x61, 0x316, 0x301]) ∧
    uaxCompose cccResolve (uaxComp compResolve) [0x61, 0x316, 0x301] = [0xE1, 0x316] ∧
    ¬ IsUaxC cccResolve decResolve compResolve [0x61, 0x316, 0x301] [0x61, 0x316, 0x301] ∧
    normalize32 .C insSort 9 [0x1100, 0x1161] [] = .ok (2, [0x1100, 0x1161]) ∧
    ¬ IsUaxC cccResolve decResolve compResolve [0x1100, 0x1161] [0x1100, 0x1161] := by
  refine ⟨by decide +kernel, by decide +kernel, ?_, by decide +kernel, ?_⟩
  · rintro ⟨d, hd, h⟩
    rw [IsUaxD, isCanonicalOrder_iff] at hd
    subst hd
    revert h; decide +kernel
  · rintro ⟨d, hd, h⟩
    rw [IsUaxD, isCanonicalOrder_iff] at hd
    subst hd
    revert h; decide +kernel

/-- About the specification: the result of D117 never keeps an unblocked composable pair (so the second
condition of `C36_conforms_iff` is met by every conforming output). -/
theorem C36_spec_output_has_no_pair (l : List Int) :
    ¬ HasUnblockedPair cccResolve (uaxComp compResolve) (uaxCompose cccResolve (uaxComp compResolve) l) :=
  uaxCompose_noPair l

/-- Sufficient condition for C36, checkable on the text: no combining marks and no conjoining jamo V/T in
the decomposition - then the output conforms. -/
theorem C36_conforms_without_marks (F : Form) (hF : F = .C ∨ F = .KC) (sort : SortFn)
    (hs : StableSort sort) (cs : List Int)
    (hm : ∀ c ∈ cs, ∀ x ∈ full F.map c, cccResolve x = 0 ∧ ¬ (0x1161 ≤ x ∧ x ≤ 0x11C2)) (fuel : Nat)
    (hf : cs.length < fuel) (hb : (cs.flatMap (full F.map)).length < 2 ^ 31) :
    ∃ ys, normalize32 F sort fuel cs [] = .ok ((ys.length : Int), ys) ∧
      IsUaxC cccResolve F.map compResolve cs ys := by
  obtain ⟨ys, h1, h2⟩ := C36_conforms_iff F hF sort hs cs _ (segments_breaks cs) fuel hf hb
  refine ⟨ys, h1, h2.mpr ⟨?_, ?_⟩⟩
  · intro g hg
    refine List.pairwise_iff_forall_sublist.mpr ?_
    intro a b hab ha
    have : a ∈ g.flatMap (full F.map) := hab.subset (by simp)
    obtain ⟨c, hc, hac⟩ := List.mem_flatMap.mp this
    have hcs : c ∈ cs := by
      rw [← segments_flatten isGraphemeBoundary cs]
      exact List.mem_flatten.mpr ⟨g, hg, hc⟩
    exact absurd (hm c hcs a hac).1 ha
  · have hy : ys = F.text sort cs := by
      rw [normalize32_eq F hs.1 cs [] fuel hf hb] at h1
      simp at h1; exact h1.2.symm
    rintro ⟨p, s, mid, c, q, he, hs0, hu, hne⟩
    have hd := F.decompose_text hs.1 cs
    rw [← hy] at hd
    have hall : ∀ e ∈ ys, ∀ x ∈ full F.map e, cccResolve x = 0 ∧ ¬ (0x1161 ≤ x ∧ x ≤ 0x11C2) := by
      intro e hey x hx
      have : x ∈ F.base.text sort cs := by rw [← hd]; exact List.mem_flatMap.mpr ⟨e, hey, hx⟩
      rw [F.base_text] at this
      obtain ⟨g, hg, hxg⟩ := List.mem_flatMap.mp this
      obtain ⟨c', hc', hxc⟩ := List.mem_flatMap.mp ((hs.1.perm _).mem_iff.mp hxg)
      exact hm c' (by rw [← segments_flatten isGraphemeBoundary cs]; exact List.mem_flatten.mpr ⟨g, hg, hc'⟩) x hxc
    cases hc : uaxComp compResolve s c with
    | none => exact hne hc
    | some d =>
      have hcy : c ∈ ys := by rw [he]; simp
      rcases ucomp_cases hc with hh | ⟨_, hh⟩
      · have h3 := hangulComposition_second hh
        have := (hall c hcy c (by rw [F.full_hang (.inl (by omega))]; simp)).2
        omega
      · have hmid : mid = [] := by
          cases mid with
          | nil => rfl
          | cons m mid =>
            exfalso
            have hc0 := (hall c hcy c (by rw [F.comp_second hh]; simp)).1
            have := hu m (by simp)
            omega
        subst hmid
        have hunc := compose_uncomposable (F.base.text sort cs)
        have : F.post = compose compResolve := by rcases hF with rfl | rfl <;> rfl
        rw [← this, ← F.text_eq hs, ← hy, he] at hunc
        have := adj_iff.mp hunc p s c q (by simp)
        rw [hh] at this; simp at this

/-- Instance: "ﬁ世가" in NFKC. -/
example := C36_conforms_without_marks .KC (.inr rfl) insSort insSort_stable [0xFB01, 0x4E16, 0xAC00]
  (by decide +kernel) 4 (by decide) (by decide +kernel)

end U5e
