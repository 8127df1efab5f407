import Verif.Proofs.StdSortMap
import Verif.Properties.Uax15
import Verif.Properties.Idempotence
import Verif.Properties.Cost
import Verif.Proofs.SortLog
/-!
# C73: normalization with the `std::sort` of libstdc++

The normalization forms call `std::sort`. Elsewhere it is a parameter, with what the C++ standard promises as hypothesis.
Here it is libstdc++'s (`StdSort.stdSort`, Model/StdSort.lean; as a function `libSort`): introsort with a threshold of 16.
It meets the requirements of the standard on every range, it is stable on ranges of up to 16 elements - so texts whose
graphemes decompose to at most 16 codepoints are normalized as with a stable sort - and not on 17.
-/
namespace U5e
open Spec

/-- Every strict weak ordering, every range: no access outside of the range, termination, and the elements in order. -/
theorem C73_sorts (lt : Int → Int → Bool) (hlt : StrictWeak lt) (l : List Int) :
    ∃ r, StdSort.stdSort lt l = .ok r ∧ r.Perm l ∧ r.Pairwise (fun a b => lt b a = false) :=
  StdSort.stdSort_eq hlt l

/-- Instance: 20 elements. -/
example := C73_sorts (fun a b => decide (a < b)) ⟨by simp, by simp; omega, by simp; omega⟩
  [9, 3, 3, 8, 1, 7, 5, 2, 2, 2, 6, 6, 0, 4, 9, 1, 5, 3, 8, 7]

/-- The requirement of a strict weak ordering is needed: with `<=` for `<`, 17 equal elements are overrun. -/
theorem C73_needs_strict_weak :
    StdSort.stdSort (fun a b => decide (a ≤ b)) (List.replicate 17 5) = .ub ∧
    ¬ StrictWeak (fun a b => decide (a ≤ b)) :=
  ⟨by decide +kernel, fun h => absurd (h.irrefl 0) (by decide)⟩

theorem libSort_eq {lt : Int → Int → Bool} {l r : List Int} (h : StdSort.stdSort lt l = .ok r) : libSort lt l = r := by
  simp only [libSort, h]

/-- It is a conforming sort, so every theorem about all conforming sorts is about the linked library. -/
theorem C73_conforming : ConformingSort libSort := by
  intro lt hlt l
  obtain ⟨r, h1, h2, h3⟩ := C73_sorts lt hlt l
  rw [libSort_eq h1]
  exact ⟨h2, h3⟩

/-- Up to 16 elements it is stable. -/
theorem C73_stable_up_to_16 : StableUpTo 16 libSort := by
  refine ⟨C73_conforming, fun lt hlt l hl x => ?_⟩
  obtain ⟨r, h1, -, h3⟩ := StdSort.stdSort_short hlt l hl
  rw [libSort_eq h1]
  exact h3.2 x

/-- What it does to positions depends on the results of the comparisons only. -/
theorem C73_comparisons_only (lt : Int → Int → Bool) (φ : Int → Int) (l : List Int) :
    StdSort.stdSort lt (l.map φ) =
      (StdSort.stdSort (fun a b => lt (φ a) (φ b)) l >>= fun r => pure (r.map φ)) := by
  rw [StdSort.stdSort_map]
  change StdSort.mapR _ (StdSort.stdSort (fun a b => lt (φ a) (φ b)) l) = _
  cases StdSort.stdSort (fun a b => lt (φ a) (φ b)) l <;> rfl

/-- Texts whose graphemes decompose to at most 16 codepoints are normalized as with a stable sort. -/
theorem C73_short_graphemes (F : Form) (cs out : List Int) (gs : List (List Int)) (hgs : IsSegmentation Breaks cs gs)
    (hshort : ∀ g ∈ gs, (g.flatMap (full F.map)).length ≤ 16)
    (fuel : Nat) (hf : cs.length < fuel) (hb : (cs.flatMap (full F.map)).length < 2 ^ 31) :
    normalize32 F libSort fuel cs out = normalize32 F insSort fuel cs out :=
  C37_short_graphemes F 16 libSort C73_stable_up_to_16 cs out gs hgs hshort fuel hf hb

/-- Instance. -/
example := C73_short_graphemes .C [0x62, 0x301, 0x300, 0x61] [] [[0x62, 0x301, 0x300], [0x61]]
  (segmentation_of (by decide +kernel)) (by decide +kernel) 5 (by decide) (by decide +kernel)

/-- Such texts: NFD and NFKD of the linked library conform to UAX #15 if and only if the text contains no precomposed
Hangul syllable and in no grapheme the decomposition puts a starter after a non-starter. -/
theorem C73_short_uax_d (F : Form) (hF : F = .D ∨ F = .KD) (cs : List Int) (gs : List (List Int))
    (hgs : IsSegmentation Breaks cs gs) (hshort : ∀ g ∈ gs, (g.flatMap (full F.map)).length ≤ 16)
    (fuel : Nat) (hf : cs.length < fuel) (hb : (cs.flatMap (full F.map)).length < 2 ^ 31) :
    ∃ ys, normalize32 F libSort fuel cs [] = .ok ((ys.length : Int), ys) ∧
      (IsUaxD cccResolve F.map cs ys ↔
        (∀ c ∈ cs, ¬ IsHangulSyllable c) ∧ ∀ g ∈ gs, StartersFirst cccResolve (g.flatMap (full F.map))) := by
  rw [C73_short_graphemes F cs [] gs hgs hshort fuel hf hb]
  exact C35_conforms_iff F hF insSort insSort_stable cs gs hgs fuel hf hb

/-- Instance. -/
example := C73_short_uax_d .D (.inl rfl) [0x61, 0x307, 0x323, 0xAC00] [[0x61, 0x307, 0x323], [0xAC00]]
  (segmentation_of (by decide +kernel)) (by decide +kernel) 5 (by decide) (by decide +kernel)

/-- Such texts: NFC and NFKC of the linked library conform to UAX #15 if and only if in no grapheme the decomposition puts
a starter after a non-starter, and in the output no codepoint is left that is unblocked from a starter and has a primary
composite with it. -/
theorem C73_short_uax_c (F : Form) (hF : F = .C ∨ F = .KC) (cs : List Int) (gs : List (List Int))
    (hgs : IsSegmentation Breaks cs gs) (hshort : ∀ g ∈ gs, (g.flatMap (full F.map)).length ≤ 16)
    (fuel : Nat) (hf : cs.length < fuel) (hb : (cs.flatMap (full F.map)).length < 2 ^ 31) :
    ∃ ys, normalize32 F libSort fuel cs [] = .ok ((ys.length : Int), ys) ∧
      (IsUaxC cccResolve F.map compResolve cs ys ↔
        (∀ g ∈ gs, StartersFirst cccResolve (g.flatMap (full F.map))) ∧
          ¬ HasUnblockedPair cccResolve (uaxComp compResolve) ys) := by
  rw [C73_short_graphemes F cs [] gs hgs hshort fuel hf hb]
  exact C36_conforms_iff F hF insSort insSort_stable cs gs hgs fuel hf hb

/-- Instance. -/
example := C73_short_uax_c .C (.inl rfl) [0x61, 0x316, 0x301, 0xAC00] [[0x61, 0x316, 0x301], [0xAC00]]
  (segmentation_of (by decide +kernel)) (by decide +kernel) 5 (by decide) (by decide +kernel)

/-- Such texts, with emoji modifiers only directly after emoji bases: normalizing the result again changes nothing, if the graphemes of the result are
short, too. -/
theorem C73_short_idempotent (F : Form) (cs : List Int) (gs : List (List Int))
    (hgs : IsSegmentation Breaks cs gs) (hshort : ∀ g ∈ gs, (g.flatMap (full F.map)).length ≤ 16)
    (hmod : ModifiersFollowBases cs)
    (fuel : Nat) (hf : cs.length < fuel) (hb : (cs.flatMap (full F.map)).length < 2 ^ 31) :
    ∃ ys, normalize32 F libSort fuel cs [] = .ok ((ys.length : Int), ys) ∧
      ∀ gs', IsSegmentation Breaks ys gs' → (∀ g ∈ gs', (g.flatMap (full F.map)).length ≤ 16) →
        ∀ fuel', ys.length < fuel' → normalize32 F libSort fuel' ys [] = .ok ((ys.length : Int), ys) := by
  rw [C73_short_graphemes F cs [] gs hgs hshort fuel hf hb]
  obtain ⟨ys, h1, h2⟩ := C34_idempotent F insSort insSort_stable cs hmod fuel hf hb
  refine ⟨ys, h1, fun gs' hgs' hshort' fuel' hf' => ?_⟩
  have hys : ys = F.text insSort cs := by
    have := normalize32_eq F insSort_stable.1 cs [] fuel hf hb
    rw [h1] at this
    simpa using (Prod.mk.inj (Res.ok.inj this)).2
  have hlen := F.decompose_text_length insSort_stable.1 cs
  rw [C73_short_graphemes F ys [] gs' hgs' hshort' fuel' hf' (by
    rw [hys, show (F.text insSort cs).flatMap (full F.map) = decompose F.map (F.text insSort cs) from rfl, hlen]
    exact hb)]
  exact h2 fuel' hf'

/-- Instance. -/
example := C73_short_idempotent .C [0x62, 0x301, 0x300, 0x61] [[0x62, 0x301, 0x300], [0x61]]
  (segmentation_of (by decide +kernel)) (by decide +kernel) (modifiers_of (by decide +kernel)) 5 (by decide)
  (by decide +kernel)

/-- With 17 codepoints it is not stable, whatever they are: in every text of a starter and 16 marks of one class that do
not decompose, NFD and NFKD of the linked library permute the marks, in this way. -/
theorem C73_seventeen (F : Form) (hF : F = .D ∨ F = .KD)
    (s m1 m2 m3 m4 m5 m6 m7 m8 m9 m10 m11 m12 m13 m14 m15 m16 k : Int) (hs : cccResolve s = 0) (hk : 0 < k)
    (hm : ∀ m ∈ [m1, m2, m3, m4, m5, m6, m7, m8, m9, m10, m11, m12, m13, m14, m15, m16], cccResolve m = k)
    (hd : ∀ c ∈ [s, m1, m2, m3, m4, m5, m6, m7, m8, m9, m10, m11, m12, m13, m14, m15, m16], full F.map c = [c])
    (hb : ∀ a ∈ [s, m1, m2, m3, m4, m5, m6, m7, m8, m9, m10, m11, m12, m13, m14, m15, m16],
      ∀ b ∈ [m1, m2, m3, m4, m5, m6, m7, m8, m9, m10, m11, m12, m13, m14, m15, m16], ¬ Breaks a b)
    (fuel : Nat) (hf : 17 < fuel) :
    normalize32 F libSort fuel [s, m1, m2, m3, m4, m5, m6, m7, m8, m9, m10, m11, m12, m13, m14, m15, m16] [] =
      .ok (17, [s, m8, m16, m15, m14, m13, m12, m11, m10, m9, m7, m6, m5, m4, m3, m2, m1]) := by
  let cs := [s, m1, m2, m3, m4, m5, m6, m7, m8, m9, m10, m11, m12, m13, m14, m15, m16]
  let ys := [s, m8, m16, m15, m14, m13, m12, m11, m10, m9, m7, m6, m5, m4, m3, m2, m1]
  have hdec : decompose F.map cs = cs := decompose_id hd
  have hseg : IsSegmentation Breaks cs [cs] := by
    refine ⟨by simp, by simp [cs], fun g hg pre a b post he => ?_, fun p g h q he => ?_⟩
    · obtain rfl : g = cs := by simpa using hg
      refine hb a ?_ b ?_
      · have : a ∈ cs := by rw [he]; simp
        exact this
      · cases pre with
        | nil =>
          have := (List.cons.inj he).2
          rw [this]; simp
        | cons x pre =>
          have := (List.cons.inj he).2
          rw [this]; simp
    · have := congrArg List.length he
      simp at this; omega
  have hord : ∀ a b, canonicalCombiningOrder a b = decide (cccResolve a < cccResolve b) := fun _ _ => rfl
  have hsort : libSort canonicalCombiningOrder cs = ys := by
    refine libSort_eq (StdSort.stdSort_seventeen s m1 m2 m3 m4 m5 m6 m7 m8 m9 m10 m11 m12 m13 m14 m15 m16 ?_ ?_)
    · simp [hord]
    · intro a ha
      rw [hord, hord, hs, hm a ha]
      refine ⟨by simpa using hk, by simp; omega, fun b hb => ?_⟩
      rw [hord, hm a ha, hm b hb]; simp
  have htext : F.text libSort cs = ys := by
    rw [Form.text, show graphemes cs = [cs] from (segments_unique hseg).symm]
    simp only [List.flatMap_cons, List.flatMap_nil, List.append_nil, Form.result, hdec, hsort]
    rcases hF with rfl | rfl <;> rfl
  have := normalize32_eq F C73_conforming cs [] fuel hf (by
    rw [show cs.flatMap (full F.map) = decompose F.map cs from rfl, hdec]; exact (by decide : 17 < 2 ^ 31))
  rw [htext] at this
  exact this

/-- Instance: "x" with the 16 marks U+0300 to U+030F. -/
example := C73_seventeen .D (.inl rfl) 0x78 0x300 0x301 0x302 0x303 0x304 0x305 0x306 0x307 0x308 0x309 0x30A 0x30B
  0x30C 0x30D 0x30E 0x30F 230 (by decide +kernel) (by decide) (by decide +kernel) (by decide +kernel) (by
    intro a ha b hb h
    exact absurd ((isGraphemeBoundary_iff a b).mpr h) (by clear h; revert b; revert a; decide +kernel)) 18 (by decide)

/-- So the linked library's forms are not UAX #15 forms and not idempotent on such a text: "q" with the marks U+0300 to
U+030F, all of class 230, comes out in another order, and in yet another one when normalized again. -/
theorem C73_not_stable :
    let x := [0x71, 0x300, 0x301, 0x302, 0x303, 0x304, 0x305, 0x306, 0x307, 0x308, 0x309, 0x30A, 0x30B, 0x30C, 0x30D, 0x30E, 0x30F]
    let y := [0x71, 0x307, 0x30F, 0x30E, 0x30D, 0x30C, 0x30B, 0x30A, 0x309, 0x308, 0x306, 0x305, 0x304, 0x303, 0x302, 0x301, 0x300]
    let z := [0x71, 0x309, 0x300, 0x301, 0x302, 0x303, 0x304, 0x305, 0x306, 0x308, 0x30A, 0x30B, 0x30C, 0x30D, 0x30E, 0x30F, 0x307]
    (∀ F, normalize32 F libSort 18 x [] = .ok (17, y) ∧ normalize32 F libSort 18 y [] = .ok (17, z)) ∧
    IsUaxD cccResolve decResolve x x ∧ ¬ IsUaxD cccResolve decResolve x y ∧ ¬ StableSort libSort := by
  intro x y z
  refine ⟨by intro F; cases F <;> decide +kernel, ?_, ?_, ?_⟩
  · rw [IsUaxD, isCanonicalOrder_iff]; decide +kernel
  · rw [IsUaxD, isCanonicalOrder_iff]; decide +kernel
  · intro h
    have h1 := stable_filter h x 230
    revert h1
    decide +kernel

/-- Work: `SortLog.stdSort` is `std::sort` with a record of the calls of the comparator, and there are at most
`7 n log₂ n + 16 n` of them - on every range, also the ones made to break quicksort. -/
theorem C73_comparisons (lt : Int → Int → Bool) (hlt : StrictWeak lt) (l : List Int) :
    (SortLog.stdSort lt l).res = StdSort.stdSort lt l ∧
    (SortLog.stdSort lt l).pairs.length ≤ 7 * (l.length * l.length.log2) + 16 * l.length :=
  ⟨SortLog.stdSort_res lt l, SortLog.stdSort_cost hlt l⟩

/-- Instance: 20 elements; how many calls that makes. -/
example := C73_comparisons (fun a b => decide (a < b)) ⟨by simp, by simp; omega, by simp; omega⟩
  [9, 3, 3, 8, 1, 7, 5, 2, 2, 2, 6, 6, 0, 4, 9, 1, 5, 3, 8, 7]
example : (SortLog.stdSort (fun a b => decide (a < b))
    [9, 3, 3, 8, 1, 7, 5, 2, 2, 2, 6, 6, 0, 4, 9, 1, 5, 3, 8, 7]).pairs.length = 98 := by decide +kernel

/-- So normalizing with the linked `std::sort` (C66 without its assumption on the sort): a text of `n` codepoints that
decomposes to `N` takes at most this many reads of text and tables, in every form, in both encodings. -/
theorem C73_normalization_work (F : Form) (append : AppendFn β) (out : β) (fuel : Nat) :
    (∀ cs : List Nat, (∀ c ∈ cs, c < 2 ^ 31) → cs.length < fuel →
      let N := ((cs.map Int.ofNat).flatMap (full F.map)).length
      (Work.normalizeText F libSort libCompared append (Work.utf8Iter (encodeText cs ++ [0])) fuel 0 (encodeText cs).length
        out).reads ≤ 87 * cs.length + 13 * N + 320 * (N * (N.log2 + 1)) + 87) ∧
    ∀ cs : List Int, cs.length < fuel →
      let N := (cs.flatMap (full F.map)).length
      (Work.normalizeText F libSort libCompared append (Work.utf32Iter (cs ++ [0])) fuel 0 cs.length out).reads ≤
        38 * cs.length + 13 * N + 320 * (N * (N.log2 + 1)) + 27 := by
  have hK : ∀ l, (libCompared l).length ≤ 16 * (l.length * (l.length.log2 + 1)) := by
    intro l
    have := SortLog.stdSort_cost cco_strictWeak l
    rw [Nat.mul_succ]
    exact Nat.le_trans this (by omega)
  obtain ⟨-, h1, h2⟩ := C66_normalization F libSort C73_conforming libCompared 16 hK append out fuel
  refine ⟨fun cs hc hf => ?_, fun cs hf => ?_⟩
  · exact Nat.le_trans (h1 cs hc hf) (by omega)
  · exact Nat.le_trans (h2 cs hf) (by omega)

/-- Instance. -/
example := (C73_normalization_work .C append32 [] 9).2 [0x61, 0x301, 0x323, 0x1E69] (by decide)

end U5e
