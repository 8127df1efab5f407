import Verif.Proofs.GraphemeMore
import Verif.Proofs.Rules
/-!
# C19–C25: graphemes

`filterGraphemes I fuel b e [] (collectGrapheme I fuel)` is the documented loop
`for (gi = s.grapheme_begin(); gi != s.grapheme_end(); gi++) { g = *gi; for (it = g.codepoint_begin();
it != g.codepoint_end(); it++) … *it … }` collecting the codepoints of every grapheme
(Model/Grapheme.lean). `utf32Iter m` / `utf8Iter m` are codepoint iterators over memory `m`.
A result `.ok` means: terminates and no undefined behaviour; `fuel` is any number larger than the
number of codepoints. `cs.length < 2^31`: the `int` counter of `filter` does not overflow.
-/
namespace U5e
open Spec

/-- There is a break between adjacent codepoints by the pairwise rules. -/
def Breaks (a b : Int) : Prop := ¬ NoBreakPair (gcbResolve a) (gcbResolve b)

theorem isSegmentation_congr {p q : Int → Int → Prop} (h : ∀ a b, p a b ↔ q a b) {cs gs}
    (hs : IsSegmentation p cs gs) : IsSegmentation q cs gs :=
  ⟨hs.concat, hs.nonempty, fun g hg pre a b post he hq => hs.inside g hg pre a b post he ((h a b).mpr hq),
    fun p' g k q' he a b ha hb => (h a b).mp (hs.between p' g k q' he a b ha hb)⟩

theorem segments_breaks (cs : List Int) :
    IsSegmentation Breaks cs (segments isGraphemeBoundary cs) :=
  isSegmentation_congr isGraphemeBoundary_iff (segments_isSegmentation _ cs)

theorem segments_unique {cs : List Int} {gs} (h : IsSegmentation Breaks cs gs) :
    gs = segments isGraphemeBoundary cs :=
  isSegmentation_unique _ cs gs (isSegmentation_congr (fun a b => (isGraphemeBoundary_iff a b).symm) h)

/-- The segmentation of a concrete text, by computation (used in the examples). -/
theorem segmentation_of {cs : List Int} {gs} (h : segments isGraphemeBoundary cs = gs) :
    IsSegmentation Breaks cs gs := h ▸ segments_breaks cs

/-- A concrete break, by computation (used in the examples). -/
theorem breaks_of {a b : Int} (h : isGraphemeBoundary a b = true) : Breaks a b :=
  (isGraphemeBoundary_iff a b).mp h

/-- NUL always breaks. -/
theorem breaks_nul (a : Int) : Breaks a 0 := (isGraphemeBoundary_iff a 0).mp (brk_zero a)

/-- C19 + C20, utf32ne text `cs` at any place of a buffer, followed by an element `z` such that there
is a break before `z` (for a string: the terminating 0, `breaks_nul`): iteration yields exactly the
segmentation by the pairwise rules - in particular the parts are non-empty and concatenate to `cs`
(fields of `IsSegmentation`) - and it is the only such segmentation. -/
theorem C19_C20_segmentation_utf32 (pre cs post : List Int) (z : Int)
    (hz : ∀ a, cs.getLast? = some a → Breaks a z) (hn : cs.length < 2 ^ 31) (fuel : Nat)
    (hf : cs.length < fuel) :
    ∃ gs, filterGraphemes (utf32Iter (pre ++ cs ++ z :: post)) fuel pre.length
        (pre.length + cs.length) [] (collectGrapheme (utf32Iter (pre ++ cs ++ z :: post)) fuel)
          = .ok ((gs.length : Int), gs) ∧
      IsSegmentation Breaks cs gs ∧ ∀ gs', IsSegmentation Breaks cs gs' → gs' = gs := by
  refine ⟨segments isGraphemeBoundary cs, ?_, segments_breaks cs, fun _ => segments_unique⟩
  exact collect_sim (sim_utf32 pre cs (z :: post)) fuel hf (by omega) z (sim_utf32_end pre cs z post)
    (fun a ha => (isGraphemeBoundary_iff a z).mpr (hz a ha))

/-- Instance: "e\u0301" in the middle of "xe\u0301f". -/
example := C19_C20_segmentation_utf32 [0x78] [0x65, 0x301] [] 0x66
  (by rintro a ⟨⟩; exact breaks_of (by decide +kernel)) (by decide) 3 (by decide)

/-- C19 + C20 + C22, UTF-8 text at any place of a buffer, followed by the encoding of `z` such that
there is a break before `z`: iteration yields the same segmentation, as codepoints. -/
theorem C19_C20_C22_segmentation_utf8 (cs : List Nat) (h : ∀ c ∈ cs, c < 2 ^ 31)
    (pre post : List UInt8) (z : Nat) (hz31 : z < 2 ^ 31)
    (hz : ∀ a, cs.getLast? = some a → Breaks a z) (hn : cs.length < 2 ^ 31) (fuel : Nat)
    (hf : cs.length < fuel) :
    ∃ gs, filterGraphemes (utf8Iter (pre ++ encodeText cs ++ (encode z ++ post))) fuel pre.length
        (pre.length + (encodeText cs).length) []
        (collectGrapheme (utf8Iter (pre ++ encodeText cs ++ (encode z ++ post))) fuel)
          = .ok ((gs.length : Int), gs) ∧
      IsSegmentation Breaks (cs.map Int.ofNat) gs := by
  refine ⟨segments isGraphemeBoundary (cs.map Int.ofNat), ?_, segments_breaks _⟩
  obtain ⟨S, hend⟩ := sim_encodeText cs h pre z hz31 post
  have := collect_sim S fuel (by simpa) (by simp; omega) z (by simpa using hend) (by
    intro a ha
    rw [List.getLast?_map] at ha
    cases hl : cs.getLast? with
    | none => simp [hl] at ha
    | some x =>
      simp [hl] at ha
      subst ha
      exact (isGraphemeBoundary_iff x z).mpr (hz x hl))
  rwa [List.length_map, upos_zero, upos_encode_end] at this

/-- Instance: "e\u0301€" in an array, followed by "f". -/
example := C19_C20_C22_segmentation_utf8 [0x65, 0x301, 0x20AC] (by decide) [0x80] [0xFF] 0x66 (by decide)
  (by rintro a ⟨⟩; exact breaks_of (by decide +kernel)) (by decide) 4 (by decide)

/-- C19 for NUL-terminated UTF-8 strings: non-empty consecutive graphemes concatenating to the text. -/
theorem C19_partition_utf8_string (cs : List Nat) (h : ∀ c ∈ cs, c < 2 ^ 31)
    (hn : cs.length < 2 ^ 31) (fuel : Nat) (hf : cs.length < fuel) :
    ∃ gs, filterGraphemes (utf8Iter (encodeText cs ++ [0])) fuel 0 (encodeText cs).length []
        (collectGrapheme (utf8Iter (encodeText cs ++ [0])) fuel) = .ok ((gs.length : Int), gs) ∧
      gs.flatten = cs.map Int.ofNat ∧ ∀ g ∈ gs, g ≠ [] := by
  obtain ⟨gs, h1, h2⟩ := C19_C20_C22_segmentation_utf8 cs h [] [] 0 (by decide)
    (fun a _ => breaks_nul a) hn fuel hf
  refine ⟨gs, ?_, h2.concat, h2.nonempty⟩
  simpa [encode] using h1

/-- Instance: "\r\n" and a Hangul syllable in three parts. -/
example := C19_partition_utf8_string [0xD, 0xA, 0x1100, 0x1161, 0x11A8] (by decide) (by decide) 6 (by decide)

/-- C19 for utf32ne strings. -/
theorem C19_partition_utf32_string (cs : List Int) (hn : cs.length < 2 ^ 31) (fuel : Nat)
    (hf : cs.length < fuel) :
    ∃ gs, filterGraphemes (utf32Iter (cs ++ [0])) fuel 0 cs.length []
        (collectGrapheme (utf32Iter (cs ++ [0])) fuel) = .ok ((gs.length : Int), gs) ∧
      gs.flatten = cs ∧ ∀ g ∈ gs, g ≠ [] := by
  obtain ⟨gs, h1, h2, _⟩ := C19_C20_segmentation_utf32 [] cs [] 0 (fun a _ => breaks_nul a) hn fuel hf
  exact ⟨gs, by simpa using h1, h2.concat, h2.nonempty⟩

/-- Instance: the same in UTF-32. -/
example := C19_partition_utf32_string [0xD, 0xA, 0x1100, 0x1161, 0x11A8] (by decide) 6 (by decide)

/-- C20: where the boundaries are: the text splits at a position exactly when its two neighbours
break; nothing else in the text matters. -/
theorem C20_boundary_positions (cs : List Int) (gs : List (List Int))
    (hgs : IsSegmentation Breaks cs gs) (l : List Int) (a b : Int) (r : List Int)
    (hcs : cs = l ++ a :: b :: r) : BoundaryAfter gs (l ++ [a]) ↔ Breaks a b :=
  boundaryAfter_iff hgs l a b r hcs

/-- Instance: "e\u0301f", the places before and after the accent. -/
example : ¬ BoundaryAfter [[0x65, 0x301], [0x66]] [0x65] ∧ BoundaryAfter [[0x65, 0x301], [0x66]] [0x65, 0x301] := by
  have hs : IsSegmentation Breaks [0x65, 0x301, 0x66] [[0x65, 0x301], [0x66]] :=
    segmentation_of (by decide +kernel)
  constructor
  · intro h
    have := (C20_boundary_positions _ _ hs [] 0x65 0x301 [0x66] rfl).mp h
    rw [Breaks, ← isGraphemeBoundary_iff] at this
    exact absurd this (by decide +kernel)
  · exact (C20_boundary_positions _ _ hs [0x65] 0x301 0x66 [] rfl).mpr (breaks_of (by decide +kernel))

/-- C20: the C++ function `is_grapheme_boundary` decides exactly the documented rules, for all 18×18
pairs of property values. -/
theorem C20_rules (a b : GCB) : boundaryOfClasses a b = false ↔ NoBreakPair a b :=
  boundary_false_iff a b

/-- C22. The same codepoints give the same graphemes and the same count in utf32ne and in UTF-8. -/
theorem C22_encoding_independent (cs : List Nat) (h : ∀ c ∈ cs, c < 2 ^ 31)
    (hn : cs.length < 2 ^ 31) (fuel fuel' : Nat) (hf : cs.length < fuel) (hf' : cs.length < fuel') :
    filterGraphemes (utf8Iter (encodeText cs ++ [0])) fuel 0 (encodeText cs).length []
        (collectGrapheme (utf8Iter (encodeText cs ++ [0])) fuel) =
      filterGraphemes (utf32Iter (cs.map Int.ofNat ++ [0])) fuel' 0 cs.length []
        (collectGrapheme (utf32Iter (cs.map Int.ofNat ++ [0])) fuel') := by
  obtain ⟨gs, h1, h2⟩ := C19_C20_C22_segmentation_utf8 cs h [] [] 0 (by decide)
    (fun a _ => breaks_nul a) hn fuel hf
  obtain ⟨gs', h3, _, h4⟩ := C19_C20_segmentation_utf32 [] (cs.map Int.ofNat) [] 0
    (fun a _ => breaks_nul a) (by simpa) fuel' (by simpa)
  obtain rfl := h4 gs h2
  simp [encode] at h1 h3
  rw [h1, h3]

/-- Instance. -/
example := C22_encoding_independent [0xD, 0xA, 0x1100, 0x1161, 0x65, 0x301] (by decide) (by decide) 7 9 (by decide)
  (by decide)

/-- Non-vacuity: CR LF, Hangul L V T, flags, e + two marks, NUL after. -/
example : filterGraphemes (utf32Iter ([0xD, 0xA, 0x1100, 0x1161, 0x11A8, 0x65, 0x301, 0x302] ++ [0]))
    9 0 8 [] (collectGrapheme (utf32Iter ([0xD, 0xA, 0x1100, 0x1161, 0x11A8, 0x65, 0x301, 0x302] ++ [0])) 9)
    = .ok (3, [[0xD, 0xA], [0x1100, 0x1161, 0x11A8], [0x65, 0x301, 0x302]]) := by decide +kernel
example : NoBreakPair .PREPEND .OTHER ∧ ¬ NoBreakPair .OTHER .OTHER ∧ Breaks 0x61 0x62 :=
  ⟨.gb9b _ (by decide), by rw [← boundary_false_iff]; decide,
    (isGraphemeBoundary_iff 0x61 0x62).mp (by decide +kernel)⟩

/-- C21: the exact difference between u5e's rule and UAX #29 revision 29 at a position whose left
context is `a, r…` (nearest first) and right neighbour `b`: u5e joins exactly where UAX #29 does, plus
(1) Extend × E_Modifier without an emoji base before the Extend run and (2) two regional indicators
at an even position of their run. -/
theorem C21_exact_deviation (a : GCB) (r : List GCB) (b : GCB) :
    boundaryOfClasses a b = false ↔ UaxNoBreak (a :: r) b ∨
      (a = .EXTEND ∧ b = .E_MODIFIER ∧ ¬ EmojiBaseExtend (a :: r)) ∨
      (a = .REGIONAL_INDICATOR ∧ b = .REGIONAL_INDICATOR ∧ riRun (a :: r) % 2 = 0) := by
  rw [boundary_false_iff, noBreakPair_uax a r b]

/-- u5e never breaks where UAX #29 forbids a break. -/
theorem C21_never_splits_clusters (a : GCB) (r : List GCB) (b : GCB) (h : UaxNoBreak (a :: r) b) :
    boundaryOfClasses a b = false := (C21_exact_deviation a r b).mpr (.inl h)

/-- Instance: the two flags of one pair, after another codepoint. -/
example : boundaryOfClasses .REGIONAL_INDICATOR .REGIONAL_INDICATOR = false :=
  C21_never_splits_clusters .REGIONAL_INDICATOR [.OTHER] .REGIONAL_INDICATOR
    ((C21_exact_deviation .REGIONAL_INDICATOR [.OTHER] .REGIONAL_INDICATOR).mp (by decide) |>.elim id
      (fun h => by rcases h with ⟨h, _⟩ | ⟨_, _, h⟩ <;> exact absurd h (by decide)))

/-- C21. For a text, exactly when the segmentation is the one of UAX #29 revision 29: iff no E_Modifier
follows an Extend run without an emoji base, and no regional indicator is preceded by a positive even
number of them (so no run of them is longer than two). Outside that set: `C21_flags_merge`. -/
theorem C21_uax29 (cs : List Int) (gs : List (List Int)) (hgs : IsSegmentation Breaks cs gs) :
    IsUaxSegmentation gcbResolve cs gs ↔
    ∀ l a b r, cs = l ++ a :: b :: r →
      ¬ (gcbResolve a = .EXTEND ∧ gcbResolve b = .E_MODIFIER ∧
          ¬ EmojiBaseExtend ((l ++ [a]).reverse.map gcbResolve)) ∧
      ¬ (gcbResolve a = .REGIONAL_INDICATOR ∧ gcbResolve b = .REGIONAL_INDICATOR ∧
          riRun ((l ++ [a]).reverse.map gcbResolve) % 2 = 0) := by
  constructor
  · intro hu l a b r hcs
    have hb := hu.boundary (l ++ [a]) b r (by simp [hcs]) (by simp)
    rw [boundaryAfter_iff hgs l a b r hcs] at hb
    simp only [Breaks] at hb
    rw [noBreakPair_uax (gcbResolve a) (l.reverse.map gcbResolve) (gcbResolve b)] at hb
    simp only [List.reverse_append, List.reverse_cons, List.reverse_nil, List.nil_append,
      List.cons_append, List.map_cons] at hb ⊢
    constructor
    · intro hd
      have hn : ¬ UaxNoBreak (gcbResolve a :: l.reverse.map gcbResolve) (gcbResolve b) := by
        rw [hd.1, hd.2.1]
        intro h
        have hd3 := hd.2.2
        rw [hd.1] at hd3
        cases h with
        | gb7 _ _ _ h => simp at h
        | gb9 _ _ _ _ h => simp at h
        | gb10 _ h => exact hd3 h
      exact hb.mpr hn (.inr (.inl hd))
    · intro hd
      have hn : ¬ UaxNoBreak (gcbResolve a :: l.reverse.map gcbResolve) (gcbResolve b) := by
        rw [hd.1, hd.2.1]
        intro h
        have hd3 := hd.2.2
        rw [hd.1] at hd3
        cases h with
        | gb7 _ _ _ h => simp at h
        | gb9 _ _ _ _ h => simp at h
        | gb12 _ h => omega
      exact hb.mpr hn (.inr (.inr hd))
  intro hok
  refine ⟨hgs.concat, hgs.nonempty, ?_⟩
  intro l b r hcs hl
  rcases List.eq_nil_or_concat l with rfl | ⟨l, a, rfl⟩
  · exact absurd rfl hl
  · rw [List.concat_eq_append] at hcs ⊢
    have hcs' : cs = l ++ a :: b :: r := by simp [hcs]
    rw [boundaryAfter_iff hgs l a b r hcs']
    obtain ⟨h1, h2⟩ := hok l a b r hcs'
    simp only [Breaks]
    rw [noBreakPair_uax (gcbResolve a) (l.reverse.map gcbResolve) (gcbResolve b)]
    simp only [List.reverse_append, List.reverse_cons, List.reverse_nil, List.nil_append,
      List.cons_append, List.map_cons] at h1 h2 ⊢
    constructor
    · intro h h3; exact h (.inl h3)
    · rintro h (h3 | h3 | h3)
      · exact h h3
      · exact h1 h3
      · exact h2 h3

/-- Instance: for four regional indicators, which the library does not split, the right-hand side fails. -/
example : ¬ IsUaxSegmentation gcbResolve [0x1F1E7, 0x1F1F7, 0x1F1FA, 0x1F1F8]
    [[0x1F1E7, 0x1F1F7, 0x1F1FA, 0x1F1F8]] := fun h =>
  ((C21_uax29 _ _ (segmentation_of (by decide +kernel))).mp h [0x1F1E7] 0x1F1F7 0x1F1FA [0x1F1F8] rfl).2
    (by decide +kernel)

/-- C21 counterexample: four regional indicators (two flags) are one grapheme in u5e, and UAX #29
requires a break in the middle. -/
theorem C21_flags_merge :
    filterGraphemes (utf32Iter [0x1F1E7, 0x1F1F7, 0x1F1FA, 0x1F1F8, 0]) 5 0 4 []
      (collectGrapheme (utf32Iter [0x1F1E7, 0x1F1F7, 0x1F1FA, 0x1F1F8, 0]) 5) =
        .ok (1, [[0x1F1E7, 0x1F1F7, 0x1F1FA, 0x1F1F8]]) ∧
    ¬ UaxNoBreak [.REGIONAL_INDICATOR, .REGIONAL_INDICATOR] .REGIONAL_INDICATOR := by
  refine ⟨by decide +kernel, ?_⟩
  intro h
  cases h with
  | gb7 _ _ _ h => simp at h
  | gb9 _ _ _ _ h => simp at h
  | gb12 _ h => simp [riRun] at h

/-- The condition of `C21_uax29` is met by ordinary text. -/
example : ∃ gs, IsSegmentation Breaks [0x65, 0x301, 0x66] gs ∧
    ∀ l a b r, [0x65, 0x301, 0x66] = l ++ a :: b :: r →
      gcbResolve b ≠ .E_MODIFIER ∧ gcbResolve b ≠ .REGIONAL_INDICATOR := by
  refine ⟨_, segments_breaks _, ?_⟩
  intro l a b r h
  have hb : b ∈ [0x65, 0x301, (0x66 : Int)] := by rw [h]; simp
  have : ∀ x ∈ [0x65, 0x301, (0x66 : Int)], gcbResolve x ≠ .E_MODIFIER ∧
      gcbResolve x ≠ .REGIONAL_INDICATOR := by decide +kernel
  exact this b hb

theorem eq_iterated {I : CpIter} {pos : Nat → Nat} {cs : List Int} (S : Sim I pos cs) (fuel : Nat)
    (hf : cs.length < fuel) (hz : I.deref (pos cs.length) = .ok (0, pos cs.length))
    (gs : List (List Int)) (hgs : IsSegmentation Breaks cs gs) (j k : Nat) (hj : j ≤ gs.length)
    (hk : k ≤ gs.length) (i : Nat) (hi : i ≤ cs.length) :
    ∃ gj gk ge, (graphemeBegin I fuel (pos 0) (pos cs.length) >>= incN I fuel j) = .ok gj ∧
      (graphemeBegin I fuel (pos 0) (pos cs.length) >>= incN I fuel k) = .ok gk ∧
      graphemeEnd I fuel (pos 0) (pos cs.length) = .ok ge ∧
      gj.eqG I fuel gk = .ok (decide (j = k)) ∧
      gj.eqG I fuel ge = .ok (decide (j = gs.length)) ∧
      gj.eqCp I fuel (pos i) = .ok (decide (((gs.take j).flatten.length ≤ i ∧
        i < (gs.take (j + 1)).flatten.length) ∨ (j = gs.length ∧ i = cs.length))) := by
  obtain rfl := segments_unique hgs
  have hend := graphemeEnd_sim S fuel hf 0 hz (fun a _ => brk_zero a)
  have hsj := segStart_succ cs j
  have hsk := segStart_succ cs k
  have h1j := segStart_le cs (j + 1)
  have h1k := segStart_le cs (k + 1)
  have hall := segStart_all cs
  have jlt : j < (segments isGraphemeBoundary cs).length → segStart cs j < segStart cs (j + 1) :=
    fun h => (segStart_mono_lt cs h (Nat.le_refl _)).2
  have klt : k < (segments isGraphemeBoundary cs).length → segStart cs k < segStart cs (k + 1) :=
    fun h => (segStart_mono_lt cs h (Nat.le_refl _)).2
  refine ⟨_, _, _, graphemeN_sim S fuel hf j, graphemeN_sim S fuel hf k, hend, ?_, ?_, ?_⟩
  · rw [eqG_sim S fuel 0 0 _ _ _ _ (by omega) h1j (by omega) h1k hf]
    congr 1; apply decide_eq_decide.mpr
    constructor
    · rintro (⟨h1, h2⟩ | ⟨x, h1, h2, h3⟩)
      · rcases Nat.lt_trichotomy j k with h | h | h
        · have := segStart_mono_lt cs h hk; omega
        · exact h
        · have := segStart_mono_lt cs h hj; omega
      · rcases Nat.lt_trichotomy j k with h | h | h
        · have := segStart_mono_lt cs h hk; omega
        · exact h
        · have := segStart_mono_lt cs h hj; omega
    · rintro rfl
      rcases Nat.lt_or_eq_of_le hj with h | h
      · exact .inr ⟨segStart cs j, jlt h, Nat.le_refl _, .inl rfl⟩
      · left; rw [h, hall]; exact ⟨rfl, rfl⟩
  · rw [eqG_sim S fuel 0 0 _ _ cs.length cs.length (by omega) h1j (Nat.le_refl _) (Nat.le_refl _) hf]
    congr 1; apply decide_eq_decide.mpr
    constructor
    · rintro (⟨h1, _⟩ | ⟨x, h1, h2, h3⟩)
      · rcases Nat.lt_or_eq_of_le hj with h | h
        · have := jlt h; omega
        · exact h
      · omega
    · intro h; left; rw [h, hall]; exact ⟨rfl, rfl⟩
  · rw [eqCp_sim S fuel 0 _ _ i (by omega) h1j hi hf]
    congr 1; apply decide_eq_decide.mpr
    show (segStart cs j = i ∨ (segStart cs j ≤ i ∧ i < segStart cs (j + 1))) ↔
      ((segStart cs j ≤ i ∧ i < segStart cs (j + 1)) ∨ (_ ∧ _))
    constructor
    · rintro (h | h)
      · rcases Nat.lt_or_eq_of_le hj with h2 | h2
        · have := jlt h2; left; omega
        · right; rw [h2, hall] at h; exact ⟨h2, h.symm⟩
      · exact .inl h
    · rintro (h | ⟨h1, h2⟩)
      · exact .inr h
      · left; rw [h1, hall, h2]

/-- C24, utf32ne: the iterators reached after j and k increments are equal iff j = k, equal to
`grapheme_end()` iff all graphemes were passed, and equal to a codepoint iterator iff that codepoint
belongs to the grapheme (at the end: iff it is the end). -/
theorem C24_equality_utf32 (cs : List Int) (gs : List (List Int)) (hgs : IsSegmentation Breaks cs gs)
    (fuel : Nat) (hf : cs.length < fuel) (j k : Nat) (hj : j ≤ gs.length) (hk : k ≤ gs.length) (i : Nat)
    (hi : i ≤ cs.length) :
    let I := utf32Iter (cs ++ [0])
    ∃ gj gk ge, (graphemeBegin I fuel 0 cs.length >>= incN I fuel j) = .ok gj ∧
      (graphemeBegin I fuel 0 cs.length >>= incN I fuel k) = .ok gk ∧
      graphemeEnd I fuel 0 cs.length = .ok ge ∧
      gj.eqG I fuel gk = .ok (decide (j = k)) ∧
      gj.eqG I fuel ge = .ok (decide (j = gs.length)) ∧
      gj.eqCp I fuel i = .ok (decide (((gs.take j).flatten.length ≤ i ∧
        i < (gs.take (j + 1)).flatten.length) ∨ (j = gs.length ∧ i = cs.length))) := by
  intro I
  have S := sim_utf32 [] cs [0]
  have hz := sim_utf32_end [] cs 0 []
  have := eq_iterated S fuel hf hz gs hgs j k hj hk i hi
  simpa [I] using this

/-- Instance: "e\u0301f", the second grapheme iterator and the codepoint iterator at "f". -/
example := C24_equality_utf32 [0x65, 0x301, 0x66] [[0x65, 0x301], [0x66]] (segmentation_of (by decide +kernel))
  4 (by decide) 1 2 (by decide) (by decide) 2 (by decide)
/-- C24 for UTF-8 strings; codepoint number `i` sits at octet `(encodeText (cs.take i)).length`. -/
theorem C24_equality_utf8 (cs : List Nat) (h : ∀ c ∈ cs, c < 2 ^ 31) (gs : List (List Int))
    (hgs : IsSegmentation Breaks (cs.map Int.ofNat) gs) (fuel : Nat) (hf : cs.length < fuel) (j k : Nat)
    (hj : j ≤ gs.length) (hk : k ≤ gs.length) (i : Nat) (hi : i ≤ cs.length) :
    let I := utf8Iter (encodeText cs ++ [0])
    let e := (encodeText cs).length
    ∃ gj gk ge, (graphemeBegin I fuel 0 e >>= incN I fuel j) = .ok gj ∧
      (graphemeBegin I fuel 0 e >>= incN I fuel k) = .ok gk ∧
      graphemeEnd I fuel 0 e = .ok ge ∧
      gj.eqG I fuel gk = .ok (decide (j = k)) ∧
      gj.eqG I fuel ge = .ok (decide (j = gs.length)) ∧
      gj.eqCp I fuel (encodeText (cs.take i)).length = .ok (decide (((gs.take j).flatten.length ≤ i ∧
        i < (gs.take (j + 1)).flatten.length) ∨ (j = gs.length ∧ i = cs.length))) := by
  intro I e
  obtain ⟨S, hend⟩ := sim_encodeText cs h [] 0 (by decide) []
  have := eq_iterated S fuel (by simpa) (by simpa using hend) gs hgs j k hj hk i
    (by simpa)
  have e3 : [] ++ encodeText cs ++ (encode 0 ++ []) = encodeText cs ++ [0] := by simp [encode]
  rw [List.length_map, List.length_nil, upos_zero, upos_encode_end, upos_encode, e3, Nat.zero_add,
    Nat.zero_add] at this
  exact this

/-- Instance: the same in UTF-8. -/
example := C24_equality_utf8 [0x65, 0x301, 0x66] (by decide) [[0x65, 0x301], [0x66]]
  (segmentation_of (by decide +kernel)) 4 (by decide) 1 2 (by decide) (by decide) 2 (by decide)

end U5e
