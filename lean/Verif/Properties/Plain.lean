import Verif.Proofs.Plain
import Verif.Properties.Uax15
import Verif.Properties.NormalizeUtf8
/-!
# C69: texts in which nothing joins are normalized as the standard says

The texts are those without marks, joiners, conjoining jamo, prepended signs and emoji modifiers (`Joins`,
Spec/Plain.lean): text with precomposed letters, ideographs, Hangul syllables, symbols, line ends, flags.
`normalize32`/`normalize8` are the modelled filters over NUL-terminated strings (Properties/Normalize.lean).
-/
namespace U5e
open Spec

/-- C69, decompositions: NFD and NFKD of such a text conform to UAX #15 exactly if it has no Hangul syllable. -/
theorem C69_decomposition_conforms_iff (F : Form) (hF : F = .D ∨ F = .KD) (sort : SortFn) (hs : StableSort sort)
    (cs : List Int) (h : ∀ c ∈ cs, ¬ Joins (gcbResolve c)) (fuel : Nat) (hf : cs.length < fuel)
    (hb : (cs.flatMap (full F.map)).length < 2 ^ 31) :
    ∃ ys, normalize32 F sort fuel cs [] = .ok ((ys.length : Int), ys) ∧
      (IsUaxD cccResolve F.map cs ys ↔ ∀ c ∈ cs, ¬ IsHangulSyllable c) := by
  obtain ⟨ys, h1, h2⟩ := C35_conforms_iff F hF sort hs cs _ (segments_breaks cs) fuel hf hb
  refine ⟨ys, h1, h2.trans ⟨fun h => h.1, fun hh => ⟨hh, fun g hg => ?_⟩⟩⟩
  exact startersFirst_of_sorted (F.plain_sorted (fun c hc => (joinsB_iff _).mpr (h c hc)) hg)

/-- Instance: "Ångström né Ǖ 世", CR LF, the flag of Brazil. -/
example := C69_decomposition_conforms_iff .D (.inl rfl) insSort insSort_stable
  [0xC5, 0x6E, 0x67, 0xE9, 0x1D5, 0x4E16, 0x0D, 0x0A, 0x1F1E7, 0x1F1F7] (by decide +kernel) 11 (by decide)
  (by decide +kernel)

/-- C69, compositions: NFC of such a text conforms to UAX #15, always; NFKC does if it has no compatibility jamo. -/
theorem C69_composition_conforms (F : Form) (sort : SortFn) (hs : StableSort sort)
    (cs : List Int) (h : ∀ c ∈ cs, ¬ Joins (gcbResolve c))
    (hF : F = .C ∨ F = .KC ∧ ∀ c ∈ cs, ¬ IsCompatJamo c) (fuel : Nat) (hf : cs.length < fuel)
    (hb : (cs.flatMap (full F.map)).length < 2 ^ 31) :
    ∃ ys, normalize32 F sort fuel cs [] = .ok ((ys.length : Int), ys) ∧ IsUaxC cccResolve F.map compResolve cs ys := by
  have h' : ∀ c ∈ cs, joinsB (gcbResolve c) = false := fun c hc => (joinsB_iff _).mpr (h c hc)
  obtain ⟨ys, h1, h2⟩ := C36_conforms_iff F (hF.imp id fun h => h.1) sort hs cs _ (segments_breaks cs) fuel hf hb
  refine ⟨ys, h1, h2.mpr ⟨fun g hg => startersFirst_of_sorted (F.plain_sorted h' hg), ?_⟩⟩
  have hy : ys = F.text sort cs := by
    rw [normalize32_eq F hs.1 cs [] fuel hf hb] at h1
    simp at h1; exact h1.2.symm
  rw [hy]
  refine F.plain_noPair ?_ hs h' ?_
  · rcases hF with rfl | ⟨rfl, _⟩ <;> rfl
  · rcases hF with rfl | ⟨rfl, hk⟩
    · exact .inl rfl
    · exact .inr hk

/-- Instance: "Åﬁ한 U+1E9B U+FDFA", CR LF in NFKC; U+212B (Ångström sign) in NFC. -/
example := C69_composition_conforms .KC insSort insSort_stable [0xC5, 0xFB01, 0xD55C, 0x1E9B, 0x0D, 0x0A]
  (by decide +kernel) (.inr ⟨rfl, by decide⟩) 7 (by decide) (by decide +kernel)

/-- The conditions matter: a mark, a joiner or a conjoining vowel can break each form, a compatibility jamo NFKC, a
Hangul syllable NFD. -/
theorem C69_counterexamples :
    normalize32 .C insSort 9 [0x61, 0x316, 0x301] [] = .ok (3, [0x61, 0x316, 0x301]) ∧
    uaxCompose cccResolve (uaxComp compResolve) [0x61, 0x316, 0x301] = [0xE1, 0x316] ∧
    normalize32 .D insSort 9 [0xE9, 0x200D] [] = .ok (3, [0x65, 0x200D, 0x301]) ∧
    ¬ IsUaxD cccResolve decResolve [0xE9, 0x200D] [0x65, 0x200D, 0x301] ∧
    normalize32 .C insSort 9 [0x1100, 0x1161] [] = .ok (2, [0x1100, 0x1161]) ∧
    uaxCompose cccResolve (uaxComp compResolve) [0x1100, 0x1161] = [0xAC00] ∧
    normalize32 .KC insSort 9 [0x3131, 0x314F] [] = .ok (2, [0x1100, 0x1161]) ∧
    normalize32 .D insSort 9 [0xAC00] [] = .ok (1, [0xAC00]) := by
  refine ⟨by decide +kernel, by decide +kernel, by decide +kernel, ?_, by decide +kernel, by decide +kernel,
    by decide +kernel, by decide +kernel⟩
  rw [IsUaxD, isCanonicalOrder_iff]; decide +kernel

/-- C69, codepoint by codepoint: any of the four forms of such a text is what the form makes of each codepoint alone,
one after the other. -/
theorem C69_codepoint_by_codepoint (F : Form) (sort : SortFn) (hs : StableSort sort)
    (cs : List Int) (h : ∀ c ∈ cs, ¬ Joins (gcbResolve c)) (fuel : Nat) (hf : cs.length < fuel)
    (hb : (cs.flatMap (full F.map)).length < 2 ^ 31) :
    ∃ f : Int → List Int, (∀ c ∈ cs, normalize32 F sort 2 [c] [] = .ok (((f c).length : Int), f c)) ∧
      normalize32 F sort fuel cs [] = .ok (((cs.flatMap f).length : Int), cs.flatMap f) := by
  have h' : ∀ c ∈ cs, joinsB (gcbResolve c) = false := fun c hc => (joinsB_iff _).mpr (h c hc)
  refine ⟨fun c => F.post (full F.map c), fun c hc => ?_, ?_⟩
  · have hlen : (full F.map c).length < 2 ^ 31 := by
      obtain ⟨s, t, rfl⟩ := List.append_of_mem hc
      simp only [List.flatMap_append, List.flatMap_cons, List.length_append] at hb
      omega
    rw [normalize32_eq F hs.1 [c] [] 2 (by simp) (by simpa using hlen),
      F.plain_piecewise hs (by simpa using h' c hc)]
    simp
  · rw [normalize32_eq F hs.1 cs [] fuel hf hb, F.plain_piecewise hs h']
    rfl

/-- Instance. -/
example := C69_codepoint_by_codepoint .KC insSort insSort_stable [0xC5, 0xFB01, 0xD55C, 0x3131, 0x0D, 0x0A]
  (by decide +kernel) 7 (by decide) (by decide +kernel)

/-- The hypothesis is needed: "e" followed by U+0301. -/
example : normalize32 .C insSort 2 [0x65] [] = .ok (1, [0x65]) ∧ normalize32 .C insSort 2 [0x301] [] = .ok (1, [0x301]) ∧
    normalize32 .C insSort 3 [0x65, 0x301] [] = .ok (1, [0xE9]) := by decide +kernel

/-- C69 in UTF-8: the octets appended are the encoding of the UAX #15 form, if the encoder gets its codepoints
right (C10). -/
theorem C69_utf8 (F : Form) (sort : SortFn) (hs : StableSort sort)
    (cs : List Nat) (hc : ∀ c ∈ cs, c < 2 ^ 31) (h : ∀ c ∈ cs, ¬ Joins (gcbResolve c))
    (hF : F = .C ∨ F = .KC ∧ ∀ c ∈ cs, ¬ IsCompatJamo c) (fuel : Nat) (hf : cs.length < fuel)
    (hb : ((cs.map Int.ofNat).flatMap (full F.map)).length < 2 ^ 31) (out : List UInt8) :
    ∃ ns : List Int, IsUaxC cccResolve F.map compResolve (cs.map Int.ofNat) ns ∧
      ((∀ x ∈ ns, ∃ n : Nat, x = (n : Int) ∧ Encodable n) →
        normalize8 F sort fuel cs out = .ok ((ns.length : Int), out ++ encodeText (ns.map Int.toNat))) := by
  obtain ⟨ns, h1, h2⟩ := C38_encodings_agree F sort hs.1 cs hc fuel hf hb out
  have hmem : ∀ P : Int → Prop, (∀ c ∈ cs, P c) → ∀ c ∈ cs.map Int.ofNat, P c := by
    intro P hP c hc
    obtain ⟨n, hn, rfl⟩ := List.mem_map.mp hc
    exact hP n hn
  obtain ⟨ys, h3, h4⟩ := C69_composition_conforms F sort hs (cs.map Int.ofNat) (hmem (fun c => ¬ Joins (gcbResolve c)) h)
    (hF.imp id fun h => ⟨h.1, hmem _ h.2⟩) fuel (by simpa using hf) hb
  have : ys = ns := by rw [h1] at h3; simp at h3; exact h3.2.symm
  subst this
  exact ⟨ys, h4, h2⟩

/-- Instance. -/
example := C69_utf8 .C insSort insSort_stable [0xC5, 0xE9, 0x212B, 0x4E16] (by decide) (by decide +kernel) (.inl rfl) 5
  (by decide) (by decide +kernel) [0x41]

theorem flatMap_eq_self_iff {f : Int → List Int} (hf : ∀ c, f c ≠ []) (cs : List Int) :
    cs.flatMap f = cs ↔ ∀ c ∈ cs, f c = [c] := by
  refine ⟨?_, flatMap_self⟩
  have hlen : ∀ l : List Int, l.length ≤ (l.flatMap f).length := by
    intro l
    induction l with
    | nil => simp
    | cons a l ih =>
      have := List.length_pos_iff.mpr (hf a)
      rw [List.flatMap_cons, List.length_append, List.length_cons]; omega
  induction cs with
  | nil => intro _ c hc; simp at hc
  | cons a cs ih =>
    intro h
    rw [List.flatMap_cons] at h
    have hl := congrArg List.length h
    have h1 := hlen cs
    have h2 := List.length_pos_iff.mpr (hf a)
    rw [List.length_append, List.length_cons] at hl
    have h3 : (f a).length = 1 := by omega
    obtain ⟨x, hx⟩ := List.length_eq_one_iff.mp h3
    rw [hx] at h
    simp only [List.cons_append, List.nil_append, List.cons.injEq] at h
    intro c hc
    rcases List.mem_cons.mp hc with rfl | hc
    · rw [hx, h.1]
    · exact ih h.2 c hc

/-- C69, texts a form leaves alone: it leaves such a text alone exactly if it leaves each codepoint alone. -/
theorem C69_unchanged_iff (F : Form) (sort : SortFn) (hs : StableSort sort)
    (cs : List Int) (h : ∀ c ∈ cs, ¬ Joins (gcbResolve c)) (fuel : Nat) (hf : cs.length < fuel)
    (hb : (cs.flatMap (full F.map)).length < 2 ^ 31) :
    normalize32 F sort fuel cs [] = .ok ((cs.length : Int), cs) ↔
      ∀ c ∈ cs, normalize32 F sort 2 [c] [] = .ok (1, [c]) := by
  have h' : ∀ c ∈ cs, joinsB (gcbResolve c) = false := fun c hc => (joinsB_iff _).mpr (h c hc)
  have hlen : ∀ c ∈ cs, (full F.map c).length < 2 ^ 31 := by
    intro c hc
    obtain ⟨s, t, rfl⟩ := List.append_of_mem hc
    simp only [List.flatMap_append, List.flatMap_cons, List.length_append] at hb
    omega
  have hne : ∀ c, F.post (full F.map c) ≠ [] := by
    intro c he
    have h1 : full F.map c ≠ [] := F.facts.ne_nil c
    have h2 : ∀ l : List Int, l ≠ [] → F.post l ≠ [] := by
      intro l hl
      cases l with
      | nil => exact absurd rfl hl
      | cons a l =>
        have : ∀ (l : List Int) (a : Int), composeFrom compResolve a l ≠ [] := by
          intro l
          induction l with
          | nil => intro a; simp [composeFrom]
          | cons b l ih =>
            intro a
            rw [composeFrom]
            split
            · exact ih _
            · simp
        cases F
        · simp [Form.post]
        · exact this l a
        · simp [Form.post]
        · exact this l a
    exact h2 _ h1 he
  rw [normalize32_eq F hs.1 cs [] fuel hf hb, F.plain_piecewise hs h']
  have hone : ∀ c ∈ cs, (normalize32 F sort 2 [c] [] = .ok (1, [c]) ↔ F.post (full F.map c) = [c]) := by
    intro c hc
    rw [normalize32_eq F hs.1 [c] [] 2 (by simp) (by simpa using hlen c hc),
      F.plain_piecewise hs (by simpa using h' c hc)]
    simp only [List.flatMap_cons, List.flatMap_nil, List.append_nil, List.nil_append, Res.ok.injEq, Prod.mk.injEq]
    constructor
    · exact fun h => h.2
    · intro h; rw [h]; exact ⟨rfl, rfl⟩
  rw [show (∀ c ∈ cs, normalize32 F sort 2 [c] [] = .ok (1, [c])) ↔ ∀ c ∈ cs, F.post (full F.map c) = [c] from
    ⟨fun h c hc => (hone c hc).mp (h c hc), fun h c hc => (hone c hc).mpr (h c hc)⟩, ← flatMap_eq_self_iff hne]
  simp only [List.nil_append, Res.ok.injEq, Prod.mk.injEq]
  constructor
  · exact fun h => h.2
  · intro h; rw [h]; exact ⟨rfl, rfl⟩

/-- Instances of both sides: NFC leaves "Å한世" alone, and not the Ångström sign. -/
example := C69_unchanged_iff .C insSort insSort_stable [0xC5, 0xD55C, 0x4E16] (by decide +kernel) 4 (by decide)
  (by decide +kernel)
example : normalize32 .C insSort 2 [0xC5] [] = .ok (1, [0xC5]) ∧ normalize32 .C insSort 2 [0x212B] [] = .ok (1, [0xC5]) := by
  decide +kernel

end U5e
