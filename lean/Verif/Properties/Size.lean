import Verif.Spec.Size
import Verif.Proofs.Size
import Verif.Proofs.SizeC
import Verif.Properties.Normalize
import Verif.Properties.NormalizeUtf8
/-!
# C70: how much longer or shorter a text gets

Bounds for the space a caller has to provide, for every text and every conforming `std::sort`. `normalize32`,
`normalize8` are the modelled filters over NUL-terminated strings (Properties/Normalize.lean).
-/
namespace U5e
open Spec

theorem Form.maxLen_eq (F : Form) : F.maxLen = growCodepoints F := by cases F <;> rfl
theorem Form.maxOct_eq (F : Form) : F.maxOct = growOctetThirds F := by cases F <;> rfl

/-- The intermediate texts fit: a bound on the input is enough for the other theorems about the forms. -/
theorem C70_intermediate (F : Form) (cs : List Int) (hb : growCodepoints F * cs.length < 2 ^ 31) :
    (cs.flatMap (full F.map)).length < 2 ^ 31 := by
  have h2 := sumOf_flatMap_le (w := fun _ => 1) (v := fun _ => 1) (f := full F.map) (p := 1) (q := F.maxLen) cs
    (fun c _ => by rw [sumOf_one]; have := (F.sizeFacts c).few; omega)
  rw [sumOf_one, sumOf_one, F.maxLen_eq] at h2
  omega

/-- C70, codepoints: a form has at most 4 (compatibility: 7) times as many codepoints as the text; a decomposition has
at least as many, a composition at least a quarter. -/
theorem C70_codepoints (F : Form) (sort : SortFn) (hs : ConformingSort sort) (cs : List Int)
    (fuel : Nat) (hf : cs.length < fuel) (hb : growCodepoints F * cs.length < 2 ^ 31) :
    ∃ ys, normalize32 F sort fuel cs [] = .ok ((ys.length : Int), ys) ∧
      ys.length ≤ growCodepoints F * cs.length ∧ cs.length ≤ shrinkCodepoints F * ys.length := by
  refine ⟨F.text sort cs, normalize32_eq F hs cs [] fuel hf (C70_intermediate F cs hb), ?_, ?_⟩
  · rw [← F.maxLen_eq]; exact F.text_len_le hs cs
  · cases F
    · have := Form.base_len_ge .D hs cs; simpa [shrinkCodepoints, Form.base] using this
    · exact Form.text_len_ge .C hs cs
    · have := Form.base_len_ge .KD hs cs; simpa [shrinkCodepoints, Form.base] using this
    · exact Form.text_len_ge .KC hs cs

/-- Instance. -/
example := C70_codepoints .KC insSort insSort_stable.1 [0x321D, 0x41, 0x301, -5] 5 (by decide) (by decide)

/-- C70, NFC with a stable sort: at most 3 times as many codepoints as the text. -/
theorem C70_nfc_stable (sort : SortFn) (hs : StableSort sort) (cs : List Int) (fuel : Nat) (hf : cs.length < fuel)
    (hb : 4 * cs.length < 2 ^ 31) :
    ∃ ys, normalize32 .C sort fuel cs [] = .ok ((ys.length : Int), ys) ∧ ys.length ≤ 3 * cs.length :=
  ⟨Form.C.text sort cs, normalize32_eq .C hs.1 cs [] fuel hf (C70_intermediate .C cs hb), nfc_text_len hs cs⟩

/-- Instance: a codepoint that decomposes to four, in a grapheme with one that decomposes to three. -/
example := C70_nfc_stable insSort insSort_stable [0x1F82, 0xCCB, 0x41] 4 (by decide) (by decide)
example : normalize32 .C insSort 4 [0x1F82, 0xCCB, 0x41] [] = .ok (6, [0x3B1, 0xCCB, 0x313, 0x300, 0x345, 0x41]) ∧
    normalize32 .D insSort 4 [0x1F82, 0xCCB, 0x41] [] =
      .ok (8, [0x3B1, 0xCC6, 0xCC2, 0xCD5, 0x313, 0x300, 0x345, 0x41]) := by decide +kernel

theorem Form.text_nat (F : Form) {sort : SortFn} (hs : ConformingSort sort) (cs : List Nat) :
    ∃ ys : List Nat, F.text sort (cs.map Int.ofNat) = ys.map Int.ofNat := by
  have h : ∀ y ∈ F.text sort (cs.map Int.ofNat), 0 ≤ y := by
    intro y hy
    refine Int.not_lt.mp fun h0 => ?_
    have e : full F.map y = [y] := by
      cases F
      · exact full_neg decResolve_neg y h0
      · exact full_neg decResolve_neg y h0
      · exact full_neg kdecResolve_neg y h0
      · exact full_neg kdecResolve_neg y h0
    have hm : y ∈ decompose F.map (F.text sort (cs.map Int.ofNat)) :=
      List.mem_flatMap.mpr ⟨y, hy, by rw [e]; simp⟩
    rw [F.decompose_text hs, F.base_text] at hm
    obtain ⟨g, hg, hm⟩ := List.mem_flatMap.mp hm
    obtain ⟨c, hc, hm⟩ := List.mem_flatMap.mp ((hs.perm _).mem_iff.mp hm)
    have hc' : c ∈ (graphemes (cs.map Int.ofNat)).flatten := List.mem_flatten.mpr ⟨g, hg, hc⟩
    rw [graphemes, segments_flatten] at hc'
    obtain ⟨n, _, rfl⟩ := List.mem_map.mp hc'
    have : ∃ l : List Nat, full F.map (Int.ofNat n) = l.map Int.ofNat := by
      cases F
      · exact ⟨_, full_nat decResolve_nat n⟩
      · exact ⟨_, full_nat decResolve_nat n⟩
      · exact ⟨_, full_nat kdecResolve_nat n⟩
      · exact ⟨_, full_nat kdecResolve_nat n⟩
    obtain ⟨l, hl⟩ := this
    rw [hl] at hm
    obtain ⟨m, _, rfl⟩ := List.mem_map.mp hm
    simp at h0; omega
  refine ⟨(F.text sort (cs.map Int.ofNat)).map Int.toNat, ?_⟩
  rw [List.map_map]
  generalize F.text sort (cs.map Int.ofNat) = ys at h
  induction ys with
  | nil => rfl
  | cons y ys ih =>
    rw [List.map_cons, ← ih (fun x hx => h x (by simp [hx]))]
    have := h y (by simp)
    congr 1
    simp only [Function.comp]
    exact (Int.toNat_of_nonneg this).symm

/-- C70, octets: the UTF-8 encoding of NFD and NFC is at most 3 times as long as that of the text, of NFKD and NFKC at
most 17/3 times; the encoding of the text is at most 3 times as long as that of a decomposition and 7/2 times as long as
that of a composition. Where the encoder gets the codepoints right (C10), this is what the UTF-8 filter appends. -/
theorem C70_octets (F : Form) (sort : SortFn) (hs : ConformingSort sort) (cs : List Nat) (hc : ∀ c ∈ cs, c < 2 ^ 31)
    (fuel : Nat) (hf : cs.length < fuel) (hb : growCodepoints F * cs.length < 2 ^ 31) (out : List UInt8) :
    ∃ ys : List Nat, normalize32 F sort fuel (cs.map Int.ofNat) [] = .ok ((ys.length : Int), ys.map Int.ofNat) ∧
      3 * (encodeText ys).length ≤ growOctetThirds F * (encodeText cs).length ∧
      2 * (encodeText cs).length ≤ shrinkOctetHalves F * (encodeText ys).length ∧
      ((∀ y ∈ ys, Encodable y) → normalize8 F sort fuel cs out = .ok ((ys.length : Int), out ++ encodeText ys)) := by
  obtain ⟨ys, hy⟩ := F.text_nat hs cs
  have hb' := C70_intermediate F (cs.map Int.ofNat) (by simpa using hb)
  have hn := normalize32_eq F hs (cs.map Int.ofNat) [] fuel (by simpa using hf) hb'
  rw [hy, List.length_map, List.nil_append] at hn
  refine ⟨ys, hn, ?_, ?_, ?_⟩
  · have := F.text_oct_le hs (cs.map Int.ofNat)
    rw [hy, sumOf_octs, sumOf_octs, F.maxOct_eq] at this
    exact this
  · have h1 := F.base_oct_ge hs (cs.map Int.ofNat)
    have h2 := F.text_oct_ge hs (cs.map Int.ofNat)
    rw [hy, sumOf_octs, sumOf_octs] at h2
    cases F
    · simp only [Form.base] at h1; rw [hy, sumOf_octs, sumOf_octs] at h1; simp only [shrinkOctetHalves]; omega
    · exact h2
    · simp only [Form.base] at h1; rw [hy, sumOf_octs, sumOf_octs] at h1; simp only [shrinkOctetHalves]; omega
    · exact h2
  · intro he
    obtain ⟨ns, h1, h2⟩ := C38_encodings_agree F sort hs cs hc fuel hf hb' out
    have e : ns = ys.map Int.ofNat := by rw [hn] at h1; simp at h1; exact h1.2.symm
    subst e
    have h3 := h2 (fun x hx => by
      obtain ⟨n, hn, rfl⟩ := List.mem_map.mp hx
      exact ⟨n, rfl, he n hn⟩)
    rw [h3, List.length_map, List.map_map]
    have : (Int.toNat ∘ Int.ofNat : Nat → Nat) = id := by funext n; rfl
    rw [this, List.map_id]

/-- Instance. -/
example := C70_octets .D insSort insSort_stable.1 [0x390, 0x41, 0x301, 0x212B] (by decide) 5 (by decide) (by decide) [7]

/-- The factors cannot be improved: the worst texts. NFC makes four codepoints of one with a sort that is only conforming
and three with a stable one. -/
theorem C70_tight_codepoints :
    -- codepoints: one becomes four (NFD), three or four (NFC), seven (NFKD, NFKC); four become one (NFC, NFKC)
    normalize32 .D insSort 2 [0x1F82] [] = .ok (4, [0x3B1, 0x313, 0x300, 0x345]) ∧
    normalize32 .C insSort 2 [0x1D1C0] [] = .ok (3, [0x1D1BA, 0x1D165, 0x1D16F]) ∧
    normalize32 .C unstableSort 2 [0x1F8E] [] = .ok (4, [0x391, 0x342, 0x313, 0x345]) ∧
    normalize32 .KD insSort 2 [0x321D] [] = .ok (7, [0x28, 0x110B, 0x1169, 0x110C, 0x1165, 0x11AB, 0x29]) ∧
    normalize32 .KC insSort 2 [0x321D] [] = .ok (7, [0x28, 0x110B, 0x1169, 0x110C, 0x1165, 0x11AB, 0x29]) ∧
    normalize32 .C insSort 5 [0x3C9, 0x314, 0x342, 0x345] [] = .ok (1, [0x1FA7]) ∧
    normalize32 .KC insSort 5 [0x3C9, 0x314, 0x342, 0x345] [] = .ok (1, [0x1FA7]) ∧
    normalize32 .KD insSort 2 [0x41] [] = .ok (1, [0x41]) := by
  decide +kernel

/-- The octets. -/
theorem C70_tight_octets :
    -- octets: 2 become 6, 4 become 12, 3 become 17, 3 become 1, 7 become 2
    normalize32 .D insSort 2 [0x390] [] = .ok (3, [0x3B9, 0x308, 0x301]) ∧
    (encodeText [0x390]).length = 2 ∧ (encodeText [0x3B9, 0x308, 0x301]).length = 6 ∧
    (encodeText [0x1D1C0]).length = 4 ∧ (encodeText [0x1D1BA, 0x1D165, 0x1D16F]).length = 12 ∧
    (encodeText [0x321D]).length = 3 ∧ (encodeText [0x28, 0x110B, 0x1169, 0x110C, 0x1165, 0x11AB, 0x29]).length = 17 ∧
    normalize32 .D insSort 2 [0x1FEF] [] = .ok (1, [0x60]) ∧ normalize32 .KD insSort 2 [0x1FEF] [] = .ok (1, [0x60]) ∧
    (encodeText [0x1FEF]).length = 3 ∧ (encodeText [0x60]).length = 1 ∧
    normalize32 .C insSort 4 [0x1FBE, 0x308, 0x301] [] = .ok (1, [0x390]) ∧
    normalize32 .KC insSort 4 [0x1FBE, 0x308, 0x301] [] = .ok (1, [0x390]) ∧
    (encodeText [0x1FBE, 0x308, 0x301]).length = 7 := by
  decide +kernel

end U5e
