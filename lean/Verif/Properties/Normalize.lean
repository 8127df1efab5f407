import Verif.Proofs.Forms
import Verif.Properties.Utf8Write
/-!
# C29–C33, C37, C38: the normalization forms

`normalizationFormD sort append I fuel ⟨b, e⟩ out` is `normalization_form_d(grapheme, output)` for the
grapheme occupying positions `b…e` of the text `I` iterates; `append32`/`append8` are the output types
utf32ne_string / utf8_string; `sort` is `std::sort`, of which only `ConformingSort` (the C++ standard's
promise) is assumed unless `StableSort` is said. `hb` hypotheses: the `int` counters do not overflow.
-/
namespace U5e
open Spec

/-- A range `g` of a utf32ne text. -/
theorem Form.run_utf32 (F : Form) {sort : SortFn} (hs : ConformingSort sort) (append : AppendFn β)
    (pre g post : List Int) (fuel : Nat) (hf : pre.length + g.length + post.length < fuel)
    (hb : (g.flatMap (full F.map)).length < 2 ^ 31) (out : β) :
    F.run sort append (utf32Iter (pre ++ g ++ post)) fuel ⟨pre.length, pre.length + g.length⟩ out =
      (append out (F.result sort g) >>= fun o => .ok (((F.result sort g).length : Int), o)) := by
  have S := sim_utf32 [] (pre ++ g ++ post) []
  simp only [List.nil_append, List.length_nil, Nat.zero_add, List.append_nil] at S
  have := F.run_sim S fuel (by simp; omega) hs append pre.length g (by simp) (by simp)
    (by rw [decompose]; omega) out
  simpa using this

/-- C29, utf32ne: for every grapheme (any codepoint sequence, anywhere in a text), every previous
output and every conforming `std::sort`, form D and form KD append a permutation of the concatenated
decompositions, ordered by combining class, and return its number of codepoints. -/
theorem C29_form_d_kd (sort : SortFn) (hs : ConformingSort sort) (pre g post out : List Int)
    (fuel : Nat) (hf : pre.length + g.length + post.length < fuel) :
    ((g.flatMap fullD).length < 2 ^ 31 →
      ∃ w, normalizationFormD sort append32 (utf32Iter (pre ++ g ++ post)) fuel
          ⟨pre.length, pre.length + g.length⟩ out = .ok ((w.length : Int), out ++ w) ∧
        w.Perm (g.flatMap fullD) ∧ CccSorted cccResolve w) ∧
    ((g.flatMap fullK).length < 2 ^ 31 →
      ∃ w, normalizationFormKD sort append32 (utf32Iter (pre ++ g ++ post)) fuel
          ⟨pre.length, pre.length + g.length⟩ out = .ok ((w.length : Int), out ++ w) ∧
        w.Perm (g.flatMap fullK) ∧ CccSorted cccResolve w) := by
  constructor
  · intro hb
    exact ⟨Form.D.result sort g, Form.D.run_utf32 hs append32 pre g post fuel hf hb out,
      hs.perm _, hs.sorted _⟩
  · intro hb
    exact ⟨Form.KD.result sort g, Form.KD.run_utf32 hs append32 pre g post fuel hf hb out,
      hs.perm _, hs.sorted _⟩

/-- Instance: "ḋ\u0323" inside a text. -/
example := (C29_form_d_kd insSort insSort_stable.1 [0x20] [0x1E0B, 0x323] [0x61] [7] 5 (by decide)).1
  (by decide +kernel)

/-- C29 for a UTF-8 grapheme `g` anywhere in a UTF-8 text, into a utf32ne string. -/
theorem C29_form_d_kd_utf8 (sort : SortFn) (hs : ConformingSort sort) (pre g post : List Nat)
    (h : ∀ c ∈ pre ++ g ++ post, c < 2 ^ 31) (out : List Int) (fuel : Nat)
    (hf : pre.length + g.length + post.length < fuel) :
    let I := utf8Iter (encodeText (pre ++ g ++ post) ++ [0])
    let G : Grapheme := ⟨(encodeText pre).length, (encodeText (pre ++ g)).length⟩
    (((g.map Int.ofNat).flatMap fullD).length < 2 ^ 31 →
      ∃ w, normalizationFormD sort append32 I fuel G out = .ok ((w.length : Int), out ++ w) ∧
        w.Perm ((g.map Int.ofNat).flatMap fullD) ∧ CccSorted cccResolve w) ∧
    (((g.map Int.ofNat).flatMap fullK).length < 2 ^ 31 →
      ∃ w, normalizationFormKD sort append32 I fuel G out = .ok ((w.length : Int), out ++ w) ∧
        w.Perm ((g.map Int.ofNat).flatMap fullK) ∧ CccSorted cccResolve w) := by
  intro I G
  obtain ⟨S, _⟩ := sim_encodeText (pre ++ g ++ post) h [] 0 (by decide) []
  have e3 : [] ++ encodeText (pre ++ g ++ post) ++ (encode 0 ++ []) =
    encodeText (pre ++ g ++ post) ++ [0] := by simp [encode]
  rw [e3] at S
  have key : ∀ F : Form, ((g.map Int.ofNat).flatMap (full F.map)).length < 2 ^ 31 →
      F.run sort append32 I fuel G out =
        .ok (((F.result sort (g.map Int.ofNat)).length : Int), out ++ F.result sort (g.map Int.ofNat)) := by
    intro F hb
    have := F.run_sim S fuel (by simp; omega) hs append32 pre.length (g.map Int.ofNat) (by simp)
      (by simp) (by rw [decompose]; omega) out
    rw [List.length_map, upos_encode, upos_encode, List.length_nil, Nat.zero_add, Nat.zero_add,
      List.append_assoc, List.take_left, ← List.append_assoc, ← List.length_append, List.take_left] at this
    rw [List.append_assoc] at this
    have e4 : I = utf8Iter (encodeText (pre ++ (g ++ post)) ++ [0]) := by
      simp only [I, List.append_assoc]
    rw [e4]; exact this
  exact ⟨fun hb => ⟨_, key .D hb, hs.perm _, hs.sorted _⟩, fun hb => ⟨_, key .KD hb, hs.perm _, hs.sorted _⟩⟩

/-- Instance: the same in UTF-8. -/
example := (C29_form_d_kd_utf8 insSort insSort_stable.1 [0x20] [0x1E0B, 0x323] [0x61] (by decide) [7] 5
  (by decide)).1 (by decide +kernel)

/-- Non-vacuity: a conforming (even stable) sort exists, and "ḋ" + cedilla is really reordered. -/
example : StableSort insSort ∧ ConformingSort insSort := ⟨insSort_stable, insSort_stable.1⟩
example : normalizationFormD insSort append32 (utf32Iter ([0x20] ++ [0x1E0B, 0x323] ++ [0])) 9 ⟨1, 3⟩ [7] =
    .ok (3, [7, 0x64, 0x323, 0x307]) := by decide +kernel

/-- C30: `canonical_composition` on any string: it terminates, never reads or writes outside the
string (`.ok`), keeps the string's length, the codepoints in front of the returned iterator are the
greedy left-to-right composition of the ORIGINAL string (so no unread input was overwritten), and
kept codepoints + reported compositions = original length. -/
theorem C30_in_place_composition (data : List Int) (fuel : Nat) (hf : data.length < fuel)
    (hb : data.length < 2 ^ 31) :
    ∃ data' oi k, canonicalComposition fuel data 0 = .ok (data', oi, k) ∧
      data'.length = data.length ∧ oi ≤ data.length ∧ (oi : Int) + k = data.length ∧ 0 ≤ k ∧
      data'.take oi = compose compResolve data := by
  obtain ⟨d, h1, h2, h3⟩ := canonicalComposition_eq fuel data 0 hf (by omega) (by omega)
  have := compose_length_le compResolve data
  exact ⟨d, _, _, h1, h3, this, by omega, by omega, h2⟩

/-- Instance: "ṩa" decomposed. -/
example := C30_in_place_composition [0x73, 0x323, 0x307, 0x61] 5 (by decide) (by decide)

/-- C30: the counter is added to the caller's value. -/
theorem C30_count_accumulates (data : List Int) (fuel : Nat) (hf : data.length < fuel) (count : Int)
    (hc : 0 ≤ count) (hb : count + data.length < 2 ^ 31) :
    ∃ data' oi k, canonicalComposition fuel data 0 = .ok (data', oi, k) ∧
      canonicalComposition fuel data count = .ok (data', oi, count + k) := by
  have key : ∀ (fuel : Nat) (data : List Int) (oi in_ : Nat) (k0 k : Int) (d : List Int) (o : Nat),
      compositionLoop fuel data oi in_ k0 = .ok (d, o, k) → k0 + count + data.length < 2 ^ 31 + in_ →
      in_ ≤ data.length → 0 ≤ k0 →
      compositionLoop fuel data oi in_ (k0 + count) = .ok (d, o, k + count) := by
    intro fuel
    induction fuel with
    | zero => intro _ _ _ _ _ _ _ h; simp [compositionLoop] at h
    | succ f ih =>
      intro data oi in_ k0 k d o h hb hle h0
      rw [compositionLoop] at h ⊢
      split at h
      · next he => rw [if_pos he]; simp at h ⊢; simp [h.1, h.2.1, h.2.2]
      · next he =>
        rw [if_neg he]
        cases hr : rd32 data in_ with
        | ub => rw [hr] at h; simp at h
        | tmo => rw [hr] at h; simp at h
        | ok a =>
          rw [hr, Res.bind_ok] at h
          rw [Res.bind_ok]
          split at h
          · next he2 =>
            rw [if_pos he2]
            by_cases hw : oi < data.length
            · rw [wr32_ok hw, Res.bind_ok] at h
              rw [wr32_ok hw, Res.bind_ok]
              exact ih _ _ _ _ _ _ _ h (by rw [List.length_set]; omega) (by rw [List.length_set]; omega) h0
            · rw [wr32, if_neg hw] at h; simp at h
          · next he2 =>
            rw [if_neg he2]
            cases hr2 : rd32 data (in_ + 1) with
            | ub => rw [hr2] at h; simp at h
            | tmo => rw [hr2] at h; simp at h
            | ok b =>
              rw [hr2, Res.bind_ok] at h
              rw [Res.bind_ok]
              cases hcr : compResolve a b with
              | some c =>
                simp only [hcr] at h ⊢
                by_cases hw : in_ + 1 < data.length
                · rw [wr32_ok hw, Res.bind_ok, addInt_ok (by omega) (by omega), Res.bind_ok] at h
                  rw [wr32_ok hw, Res.bind_ok, addInt_ok (by omega) (by omega), Res.bind_ok,
                    show k0 + count + 1 = k0 + 1 + count by omega]
                  exact ih _ _ _ _ _ _ _ h (by rw [List.length_set]; omega)
                    (by rw [List.length_set]; omega) (by omega)
                · rw [wr32, if_neg hw] at h; simp at h
              | none =>
                simp only [hcr] at h ⊢
                by_cases hw : oi < data.length
                · rw [wr32_ok hw, Res.bind_ok] at h
                  rw [wr32_ok hw, Res.bind_ok]
                  exact ih _ _ _ _ _ _ _ h (by rw [List.length_set]; omega)
                    (by rw [List.length_set]; omega) h0
                · rw [wr32, if_neg hw] at h; simp at h
  obtain ⟨d, h1, _⟩ := canonicalComposition_eq fuel data 0 hf (by omega) (by omega)
  refine ⟨d, _, _, h1, ?_⟩
  have := key fuel data 0 0 0 _ _ _ h1 (by omega) (by omega) (by omega)
  rw [Int.zero_add] at this
  rw [canonicalComposition, this, Int.add_comm count]

/-- Instance: the same with 5 counted before. -/
example := C30_count_accumulates [0x73, 0x323, 0x307, 0x61] 5 (by decide) 5 (by decide) (by decide)

/-- C31: after `canonical_composition` no two neighbours compose; composing the result again keeps
every codepoint and reports 0. -/
theorem C31_nothing_left_to_compose (data : List Int) (fuel : Nat) (hf : data.length < fuel)
    (hb : data.length < 2 ^ 31) :
    ∃ data' oi k, canonicalComposition fuel data 0 = .ok (data', oi, k) ∧
      (∀ p a b q, data'.take oi = p ++ a :: b :: q → compResolve a b = none) ∧
      ∀ fuel', oi < fuel' → ∃ again, canonicalComposition fuel' (data'.take oi) 0 = .ok (again, oi, 0) ∧
        again = data'.take oi := by
  obtain ⟨d, h1, h2, h3⟩ := canonicalComposition_eq fuel data 0 hf (by omega) (by omega)
  have hle := compose_length_le compResolve data
  have hu := compose_uncomposable data
  refine ⟨d, _, _, h1, ?_, ?_⟩
  · rw [h2]; exact adj_iff.mp hu
  · intro fuel' hf'
    rw [h2]
    obtain ⟨d2, g1, g2, g3⟩ := canonicalComposition_eq fuel' (compose compResolve data) 0 hf' (by omega)
      (by omega)
    rw [compose_id hu] at g1 g2
    refine ⟨d2, ?_, ?_⟩
    · rw [g1]; congr 3; omega
    · rw [← g3, List.take_length] at g2; exact g2

/-- Instance. -/
example := C31_nothing_left_to_compose [0x73, 0x323, 0x307, 0x61] 5 (by decide) (by decide)

/-- Non-vacuity: s + dot below + dot above composes twice. -/
example : canonicalComposition 9 [0x73, 0x323, 0x307, 0x61] 0 = .ok ([0x1E69, 0x61, 0x1E69, 0x61], 2, 2) := by
  decide +kernel

/-- C32: decomposing what `canonical_composition` kept gives the same codepoints as decomposing its
input, in both tables. -/
theorem C32_composition_preserves_decomposition (data : List Int) (fuel : Nat) (hf : data.length < fuel)
    (hb : data.length < 2 ^ 31) :
    ∃ data' oi k, canonicalComposition fuel data 0 = .ok (data', oi, k) ∧
      (data'.take oi).flatMap fullD = data.flatMap fullD ∧
      (data'.take oi).flatMap fullK = data.flatMap fullK := by
  obtain ⟨d, h1, h2, h3⟩ := canonicalComposition_eq fuel data 0 hf (by omega) (by omega)
  refine ⟨d, _, _, h1, ?_, ?_⟩
  · rw [h2]; exact decompose_compose (fun a b c h => (comp_facts h).full) data
  · rw [h2]; exact decompose_compose (fun a b c h => comp_fullK h) data

/-- Instance. -/
example := C32_composition_preserves_decomposition [0x73, 0x323, 0x307, 0x61] 5 (by decide) (by decide)

/-- C32: the canonical decomposition of a grapheme's NFC is exactly its NFD (for whatever order the
given `sort` chose), and the compatibility decomposition of its NFKC is its NFKD. -/
theorem C32_nfc_decomposes_to_nfd (sort : SortFn) (hs : ConformingSort sort) (pre g post out : List Int)
    (fuel : Nat) (hf : pre.length + g.length + post.length < fuel) :
    let I := utf32Iter (pre ++ g ++ post)
    let G : Grapheme := ⟨pre.length, pre.length + g.length⟩
    ((g.flatMap fullD).length < 2 ^ 31 →
      ∃ c d, normalizationFormC sort append32 I fuel G out = .ok ((c.length : Int), out ++ c) ∧
        normalizationFormD sort append32 I fuel G out = .ok ((d.length : Int), out ++ d) ∧
        c.flatMap fullD = d) ∧
    ((g.flatMap fullK).length < 2 ^ 31 →
      ∃ c d, normalizationFormKC sort append32 I fuel G out = .ok ((c.length : Int), out ++ c) ∧
        normalizationFormKD sort append32 I fuel G out = .ok ((d.length : Int), out ++ d) ∧
        c.flatMap fullK = d) := by
  intro I G
  constructor
  · intro hb
    exact ⟨_, _, Form.C.run_utf32 hs append32 pre g post fuel hf hb out,
      Form.D.run_utf32 hs append32 pre g post fuel hf hb out, Form.C.decompose_result hs g⟩
  · intro hb
    exact ⟨_, _, Form.KC.run_utf32 hs append32 pre g post fuel hf hb out,
      Form.KD.run_utf32 hs append32 pre g post fuel hf hb out, Form.KC.decompose_result hs g⟩

/-- Instance: "ḋ\u0323" inside a text. -/
example := (C32_nfc_decomposes_to_nfd insSort insSort_stable.1 [0x20] [0x1E0B, 0x323] [0x61] [7] 5 (by decide)).1
  (by decide +kernel)

/-- C33: form C and form KC append, for every grapheme and conforming sort, the greedy composition of
the ordered decomposition, leave the previous output alone, and return the number of codepoints
appended. -/
theorem C33_form_c_kc (sort : SortFn) (hs : ConformingSort sort) (pre g post out : List Int)
    (fuel : Nat) (hf : pre.length + g.length + post.length < fuel) :
    let I := utf32Iter (pre ++ g ++ post)
    let G : Grapheme := ⟨pre.length, pre.length + g.length⟩
    ((g.flatMap fullD).length < 2 ^ 31 →
      ∃ c d, normalizationFormC sort append32 I fuel G out = .ok ((c.length : Int), out ++ c) ∧
        c = compose compResolve d ∧ d.Perm (g.flatMap fullD) ∧ CccSorted cccResolve d) ∧
    ((g.flatMap fullK).length < 2 ^ 31 →
      ∃ c d, normalizationFormKC sort append32 I fuel G out = .ok ((c.length : Int), out ++ c) ∧
        c = compose compResolve d ∧ d.Perm (g.flatMap fullK) ∧ CccSorted cccResolve d) := by
  intro I G
  constructor
  · intro hb
    exact ⟨_, _, Form.C.run_utf32 hs append32 pre g post fuel hf hb out, rfl, hs.perm _, hs.sorted _⟩
  · intro hb
    exact ⟨_, _, Form.KC.run_utf32 hs append32 pre g post fuel hf hb out, rfl, hs.perm _, hs.sorted _⟩

/-- Instance: "ḋ\u0323" inside a text. -/
example := (C33_form_c_kc insSort insSort_stable.1 [0x20] [0x1E0B, 0x323] [0x61] [7] 5 (by decide)).2
  (by decide +kernel)

/-- Normalizing a whole NUL-terminated utf32ne string into a utf32ne string. -/
def normalize32 (F : Form) (sort : SortFn) (fuel : Nat) (cs out : List Int) : Res (Int × List Int) :=
  normalizeText (F.run sort append32) (utf32Iter (cs ++ [0])) fuel 0 cs.length out

/-- Normalizing a whole NUL-terminated UTF-8 string holding the codepoints `cs` into a UTF-8 string. -/
def normalize8 (F : Form) (sort : SortFn) (fuel : Nat) (cs : List Nat) (out : List UInt8) :
    Res (Int × List UInt8) :=
  normalizeText (F.run sort append8) (utf8Iter (encodeText cs ++ [0])) fuel 0 (encodeText cs).length out

theorem normalize32_eq (F : Form) {sort : SortFn} (hs : ConformingSort sort) (cs out : List Int)
    (fuel : Nat) (hf : cs.length < fuel) (hb : (cs.flatMap (full F.map)).length < 2 ^ 31) :
    normalize32 F sort fuel cs out = .ok (((F.text sort cs).length : Int), out ++ F.text sort cs) := by
  have S := sim_utf32 [] cs [0]
  have hz := sim_utf32_end [] cs 0 []
  have := F.text_sim S fuel hf 0 hz (fun a _ => brk_zero a) hs append32 id
    (fun g _ o => rfl) (by rw [decompose]; omega) out
  simp only [List.nil_append, List.length_nil, Nat.zero_add, id] at this
  exact this

/-- C29 + C33 for whole texts, all four forms: the returned count is the number of codepoints
appended, and the appended text is the concatenation of the normalized graphemes. -/
theorem C29_C33_text (F : Form) (sort : SortFn) (hs : ConformingSort sort) (cs out : List Int)
    (gs : List (List Int)) (hgs : IsSegmentation Breaks cs gs) (fuel : Nat) (hf : cs.length < fuel)
    (hb : (cs.flatMap (full F.map)).length < 2 ^ 31) :
    ∃ ws : List (List Int),
      normalize32 F sort fuel cs out = .ok ((ws.flatten.length : Int), out ++ ws.flatten) ∧
      ws.length = gs.length ∧
      ∀ k (h1 : k < gs.length) (h2 : k < ws.length), ∃ d, d.Perm (gs[k].flatMap (full F.map)) ∧
        CccSorted cccResolve d ∧
        ws[k] = (if F = .D ∨ F = .KD then d else compose compResolve d) := by
  obtain rfl := segments_unique hgs
  refine ⟨(graphemes cs).map (F.result sort), ?_, by simp, ?_⟩
  · rw [normalize32_eq F hs cs out fuel hf hb, ← List.flatMap_def]; rfl
  · intro k h1 h2
    refine ⟨_, hs.perm _, hs.sorted _, ?_⟩
    rw [List.getElem_map]
    cases F <;> rfl

/-- Instance: a text of three graphemes. -/
example := C29_C33_text .KC insSort insSort_stable.1 [0x65, 0x301, 0x323, 0x20, 0xFB01] [1]
  [[0x65, 0x301, 0x323], [0x20], [0xFB01]] (segmentation_of (by decide +kernel)) 6 (by decide) (by decide +kernel)

/-- The output of every form is ordered inside each grapheme; here on "e\u0301\u0323 ﬁ". -/
example : normalize32 .KC insSort 9 [0x65, 0x301, 0x323, 0x20, 0xFB01] [1] =
    .ok (5, [1, 0x1EB9, 0x301, 0x20, 0x66, 0x69]) := by decide +kernel

/-- C37 for stable sorts: codepoints of equal combining class keep their relative order: for each
class, the subsequence of its codepoints in the NFD (NFKD) of a grapheme is that of the decomposition. -/
theorem C37_equal_class_order (sort : SortFn) (hs : StableSort sort) (pre g post out : List Int)
    (fuel : Nat) (hf : pre.length + g.length + post.length < fuel)
    (hb : (g.flatMap fullD).length < 2 ^ 31) (hbk : (g.flatMap fullK).length < 2 ^ 31) :
    let I := utf32Iter (pre ++ g ++ post)
    let G : Grapheme := ⟨pre.length, pre.length + g.length⟩
    ∃ d kd, normalizationFormD sort append32 I fuel G out = .ok ((d.length : Int), out ++ d) ∧
      normalizationFormKD sort append32 I fuel G out = .ok ((kd.length : Int), out ++ kd) ∧
      ∀ k, d.filter (fun y => cccResolve y == k) = (g.flatMap fullD).filter (fun y => cccResolve y == k) ∧
        kd.filter (fun y => cccResolve y == k) = (g.flatMap fullK).filter (fun y => cccResolve y == k) := by
  intro I G
  exact ⟨_, _, Form.D.run_utf32 hs.1 append32 pre g post fuel hf hb out,
    Form.KD.run_utf32 hs.1 append32 pre g post fuel hf hbk out,
    fun k => ⟨stable_filter hs _ k, stable_filter hs _ k⟩⟩

/-- Instance: two marks of the same class and one of another. -/
example := C37_equal_class_order insSort insSort_stable [0x20] [0x62, 0x301, 0x323, 0x300] [0x61] [7] 7 (by decide)
  (by decide +kernel) (by decide +kernel)

/-- C37 is not guaranteed by the code: with a `sort` that meets the C++ standard's requirements on
`std::sort`, two acutes/graves of the same class are swapped, in every form. -/
theorem C37_not_guaranteed : ConformingSort unstableSort ∧
    normalizationFormD unstableSort append32 (utf32Iter [0x62, 0x301, 0x300, 0]) 5 ⟨0, 3⟩ [] =
      .ok (3, [0x62, 0x300, 0x301]) ∧ cccResolve 0x300 = cccResolve 0x301 ∧
    normalizationFormC unstableSort append32 (utf32Iter [0x62, 0x301, 0x300, 0]) 5 ⟨0, 3⟩ [] =
      .ok (3, [0x62, 0x300, 0x301]) :=
  ⟨unstableSort_conforming, by decide +kernel, by decide +kernel, by decide +kernel⟩

/-- C37, exact: on any list the sort step keeps equal classes in order exactly when it gives the
result of the (unique) stable sort. -/
theorem C37_exact (sort : SortFn) (hs : ConformingSort sort) (l : List Int) :
    (∀ k, (sort canonicalCombiningOrder l).filter (fun y => cccResolve y == k) =
      l.filter (fun y => cccResolve y == k)) ↔
    sort canonicalCombiningOrder l = insSort canonicalCombiningOrder l := by
  constructor
  · intro h
    exact sorted_ext cccResolve (hs.sorted l) (insSort_stable.1.sorted l)
      (fun k => by rw [h, stable_filter insSort_stable])
  · intro h k; rw [h, stable_filter insSort_stable]

/-- Instance: the sort of `C37_not_guaranteed`. -/
example := C37_exact unstableSort C37_not_guaranteed.1 [0x62, 0x301, 0x300]

theorem Form.text_congr_sort (F : Form) {sort sort' : SortFn} (cs : List Int)
    (h : ∀ g ∈ graphemes cs, sort canonicalCombiningOrder (decompose F.map g) =
      sort' canonicalCombiningOrder (decompose F.map g)) : F.text sort cs = F.text sort' cs := by
  rw [Form.text, Form.text, List.flatMap_def, List.flatMap_def]
  congr 1
  exact List.map_congr_left fun g hg => by rw [Form.result, Form.result, h g hg]

/-- C37 for whole texts, all forms, EVERY conforming sort: if inside each grapheme different codepoints
of the decomposition have different combining classes, the result does not depend on the sort
implementation (it is that of a stable sort). -/
theorem C37_distinct_classes (F : Form) (sort : SortFn) (hs : ConformingSort sort) (cs out : List Int)
    (gs : List (List Int)) (hgs : IsSegmentation Breaks cs gs)
    (hd : ∀ g ∈ gs, ∀ x ∈ g.flatMap (full F.map), ∀ y ∈ g.flatMap (full F.map),
      cccResolve x = cccResolve y → x = y)
    (fuel : Nat) (hf : cs.length < fuel) (hb : (cs.flatMap (full F.map)).length < 2 ^ 31) :
    normalize32 F sort fuel cs out = normalize32 F insSort fuel cs out := by
  obtain rfl := segments_unique hgs
  rw [normalize32_eq F hs cs out fuel hf hb, normalize32_eq F insSort_stable.1 cs out fuel hf hb,
    F.text_congr_sort (sort' := insSort) cs]
  intro g hg
  have hd := hd g hg
  rw [show g.flatMap (full F.map) = decompose F.map g from rfl] at hd
  refine sorted_ext cccResolve (hs.sorted _) (insSort_stable.1.sorted _) fun k => ?_
  have hp : ((sort canonicalCombiningOrder (decompose F.map g)).filter (fun y => cccResolve y == k)).Perm
      ((insSort canonicalCombiningOrder (decompose F.map g)).filter (fun y => cccResolve y == k)) :=
    ((hs.perm _).trans (insSort_stable.1.perm _).symm).filter _
  have hall : ∀ x ∈ (sort canonicalCombiningOrder (decompose F.map g)).filter
      (fun y => cccResolve y == k), ∀ y ∈ (insSort canonicalCombiningOrder (decompose F.map g)).filter
      (fun y => cccResolve y == k), x = y := by
    intro x hx y hy
    rw [List.mem_filter] at hx hy
    refine hd x ((hs.perm _).mem_iff.mp hx.1) y ((insSort_stable.1.perm _).mem_iff.mp hy.1) ?_
    have h1 := hx.2; have h2 := hy.2
    simp at h1 h2; rw [h1, h2]
  generalize (sort canonicalCombiningOrder (decompose F.map g)).filter _ = a at hp hall
  generalize (insSort canonicalCombiningOrder (decompose F.map g)).filter _ = b at hp hall
  have hlen := hp.length_eq
  clear hp
  induction a generalizing b with
  | nil => cases b with
    | nil => rfl
    | cons => simp at hlen
  | cons x a ih =>
    cases b with
    | nil => simp at hlen
    | cons y b =>
      rw [hall x (by simp) y (by simp), ih b (fun u hu v hv => hall u (by simp [hu]) v (by simp [hv]))
        (by simpa using hlen)]

/-- Instance: an unstable sort on marks of different classes. -/
example := C37_distinct_classes .C unstableSort C37_not_guaranteed.1 [0x65, 0x301, 0x323, 0x61] []
  [[0x65, 0x301, 0x323], [0x61]] (segmentation_of (by decide +kernel)) (by decide +kernel) 5 (by decide)
  (by decide +kernel)

/-- A conforming sort that is stable on ranges of at most `n` elements. (libstdc++'s `std::sort` is an
insertion sort up to 16 elements.) -/
def StableUpTo (n : Nat) (sort : SortFn) : Prop :=
  ConformingSort sort ∧ ∀ lt, StrictWeak lt → ∀ l : List Int, l.length ≤ n → ∀ x,
    (sort lt l).filter (fun y => !lt x y && !lt y x) = l.filter (fun y => !lt x y && !lt y x)

/-- C37 for whole texts: with a sort that is stable only on short ranges, texts whose graphemes decompose
to no more codepoints than that are normalized as with a stable sort - so for such texts everything
proved under `StableSort` (C34, C35, C36, C45, C46) holds of a real `std::sort`. -/
theorem C37_short_graphemes (F : Form) (n : Nat) (sort : SortFn) (hs : StableUpTo n sort)
    (cs out : List Int) (gs : List (List Int)) (hgs : IsSegmentation Breaks cs gs)
    (hshort : ∀ g ∈ gs, (g.flatMap (full F.map)).length ≤ n)
    (fuel : Nat) (hf : cs.length < fuel) (hb : (cs.flatMap (full F.map)).length < 2 ^ 31) :
    normalize32 F sort fuel cs out = normalize32 F insSort fuel cs out := by
  obtain rfl := segments_unique hgs
  rw [normalize32_eq F hs.1 cs out fuel hf hb, normalize32_eq F insSort_stable.1 cs out fuel hf hb,
    F.text_congr_sort (sort' := insSort) cs]
  intro g hg
  -- replace `sort` by one that is stable everywhere
  let s' : SortFn := fun lt l => if l.length ≤ n then sort lt l else insSort lt l
  have hs' : StableSort s' := by
    refine ⟨fun lt hlt l => ?_, fun lt hlt l x => ?_⟩
    · by_cases hl : l.length ≤ n
      · simp only [s', hl, if_true]; exact hs.1 lt hlt l
      · simp only [s', hl, if_false]; exact insSort_stable.1 lt hlt l
    · by_cases hl : l.length ≤ n
      · simp only [s', hl, if_true]; exact hs.2 lt hlt l hl x
      · simp only [s', hl, if_false]; exact insSort_stable.2 lt hlt l x
  have e : s' canonicalCombiningOrder (decompose F.map g) =
      sort canonicalCombiningOrder (decompose F.map g) := by
    simp only [s', show (decompose F.map g).length ≤ n from hshort g hg, if_true]
  rw [← e]
  exact sorted_ext cccResolve (hs'.1.sorted _) (insSort_stable.1.sorted _)
    (fun k => by rw [stable_filter hs', stable_filter insSort_stable])

/-- Instance: a sort that is stable up to 16 elements. -/
example := C37_short_graphemes .C 16 insSort ⟨insSort_stable.1, fun lt hlt l _ x => insSort_stable.2 lt hlt l x⟩
  [0x62, 0x301, 0x300, 0x61] [] [[0x62, 0x301, 0x300], [0x61]] (segmentation_of (by decide +kernel))
  (by decide +kernel) 5 (by decide) (by decide +kernel)

/-- Non-vacuity of the three C37 hypotheses. -/
example : StableUpTo 16 insSort ∧ StableSort insSort ∧
    ∀ x ∈ [0x62, 0x301, 0x323], ∀ y ∈ [0x62, 0x301, (0x323 : Int)],
      cccResolve x = cccResolve y → x = y :=
  ⟨⟨insSort_stable.1, fun lt hlt l _ x => insSort_stable.2 lt hlt l x⟩, insSort_stable,
    by decide +kernel⟩

/-- Encoding of the produced codepoints. -/
theorem append8_encodable (out : List UInt8) (l : List Int)
    (h : ∀ x ∈ l, ∃ n : Nat, x = (n : Int) ∧ Encodable n) :
    append8 out l = .ok (out ++ encodeText (l.map Int.toNat)) := by
  have e : l.map (BitVec.ofInt 32) = (l.map Int.toNat).map (BitVec.ofNat 32) := by
    rw [List.map_map]
    refine List.map_congr_left fun x hx => ?_
    obtain ⟨n, rfl, _⟩ := h x hx
    simp
  rw [append8, e, C10_append]
  intro c hc
  obtain ⟨x, hx, rfl⟩ := List.mem_map.mp hc
  obtain ⟨n, rfl, hn⟩ := h x hx
  simpa using hn

theorem encodeText_flatMap (gs : List (List Int)) (f : List Int → List Int) :
    gs.flatMap (fun g => encodeText ((f g).map Int.toNat)) =
      encodeText ((gs.flatMap f).map Int.toNat) := by
  induction gs with
  | nil => rfl
  | cons g gs ih =>
    rw [List.flatMap_cons, List.flatMap_cons, ih, List.map_append]
    simp only [encodeText, List.flatMap_append]

/-- C38: for every codepoint sequence, all four forms and every conforming sort: normalizing the
UTF-8 string into a UTF-8 string gives the UTF-8 encoding of the utf32ne normalization, with the same
count, whenever the produced codepoints are in the set u5e's encoder handles (C10). -/
theorem C38_encodings_agree (F : Form) (sort : SortFn) (hs : ConformingSort sort) (cs : List Nat)
    (h : ∀ c ∈ cs, c < 2 ^ 31) (fuel : Nat) (hf : cs.length < fuel)
    (hb : ((cs.map Int.ofNat).flatMap (full F.map)).length < 2 ^ 31) (out : List UInt8) :
    ∃ ns : List Int, normalize32 F sort fuel (cs.map Int.ofNat) [] = .ok ((ns.length : Int), ns) ∧
      ((∀ x ∈ ns, ∃ n : Nat, x = (n : Int) ∧ Encodable n) →
        normalize8 F sort fuel cs out = .ok ((ns.length : Int), out ++ encodeText (ns.map Int.toNat))) := by
  refine ⟨F.text sort (cs.map Int.ofNat), ?_, ?_⟩
  · rw [normalize32_eq F hs _ [] fuel (by simpa) hb]; rfl
  · intro henc
    obtain ⟨S, hend⟩ := sim_encodeText cs h [] 0 (by decide) []
    have e3 : [] ++ encodeText cs ++ (encode 0 ++ []) = encodeText cs ++ [0] := by simp [encode]
    rw [e3] at S hend
    have := F.text_sim S fuel (by simpa) 0 (by simpa using hend) (fun a _ => brk_zero a) hs append8
      (fun l => encodeText (l.map Int.toNat))
      (fun g hg o => append8_encodable o _ fun x hx => henc x (by
        rw [Form.text]; exact List.mem_flatMap.mpr ⟨g, hg, hx⟩))
      (by rw [decompose]; omega) out
    rw [List.length_map, List.length_nil, upos_zero, upos_encode_end, Nat.zero_add] at this
    rw [normalize8, this, encodeText_flatMap]; rfl

/-- Instance: "ü" decomposed and U+212B. -/
example := C38_encodings_agree .C insSort insSort_stable.1 [0x75, 0x308, 0x212B] (by decide) 4 (by decide)
  (by decide +kernel) [0x41]

/-- Non-vacuity: a German and a compatibility text, whose results are encodable. -/
example : normalize8 .C insSort 9 [0x75, 0x308, 0x212B] [0x41] = .ok (2, [0x41] ++ encodeText [0xFC, 0xC5]) ∧
    normalize32 .C insSort 9 [0x75, 0x308, 0x212B] [] = .ok (2, [0xFC, 0xC5]) := by decide +kernel

/-- The restriction is needed: NFC of Devanagari "क" (no change) is corrupted in UTF-8. -/
theorem C38_restriction_needed : normalize32 .C insSort 3 [0x915] [] = .ok (1, [0x915]) ∧
    normalize8 .C insSort 3 [0x915] [] = .ok (1, [0xE4, 0x95, 0x00]) ∧
    encodeText [0x915] = [0xE0, 0xA4, 0x95] := by decide +kernel

/-- C29 with a `utf8_string` as the output (append_from_utf32ne.hpp): for every grapheme delimited in
either encoding, previous content of the output and conforming sort, the octets added after the
previous content are the UTF-8 encoding of a permutation of the full decomposition that is in
canonical order, when the decomposition is in the set the encoder handles (C10). -/
theorem C29_form_d_kd_into_utf8 (sort : SortFn) (hs : ConformingSort sort) (pre g post : List Int)
    (out : List UInt8) (fuel : Nat) (hf : pre.length + g.length + post.length < fuel) :
    let I := utf32Iter (pre ++ g ++ post)
    let G : Grapheme := ⟨pre.length, pre.length + g.length⟩
    ((g.flatMap fullD).length < 2 ^ 31 →
      (∀ x ∈ g.flatMap fullD, ∃ n : Nat, x = (n : Int) ∧ Encodable n) →
      ∃ w : List Nat, normalizationFormD sort append8 I fuel G out =
          .ok ((w.length : Int), out ++ encodeText w) ∧
        (w.map Int.ofNat).Perm (g.flatMap fullD) ∧ CccSorted cccResolve (w.map Int.ofNat)) ∧
    ((g.flatMap fullK).length < 2 ^ 31 →
      (∀ x ∈ g.flatMap fullK, ∃ n : Nat, x = (n : Int) ∧ Encodable n) →
      ∃ w : List Nat, normalizationFormKD sort append8 I fuel G out =
          .ok ((w.length : Int), out ++ encodeText w) ∧
        (w.map Int.ofNat).Perm (g.flatMap fullK) ∧ CccSorted cccResolve (w.map Int.ofNat)) := by
  intro I G
  have fin : ∀ (l : List Int) (r : List Int), r.Perm l →
      (∀ x ∈ l, ∃ n : Nat, x = (n : Int) ∧ Encodable n) →
      append8 out r = .ok (out ++ encodeText (r.map Int.toNat)) ∧
        (r.map Int.toNat).map Int.ofNat = r := by
    intro l r hp he
    have he' : ∀ x ∈ r, ∃ n : Nat, x = (n : Int) ∧ Encodable n := fun x hx => he x (hp.mem_iff.mp hx)
    refine ⟨append8_encodable out r he', ?_⟩
    rw [List.map_map]
    conv => rhs; rw [← List.map_id r]
    refine List.map_congr_left fun x hx => ?_
    obtain ⟨n, rfl, _⟩ := he' x hx
    simp
  have S := sim_utf32 [] (pre ++ g ++ post) []
  simp only [List.nil_append, List.append_nil] at S
  have key : ∀ F : Form, (g.flatMap (full F.map)).length < 2 ^ 31 →
      F.run sort append8 I fuel G out =
        append8 out (F.result sort g) >>= fun o => .ok (((F.result sort g).length : Int), o) := by
    intro F hb
    have := F.run_sim S fuel (by simp; omega) hs append8 pre.length g (by simp)
      (by simp) (by rw [decompose]; omega) out
    simpa [I, G] using this
  refine ⟨fun hb he => ?_, fun hb he => ?_⟩
  · obtain ⟨h1, h2⟩ := fin _ (Form.D.result sort g) (hs.perm _) he
    refine ⟨(Form.D.result sort g).map Int.toNat, ?_, ?_, ?_⟩
    · rw [show normalizationFormD sort append8 I fuel G out = Form.D.run sort append8 I fuel G out from rfl,
        key .D hb, h1, Res.bind_ok, List.length_map]
    · rw [h2]; exact hs.perm _
    · rw [h2]; exact hs.sorted _
  · obtain ⟨h1, h2⟩ := fin _ (Form.KD.result sort g) (hs.perm _) he
    refine ⟨(Form.KD.result sort g).map Int.toNat, ?_, ?_, ?_⟩
    · rw [show normalizationFormKD sort append8 I fuel G out = Form.KD.run sort append8 I fuel G out from rfl,
        key .KD hb, h1, Res.bind_ok, List.length_map]
    · rw [h2]; exact hs.perm _
    · rw [h2]; exact hs.sorted _

/-- Non-vacuity: "ḋ" + dot below, appended to a string that already holds "A". -/
example : normalizationFormD insSort append8 (utf32Iter ([0x20] ++ [0x1E0B, 0x323] ++ [0])) 9 ⟨1, 3⟩ [0x41] =
    .ok (3, [0x41] ++ encodeText [0x64, 0x323, 0x307]) ∧
    ([0x1E0B, 0x323].flatMap fullD) = [0x64, 0x307, 0x323] := by decide +kernel

end U5e
