import Verif.Properties.GraphemeAt
/-! # C49: truncating a string on a grapheme boundary (examples/truncate_on_grapheme.cpp) -/
namespace U5e
open Spec

/-- C49 for utf32ne strings. `output.append(grapheme_begin, gi)`, `gi` built at codepoint `i` of the
grapheme `g`: the result is always a prefix of the text, no longer than the requested size; it is the
text truncated at the start of `g` exactly when `i` is the first codepoint of `g`, or the backward scan
of `gi` stops there. -/
theorem C49_truncate_utf32 (cs out : List Int) (fuel : Nat) (hf : cs.length < fuel)
    (p q : List (List Int)) (g : List Int) (hgs : IsSegmentation Breaks cs (p ++ g :: q)) (i : Nat)
    (hi : i < g.length) :
    let I := utf32Iter (cs ++ [0])
    ∃ gb gi n, graphemeBegin I fuel 0 cs.length = .ok gb ∧
      gAt I fuel 0 cs.length (p.flatten.length + i) = .ok gi ∧
      n ≤ p.flatten.length + i ∧
      appendGraphemes32 I fuel out gb gi = .ok (out ++ cs.take n) ∧
      (appendGraphemes32 I fuel out gb gi = .ok (out ++ p.flatten) ↔ i = 0 ∨
        ((p.flatten.length = 0 ∨ Breaks (g.getD 1 0) (g.getD 0 0)) ∧
          ∀ k, 0 < k → k < i → ¬ Breaks (g.getD (k + 1) 0) (g.getD k 0))) := by
  intro I
  have S := sim_utf32 [] cs [0]
  obtain ⟨n, hn, h1, h2⟩ := locate S 0 (sim_utf32_end [] cs 0 []) fuel hf p q g hgs i hi
  have hlen : p.flatten.length + g.length ≤ cs.length := by rw [← hgs.concat]; simp
  have hb := graphemeBegin_sim S fuel hf
  have hr := readRange_eq S 0 n (Nat.zero_le _) (by omega) fuel (by omega)
  simp only [List.length_nil, Nat.zero_add, List.nil_append, List.drop_zero] at h1 hb hr
  have ha : ∀ b1 e1 x1 b2 e2 x2, appendGraphemes32 I fuel out ⟨b1, e1, 0, x1⟩ ⟨b2, e2, n, x2⟩ =
      .ok (out ++ cs.take n) := by
    intros
    simp only [appendGraphemes32, I, hr, Res.bind_ok, Res.pure_eq]
  refine ⟨_, _, n, hb, h1, hn, ha _ _ _ _ _ _, ?_⟩
  rw [ha, ← h2]
  simp only [Res.ok.injEq, List.append_cancel_left_eq]
  constructor
  · intro he
    have := congrArg List.length he
    rw [List.length_take] at this; omega
  · rintro rfl
    rw [← hgs.concat]; simp

/-- Instance: "xe\u0301!" truncated at the accent. -/
example := C49_truncate_utf32 [0x78, 0x65, 0x301, 0x21] [7] 5 (by decide) [[0x78]] [[0x21]] [0x65, 0x301]
  (segmentation_of (by decide +kernel)) 1 (by decide)

/-- Non-vacuity: "xé!" (x e U+0301 !) truncated inside the second grapheme. -/
example : IsSegmentation Breaks [0x78, 0x65, 0x301, 0x21] ([[0x78]] ++ [0x65, 0x301] :: [[0x21]]) := by
  have := segments_breaks [0x78, 0x65, 0x301, 0x21]
  rwa [show segments isGraphemeBoundary [0x78, 0x65, 0x301, 0x21] = [[0x78]] ++ [0x65, 0x301] :: [[0x21]]
    by decide +kernel] at this

/-- C49 for UTF-8 strings, as in examples/truncate_on_grapheme.cpp: `gi` is built at ANY octet `o` of
codepoint `i` of the grapheme `g`. What is appended is always made of the first `n` codepoints of the
text, none of them after the requested octet; `n` is the start of `g` exactly when `i` is the first
codepoint of `g` or the backward scan stops there; and, since codepoints are narrowed to octets, those
codepoints arrive intact exactly when they are all 7-bit. -/
theorem C49_truncate_utf8 (cs : List Nat) (h : ∀ c ∈ cs, c < 2 ^ 31) (out : List UInt8) (fuel : Nat)
    (hf : cs.length < fuel) (p q : List (List Nat)) (g : List Nat)
    (hgs : IsSegmentation Breaks (cs.map Int.ofNat) ((p ++ g :: q).map (·.map Int.ofNat)))
    (i : Nat) (hi : i < g.length) (o : Nat) (ho : o < (encode (g.getD i 0)).length) :
    let I := utf8Iter (encodeText cs ++ [0])
    let e := (encodeText cs).length
    ∃ gb gi n, graphemeBegin I fuel 0 e = .ok gb ∧
      gAt I fuel 0 e ((encodeText (p.flatten ++ g.take i)).length + o) = .ok gi ∧
      n ≤ (p.flatten ++ g.take i).length ∧
      appendGraphemes8 I fuel out gb gi = .ok (out ++ (cs.take n).map fun c => UInt8.ofNat (c % 256)) ∧
      (cs.take n = p.flatten ↔ i = 0 ∨
        ((p = [] ∨ Breaks (g.getD 1 0) (g.getD 0 0)) ∧
          ∀ k, 0 < k → k < i → ¬ Breaks (g.getD (k + 1) 0) (g.getD k 0))) ∧
      (appendGraphemes8 I fuel out gb gi = .ok (out ++ encodeText (cs.take n)) ↔
        ∀ c ∈ cs.take n, c < 0x80) := by
  intro I e
  have hinj : Function.Injective (fun x : List Nat => x.map Int.ofNat) := by
    intro a b hab
    have := congrArg (List.map Int.toNat) hab
    simpa [List.map_map, Function.comp_def] using this
  have hc : (p ++ g :: q).flatten = cs := by
    have := hgs.concat
    rw [← List.map_flatten] at this
    exact hinj this
  -- split the text at the codepoint
  have hsp : cs = (p.flatten ++ g.take i) ++ g.getD i 0 :: (g.drop (i + 1) ++ q.flatten) := by
    rw [← hc, List.flatten_append, List.flatten_cons, List.append_assoc]
    congr 1
    have : g.getD i 0 = g[i] := by simp [List.getD_eq_getElem?_getD, List.getElem?_eq_getElem hi]
    rw [this, ← List.cons_append, ← List.drop_eq_getElem_cons hi, ← List.append_assoc,
      List.take_append_drop]
  have hpi : (p.flatten ++ g.take i).length = p.flatten.length + i := by
    simp; omega
  have hany := C23_any_octet (p.flatten ++ g.take i) (g.drop (i + 1) ++ q.flatten) (g.getD i 0)
    (by rw [← hsp]; exact h) fuel (by rw [← hsp]; exact hf) o ho
  rw [← hsp] at hany
  obtain ⟨gi, hgi, hgo⟩ := hany
  -- locate
  obtain ⟨S, hend⟩ := sim_encodeText cs h [] 0 (by decide) []
  have e3 : [] ++ encodeText cs ++ (encode 0 ++ []) = encodeText cs ++ [0] := by simp [encode]
  rw [e3] at S hend
  rw [List.map_append, List.map_cons] at hgs
  have hL : (p.map (·.map Int.ofNat)).flatten.length = p.flatten.length := by
    rw [← List.map_flatten, List.length_map]
  have hgl : ∀ k, k < g.length → (g.map Int.ofNat).getD k 0 = ((g.getD k 0 : Nat) : Int) := by
    intro k hk
    simp [List.getD_eq_getElem?_getD, List.getElem?_eq_getElem hk]
  obtain ⟨n, hn, h1, h2⟩ := locate S 0 (by simpa using hend) fuel (by simpa) _ _ _ hgs i (by simpa)
  rw [hL] at hn h1 h2
  have hlen : p.flatten.length + g.length ≤ cs.length := by rw [← hc]; simp
  rw [List.length_map, upos_zero, upos_encode_end, upos_encode (i := p.flatten.length + i)] at h1
  have htk : cs.take (p.flatten.length + i) = p.flatten ++ g.take i := by
    conv => lhs; rw [hsp]
    rw [← hpi, List.take_left']; rfl
  rw [htk] at h1
  simp only [List.length_nil, Nat.zero_add] at h1
  have hgi' : gi = ⟨0, e, upos 0 (cs.map encode) n, upos 0 (cs.map encode) (p.flatten.length + (g.map Int.ofNat).length)⟩ := by
    have := hgi.symm.trans h1
    exact Res.ok.inj this
  have hb := graphemeBegin_sim S fuel (by simpa)
  rw [List.length_map, upos_zero, upos_encode_end] at hb
  simp only [List.length_nil, Nat.zero_add] at hb
  -- what is read up to the located position
  have hread : ∀ w x1 x2 b1 e1 b2 e2, (w = upos 0 (cs.map encode) n ∨ (n = 0 ∧ iterEq (encodeText cs ++ [0]) 0 w = .ok true)) →
      appendGraphemes8 I fuel out ⟨b1, e1, 0, x1⟩ ⟨b2, e2, w, x2⟩ =
        .ok (out ++ (cs.take n).map fun c => UInt8.ofNat (c % 256)) := by
    intro w x1 x2 b1 e1 b2 e2 hw
    rcases hw with rfl | ⟨rfl, hw⟩
    · have hr := readRange_eq S 0 n (Nat.zero_le _) (by simp; omega) fuel (by omega)
      rw [upos_zero] at hr
      simp only [List.length_nil, List.drop_zero] at hr
      simp only [appendGraphemes8, I, hr, Res.bind_ok, Res.pure_eq, ← List.map_take, List.map_map]
      congr 2
    · obtain ⟨f, rfl⟩ : ∃ f, fuel = f + 1 := ⟨fuel - 1, by omega⟩
      simp only [appendGraphemes8, I, readRange, utf8Iter, hw, Res.bind_ok, if_true, Res.pure_eq]
      simp
  have hcond : cs.take n = p.flatten ↔ n = p.flatten.length := by
    constructor
    · intro he
      have := congrArg List.length he
      rw [List.length_take] at this; omega
    · rintro rfl
      rw [← hc]; simp
  have hp0 : p.flatten.length = 0 ↔ p = [] := by
    constructor
    · intro hz
      cases p with
      | nil => rfl
      | cons a p =>
        have := hgs.nonempty (a.map Int.ofNat) (by simp)
        simp at hz
        simp [hz.1] at this
    · rintro rfl; rfl
  have happ : ∃ gi', gAt I fuel 0 e ((encodeText (p.flatten ++ g.take i)).length + o) = .ok gi' ∧
      ∀ x1 b1 e1, appendGraphemes8 I fuel out ⟨b1, e1, 0, x1⟩ gi' =
        .ok (out ++ (cs.take n).map fun c => UInt8.ofNat (c % 256)) := by
    refine ⟨_, hgo, ?_⟩
    intro x1 b1 e1
    rw [hgi']
    split
    · next hl =>
      have hn0 : n = 0 := by rw [← hpi, hl] at hn; simpa using hn
      subst hn0
      refine hread _ _ _ _ _ _ _ (.inr ⟨rfl, ?_⟩)
      rw [hl, List.nil_append] at hsp
      have hm : Holds (encodeText cs ++ [0]) 0 (encode (g.getD i 0)) := by
        have := holds_append [] (encode (g.getD i 0)) (encodeText (g.drop (i + 1) ++ q.flatten) ++ [0])
        rw [hsp]; simpa [encodeText] using this
      have hu := encode_isUnit (g.getD i 0) (h _ (by rw [hsp]; simp))
      have := iterEq_unit hu hm hu.length_pos o
      rw [Nat.add_zero] at this
      rw [this]; congr 1; apply decide_eq_true; omega
    · exact hread _ _ _ _ _ _ _ (.inl rfl)
  obtain ⟨gi', hg1, hg2⟩ := happ
  refine ⟨_, gi', n, hb, hg1, by omega, hg2 _ _ _, ?_, ?_⟩
  · rw [hcond, h2, hp0]
    rcases Nat.eq_zero_or_pos i with rfl | hpos
    · simp
    · rw [hgl 0 (by omega), hgl 1 (by omega)]
      apply or_congr Iff.rfl
      apply and_congr Iff.rfl
      constructor <;> intro hh k hk1 hk2 <;> have := hh k hk1 hk2
      · rwa [hgl k (by omega), hgl (k + 1) (by omega)] at this
      · rwa [hgl k (by omega), hgl (k + 1) (by omega)]
  · rw [hg2]
    simp only [Res.ok.injEq, List.append_cancel_left_eq]
    exact narrow_eq_encode _

/-- Instance: "xe\u0301!" truncated at the second octet of the accent. -/
example := C49_truncate_utf8 [0x78, 0x65, 0x301, 0x21] (by decide) [7] 5 (by decide) [[0x78]] [[0x21]] [0x65, 0x301]
  (segmentation_of (by decide +kernel)) 1 (by decide) 1 (by decide)

/-- C49, position at the end of the string: `gi` is the grapheme end iterator, and the whole text is
copied (narrowed, for UTF-8). -/
theorem C49_at_end (cs : List Nat) (h : ∀ c ∈ cs, c < 2 ^ 31) (out : List UInt8) (out' : List Int)
    (fuel : Nat) (hf : cs.length < fuel) :
    (let I := utf8Iter (encodeText cs ++ [0])
     let e := (encodeText cs).length
     ∃ gb gi, graphemeBegin I fuel 0 e = .ok gb ∧ gAt I fuel 0 e e = .ok gi ∧
      appendGraphemes8 I fuel out gb gi = .ok (out ++ cs.map fun c => UInt8.ofNat (c % 256))) ∧
    (let I := utf32Iter (cs.map Int.ofNat ++ [0])
     let e := cs.length
     ∃ gb gi, graphemeBegin I fuel 0 e = .ok gb ∧ gAt I fuel 0 e e = .ok gi ∧
      appendGraphemes32 I fuel out' gb gi = .ok (out' ++ cs.map Int.ofNat)) := by
  have hs := C25_strings cs h fuel hf
  constructor
  · intro I e
    obtain ⟨S, _⟩ := sim_encodeText cs h [] 0 (by decide) []
    have e3 : [] ++ encodeText cs ++ (encode 0 ++ []) = encodeText cs ++ [0] := by simp [encode]
    rw [e3] at S
    have hb := graphemeBegin_sim S fuel (by simpa)
    have hr := readRange_eq S 0 cs.length (Nat.zero_le _) (by simp) fuel (by omega)
    rw [upos_zero, upos_encode_end] at hr
    rw [List.length_map, upos_zero, upos_encode_end] at hb
    simp only [List.length_nil, Nat.zero_add, List.drop_zero] at hb hr
    refine ⟨_, _, hb, hs.1, ?_⟩
    simp only [appendGraphemes8, I, hr, Res.bind_ok, Res.pure_eq]
    rw [List.take_of_length_le (by simp), List.map_map]
    congr 2
  · intro I e
    have S := sim_utf32 [] (cs.map Int.ofNat) [0]
    have hb := graphemeBegin_sim S fuel (by simpa)
    have hr := readRange_eq S 0 cs.length (Nat.zero_le _) (by simp) fuel (by omega)
    simp only [List.length_nil, Nat.zero_add, List.drop_zero, List.nil_append, List.length_map] at hb hr
    refine ⟨_, _, hb, hs.2, ?_⟩
    simp only [appendGraphemes32, I, hr, Res.bind_ok, Res.pure_eq]
    rw [List.take_of_length_le (by simp)]

/-- Instance. -/
example := C49_at_end [0x78, 0x65, 0x301, 0x21] (by decide) [7] [7] 5 (by decide)

/-- C49 corollary for text of "base + marks" graphemes (as in `C23_base_and_marks`): truncation anywhere
inside such a grapheme cuts exactly before it. -/
theorem C49_base_and_marks (cs out : List Int) (fuel : Nat) (hf : cs.length < fuel)
    (p q : List (List Int)) (b : Int) (ms : List Int)
    (hgs : IsSegmentation Breaks cs (p ++ (b :: ms) :: q))
    (hms : ∀ x ∈ ms, gcbResolve x = .EXTEND ∨ gcbResolve x = .ZWJ ∨ gcbResolve x = .SPACINGMARK)
    (hb : gcbResolve b ∉ [GCB.EXTEND, .ZWJ, .SPACINGMARK, .E_MODIFIER, .GLUE_AFTER_ZWJ, .E_BASE_GAZ])
    (i : Nat) (hi : i < (b :: ms).length) :
    let I := utf32Iter (cs ++ [0])
    ∃ gb gi, graphemeBegin I fuel 0 cs.length = .ok gb ∧
      gAt I fuel 0 cs.length (p.flatten.length + i) = .ok gi ∧
      appendGraphemes32 I fuel out gb gi = .ok (out ++ p.flatten) := by
  intro I
  have h1 := C23_base_and_marks cs fuel hf p q b ms hgs hms hb i hi
  obtain ⟨gb, gi, n, a1, a2, a3, a4, a5⟩ := C49_truncate_utf32 cs out fuel hf p q (b :: ms) hgs i hi
  refine ⟨gb, gi, a1, a2, ?_⟩
  have S := sim_utf32 [] cs [0]
  have hlen : p.flatten.length + (b :: ms).length ≤ cs.length := by rw [← hgs.concat]; simp
  have hr := readRange_eq S 0 p.flatten.length (Nat.zero_le _) (by omega) fuel (by omega)
  have hbb := graphemeBegin_sim S fuel hf
  simp only [List.length_nil, Nat.zero_add, List.nil_append, List.drop_zero] at hr hbb
  have e1 : gb = _ := Res.ok.inj (a1.symm.trans hbb)
  have e2 : gi = _ := Res.ok.inj (a2.symm.trans h1)
  rw [e1, e2]
  simp only [appendGraphemes32, I, hr, Res.bind_ok, Res.pure_eq]
  rw [← hgs.concat]; simp

/-- Instance: "xa\u0301\u0302!" truncated at the second mark. -/
example := C49_base_and_marks [0x78, 0x61, 0x301, 0x302, 0x21] [7] 6 (by decide) [[0x78]] [[0x21]] 0x61 [0x301, 0x302]
  (segmentation_of (by decide +kernel)) (by decide +kernel) (by decide +kernel) 2 (by decide)

/-- The example program: "Olá!" with a combining acute (U+0301 = CC 81), truncated at octet 4, gives
"Ol". -/
example : (do
    let I := utf8Iter ([0x4F, 0x6C, 0x61, 0xCC, 0x81, 0x21] ++ [0])
    let gb ← graphemeBegin I 7 0 6
    let gi ← gAt I 7 0 6 4
    appendGraphemes8 I 7 [] gb gi) = .ok [0x4F, 0x6C] := by decide +kernel

/-- C49 counterexamples. Text before the truncation point that is not 7-bit is damaged: "ñandú"
truncated at its last letter gives F1 61 6E 64. In x + <Hangul L V T> truncation at T cuts the
grapheme in half (x + L). In "ab" + two regional indicators, truncation inside the flag also drops the
grapheme "b" before it. -/
theorem C49_counterexample :
    (do let I := utf8Iter (encodeText [0xF1, 0x61, 0x6E, 0x64, 0xFA] ++ [0])
        let gb ← graphemeBegin I 6 0 7
        let gi ← gAt I 6 0 7 5
        appendGraphemes8 I 6 [] gb gi) = .ok [0xF1, 0x61, 0x6E, 0x64] ∧
    (do let I := utf32Iter ([0x78, 0x1100, 0x1161, 0x11A8] ++ [0])
        let gb ← graphemeBegin I 5 0 4
        let gi ← gAt I 5 0 4 3
        appendGraphemes32 I 5 [] gb gi) = .ok [0x78, 0x1100] ∧
    (do let I := utf32Iter ([0x61, 0x62, 0x1F1E6, 0x1F1E7] ++ [0])
        let gb ← graphemeBegin I 5 0 4
        let gi ← gAt I 5 0 4 3
        appendGraphemes32 I 5 [] gb gi) = .ok [0x61] := by decide +kernel

end U5e
