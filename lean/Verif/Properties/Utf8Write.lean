import Verif.Proofs.Utf8Write
/-!
# C08–C12: writing UTF-8

`encodedSize` is utf8_util::encoded_size, `assign` is `*it = c`, `encodeOne`/`appendFromUtf32` is
utf8::append_from_utf32ne. `Encodable` (Spec/Encoder.lean) is a set given by four intervals.
The code's size formula is wrong on whole ranges of codepoints; the properties and the theorems below
give the exact set on which the code is right, in both directions, with witnesses outside it.
-/
namespace U5e
open Spec

/-- C08. The computed size is the UTF-8 size (a computed 0 is treated as one octet by the only caller)
exactly for the `Encodable` codepoints; everywhere else it is too small (`C08_wrong_sizes`), or
undefined for 0. -/
theorem C08_encoded_size (c : Nat) (h : c < 2 ^ 31) :
    ((∃ n, encodedSize (BitVec.ofNat 32 c) = .ok n ∧ max n 1 = (encode c).length) ↔ Encodable c) ∧
    (1 ≤ c → ∃ n, encodedSize (BitVec.ofNat 32 c) = .ok n ∧ max n 1 ≤ (encode c).length) ∧
    encodedSize 0#32 = .ub := by
  have hn : (BitVec.ofNat 32 c).toNat = c := by rw [BitVec.toNat_ofNat]; omega
  have key : 1 ≤ c → encodedSize (BitVec.ofNat 32 c) = .ok (szOf c) := by
    intro h1
    have := encodedSize_eq (BitVec.ofNat 32 c) (by
      intro h0; rw [h0] at hn; simp at hn; omega)
    rwa [hn] at this
  refine ⟨⟨?_, ?_⟩, ?_, by decide +kernel⟩
  · rintro ⟨n, h1, h2⟩
    rcases Nat.eq_zero_or_pos c with rfl | hpos
    · exact absurd h1 (by rw [show encodedSize (BitVec.ofNat 32 0) = .ub by decide +kernel]; simp)
    · rw [key hpos] at h1
      obtain rfl := Res.ok.inj h1
      exact (szOf_encodable c hpos h).2.mp h2
  · intro he
    have hpos : 1 ≤ c := by rcases Nat.eq_zero_or_pos c with rfl | hp; exact absurd he (by decide); exact hp
    exact ⟨_, key hpos, (szOf_encodable c hpos h).2.mpr he⟩
  · intro hpos
    exact ⟨_, key hpos, (szOf_encodable c hpos h).1⟩

/-- Instance: a codepoint outside `Encodable`, for which `encoded_size` is too small. -/
example : ¬ ∃ n, encodedSize (BitVec.ofNat 32 0x1F600) = .ok n ∧ max n 1 = (encode 0x1F600).length :=
  fun h => absurd ((C08_encoded_size 0x1F600 (by decide)).1.mp h) (by decide)

/-- C08 outside `Encodable`: DEVANAGARI LETTER A (three octets) is sized 2, an emoji (four octets)
is sized 3. -/
theorem C08_wrong_sizes :
    encodedSize 0x905#32 = .ok 2 ∧ (encode 0x905).length = 3 ∧
    encodedSize 0x1F600#32 = .ok 3 ∧ (encode 0x1F600).length = 4 := by decide +kernel

example : Encodable 0xE9 ∧ Encodable 0x20AC ∧ Encodable 0x100000 ∧ ¬ Encodable 0x1F600 := by decide

/-- C09. `*it = c` followed by `*it` gives `c` back, with the exact effect on memory, for every
`Encodable` codepoint and every buffer with room, as soon as the octets already at that position can
be decoded (`*it` decodes them first: `C09_assignment_reads_old_content`). -/
theorem C09_write_read (c : Nat) (hc : Encodable c) (pre old post : List UInt8)
    (hold : old.length = (encode c).length)
    (hread : ∃ r, cur (pre ++ old ++ post) pre.length = .ok r) :
    assign (pre ++ old ++ post) pre.length (BitVec.ofNat 32 c) =
      .ok (pre ++ encode c ++ post, pre.length + (encode c).length - 1) ∧
    cur (pre ++ encode c ++ post) (pre.length + (encode c).length - 1)
      = .ok ((c : Int), pre.length) := by
  have h31 : c < 2 ^ 31 := by unfold Encodable at hc; omega
  have hn : (BitVec.ofNat 32 c).toNat = c := by rw [BitVec.toNat_ofNat]; omega
  have hne : BitVec.ofNat 32 c ≠ 0#32 := by
    intro h0; rw [h0] at hn; simp at hn; subst hn; exact absurd hc (by decide)
  have hw := written_eq_encode (BitVec.ofNat 32 c) (by omega) (by rwa [hn])
  rw [hn] at hw
  have hpos := (encode_isUnit c h31).length_pos
  obtain ⟨r, hr⟩ := hread
  constructor
  · rw [assign, hr, Res.bind_ok, putCodepoint_eq _ _ _ hne (by rw [hw]; simp; omega), hw]
    simp only [splice, ← hold]
    simp
  · have := cur_unit (encode_isUnit c h31) (holds_append pre (encode c) post)
      (i := (encode c).length - 1) (by omega)
    rw [payload_encode c h31] at this
    rw [show pre.length + (encode c).length - 1 = pre.length + ((encode c).length - 1) by omega]
    exact this

example : Encodable 0x20AC ∧ ∃ r, cur ([0x41] ++ [0, 0, 0] ++ [0x42]) 1 = .ok r :=
  ⟨by decide, (0, 1), by decide +kernel⟩

/-- C09, exactly: for a codepoint below 2^31, writing and reading back gives the codepoint in every
buffer with room for its encoding iff the codepoint is `Encodable`. (For some other codepoints it works
by luck: after writing U+0820 the next octet in memory happens to complete the sequence if its low six
bits are 100000.) -/
theorem C09_exact (c : Nat) (h : c < 2 ^ 31) :
    (∀ pre old post : List UInt8, old.length = (encode c).length →
      (∃ r, cur (pre ++ old ++ post) pre.length = .ok r) →
      (assign (pre ++ old ++ post) pre.length (BitVec.ofNat 32 c) >>= fun r => cur r.1 r.2) =
        .ok ((c : Int), pre.length)) ↔ Encodable c := by
  have hn : (BitVec.ofNat 32 c).toNat = c := by rw [BitVec.toNat_ofNat]; omega
  constructor
  · intro hall
    apply Decidable.byContradiction
    intro he
    obtain ⟨x, hx7, hx⟩ : ∃ x : UInt8, x.toNat < 0x80 ∧ x.toNat % 64 ≠ c % 64 := by
      by_cases h0 : c % 64 = 0
      · exact ⟨1, by decide, by rw [h0]; decide⟩
      · exact ⟨0, by decide, by rw [show (0 : UInt8).toNat % 64 = 0 by decide]; omega⟩
    have hpos := (encode_isUnit c h).length_pos
    have hread : ∃ r, cur ([] ++ List.replicate (encode c).length x ++ []) ([] : List UInt8).length
        = .ok r := by
      have hr : rd (List.replicate (encode c).length x) 0 = .ok x :=
        rd_some (by rw [List.getElem?_replicate, if_pos hpos])
      refine ⟨((promote x).toInt, 0), ?_⟩
      simp only [List.nil_append, List.append_nil, List.length_nil, cur, hr, Res.bind_ok,
        (is7bit_iff x).mpr hx7, if_true]; rfl
    have h1 := hall [] (List.replicate (encode c).length x) [] (by simp) hread
    have h2 := roundtrip_lost (BitVec.ofNat 32 c) (by omega) (by rwa [hn]) x hx7 (by rwa [hn]) 0
    rw [hn] at h2
    simp only [List.nil_append, List.append_nil, List.length_nil] at h1
    exact h2 h1
  · intro he pre old post hold hread
    obtain ⟨h1, h2⟩ := C09_write_read c he pre old post hold hread
    rw [h1]; exact h2

/-- Instance: U+1F600 is below 2^31 and outside `Encodable`: some place exists where it is lost. -/
example := mt (C09_exact 0x1F600 (by decide)).mp (by decide)

/-- C09, room: when the buffer ends before the encoding does, the assignment is undefined behaviour
(it stores, or forms a pointer, past the end of the buffer) whatever the buffer holds: there is no
bounds check, so room must be made by the caller. -/
theorem C09_no_room (c : Nat) (hc : Encodable c) (pre old : List UInt8)
    (hroom : old.length < (encode c).length) :
    assign (pre ++ old) pre.length (BitVec.ofNat 32 c) = .ub := by
  have h31 : c < 2 ^ 31 := by unfold Encodable at hc; omega
  have hn : (BitVec.ofNat 32 c).toNat = c := by rw [BitVec.toNat_ofNat]; omega
  have hw := written_eq_encode (BitVec.ofNat 32 c) (by omega) (by rwa [hn])
  rw [hn] at hw
  have hput := putCodepoint_ub (pre ++ old) pre.length (BitVec.ofNat 32 c) (by rw [hw]; simp; omega)
  rw [assign]
  rcases cur_cases (pre ++ old) pre.length with ⟨r, hr, _⟩ | hr
  · rw [hr, Res.bind_ok, hput]
  · rw [hr]; rfl

example : Encodable 0x20AC ∧ ([0, 0] : List UInt8).length < (encode 0x20AC).length := by decide

/-- The lucky case mentioned above. -/
example : (assign [0, 0, 0x20] 0 0x820#32 >>= fun r => cur r.1 r.2) = .ok (0x820, 0) ∧
    ¬ Encodable 0x820 := by decide +kernel

/-- C09 outside `Encodable`: U+0905 is read back as U+4140 … -/
theorem C09_lost_codepoint :
    (assign [0, 0, 0, 0] 0 0x905#32 >>= fun r => cur r.1 r.2) = .ok (0x4140, 0) := by
  decide +kernel

/-- … and merely writing an 'A' over an octet that starts a longer sequence reads past the buffer. -/
theorem C09_assignment_reads_old_content : assign [0xF0] 0 0x41#32 = .ub := by decide +kernel

/-- C10. append_from_utf32ne appends the UTF-8 encodings to whatever was there before, for every
sequence of `Encodable` codepoints … -/
theorem C10_append (out : List UInt8) (cs : List Nat) (h : ∀ c ∈ cs, Encodable c) :
    appendFromUtf32 out (cs.map (BitVec.ofNat 32)) = .ok (out ++ encodeText cs) := by
  induction cs generalizing out with
  | nil => simp [appendFromUtf32, encodeText]
  | cons c cs ih =>
    have hc : Encodable c := h c (by simp)
    have h31 : c < 2 ^ 31 := by unfold Encodable at hc; omega
    have hn : (BitVec.ofNat 32 c).toNat = c := by rw [BitVec.toNat_ofNat]; omega
    have := encodeOne_encodable (BitVec.ofNat 32 c) (by omega) (by rwa [hn])
    rw [hn] at this
    simp only [List.map_cons, appendFromUtf32, this, Res.bind_ok]
    rw [ih _ (fun d hd => h d (by simp [hd]))]
    simp [encodeText, List.append_assoc]

/-- Instance: "Oá€" appended to "x". -/
example : appendFromUtf32 [0x78] [0x4F#32, 0xE1#32, 0x20AC#32] =
    .ok ([0x78] ++ encodeText [0x4F, 0xE1, 0x20AC]) :=
  C10_append [0x78] [0x4F, 0xE1, 0x20AC] (by decide)

/-- … and for exactly those: any other codepoint gets a wrong encoding or undefined behaviour. -/
theorem C10_append_exact (c : Nat) (h : c < 2 ^ 31) (out : List UInt8) :
    appendFromUtf32 out [BitVec.ofNat 32 c] = .ok (out ++ encode c) ↔ Encodable c := by
  have hn : (BitVec.ofNat 32 c).toNat = c := by rw [BitVec.toNat_ofNat]; omega
  constructor
  · intro heq
    by_cases he : Encodable c
    · exact he
    · exfalso
      have := encodeOne_not_encodable (BitVec.ofNat 32 c) (by omega) (by rwa [hn])
      rw [hn] at this
      simp only [appendFromUtf32] at heq
      cases hh : encodeOne (BitVec.ofNat 32 c) with
      | ok o =>
        rw [hh] at this heq
        simp only [Res.bind_ok, Res.pure_eq, Res.ok.injEq, List.append_cancel_left_eq] at heq
        exact this (by rw [heq])
      | ub => rw [hh] at heq; simp at heq
      | tmo => rw [hh] at heq; simp at heq
  · intro he
    have := C10_append out [c] (by simpa using he)
    simpa [encodeText] using this

/-- Instance: U+0915 is not appended correctly, to any text. -/
example (out : List UInt8) :
    appendFromUtf32 out [BitVec.ofNat 32 0x915] ≠ .ok (out ++ encode 0x915) :=
  fun h => absurd ((C10_append_exact 0x915 (by decide) out).mp h) (by decide)

/-- C10 outside `Encodable`: "क" (U+0915) is written as E4 95 00. -/
theorem C10_wrong_octets :
    appendFromUtf32 [] [0x915#32] = .ok [0xE4, 0x95, 0x00] ∧ encode 0x915 = [0xE0, 0xA4, 0x95] := by
  decide +kernel

/-- C11. Appending a codepoint stays inside the scratch buffer except, for every 32-bit value, exactly
for 0 (`__builtin_clz(0)`), negative values and the set `OverReads` (`C11_overread_witness`), where `++` moves past the 6-octet buffer and the append
reads up to two octets beyond it. -/
theorem C11_scratch_buffer (out : List UInt8) (v : BitVec 32) :
    (appendFromUtf32 out [v] = .ub ↔ (v = 0#32 ∨ v.toInt < 0 ∨ OverReads v.toNat)) ∧
    appendFromUtf32 out [v] ≠ .tmo := by
  have hneg : v.toInt < 0 ↔ 2 ^ 31 ≤ v.toNat := by
    rw [BitVec.toInt_eq_toNat_cond]; have := v.isLt; split <;> omega
  by_cases h0 : v = 0#32
  · subst h0; simp [appendFromUtf32, encodeOne_zero]
  · simp only [appendFromUtf32, encodeOne_eq v h0, h0, false_or, hneg]
    rw [← headOctet_overread v]
    split
    · next h => simp [h]
    · next h => simp [h]

theorem C11_overread_witness :
    appendFromUtf32 [] [0x1F600#32] = .ub ∧ appendFromUtf32 [] [0x1FFF#32] = .ub ∧
    appendFromUtf32 [] [0x0F90#32] = .ub := by decide +kernel

/-- C11 positive corollary: for the codepoints the encoder is right about it is memory-safe; in the
Unicode range the unsafe codepoints are these. -/
theorem C11_unicode_range (c : Nat) (h : c < 0x110000) :
    appendFromUtf32 [] [BitVec.ofNat 32 c] = .ub ↔
      (c = 0 ∨ (0xF80 ≤ c ∧ c ≤ 0xFFF) ∨ (0x1F80 ≤ c ∧ c ≤ 0x1FFF) ∨ (0x1E000 ≤ c ∧ c ≤ 0x1FFFF) ∨
       (0x3E000 ≤ c ∧ c ≤ 0x3FFFF) ∨ (0x5E000 ≤ c ∧ c ≤ 0x5FFFF) ∨ (0x7E000 ≤ c ∧ c ≤ 0x7FFFF)) := by
  have hn : (BitVec.ofNat 32 c).toNat = c := by rw [BitVec.toNat_ofNat]; omega
  rw [(C11_scratch_buffer [] (BitVec.ofNat 32 c)).1, hn, BitVec.toInt_eq_toNat_cond, hn]
  have h0 : BitVec.ofNat 32 c = 0#32 ↔ c = 0 := by
    constructor
    · intro hh; rw [hh] at hn; simpa using hn.symm
    · rintro rfl; rfl
  rw [h0]; unfold OverReads
  split <;> omega

/-- Instance: an emoji. -/
example : appendFromUtf32 [] [BitVec.ofNat 32 0x1F600] = .ub :=
  (C11_unicode_range 0x1F600 (by decide)).mpr (by decide)

/-- C12. `std::copy` of codepoints into a mutable iterator over a large enough buffer of 7-bit
octets (e.g. zeros) leaves the concatenated encodings followed by the untouched rest. Proved for
`Encodable` codepoints, which is all the property ranges over. -/
theorem C12_sequential_writes (cs : List Nat) (h : ∀ c ∈ cs, Encodable c) (pre buf : List UInt8)
    (hb : ∀ o ∈ buf, o.toNat < 0x80) (hroom : (encodeText cs).length ≤ buf.length) :
    copyInto (pre ++ buf) pre.length (cs.map (BitVec.ofNat 32)) =
      .ok (pre ++ encodeText cs ++ buf.drop (encodeText cs).length,
           pre.length + (encodeText cs).length) := by
  induction cs generalizing pre buf with
  | nil => simp [copyInto, encodeText]
  | cons c cs ih =>
    have hc : Encodable c := h c (by simp)
    have h31 : c < 2 ^ 31 := by unfold Encodable at hc; omega
    have htext : encodeText (c :: cs) = encode c ++ encodeText cs := by simp [encodeText]
    rw [htext] at hroom ⊢
    rw [List.length_append] at hroom
    have hpos := (encode_isUnit c h31).length_pos
    have hsplit : pre ++ buf = pre ++ buf.take (encode c).length ++ buf.drop (encode c).length := by
      rw [List.append_assoc, List.take_append_drop]
    have hb0 : ∃ o, buf[0]? = some o ∧ o.toNat < 0x80 := by
      cases buf with
      | nil => simp only [List.length_nil] at hroom; omega
      | cons o os => exact ⟨o, rfl, hb o (by simp)⟩
    obtain ⟨o, ho, ho7⟩ := hb0
    have hread : ∃ r, cur (pre ++ buf.take (encode c).length ++ buf.drop (encode c).length)
        pre.length = .ok r := by
      rw [← hsplit]
      have hr : rd (pre ++ buf) pre.length = .ok o := by
        apply rd_some; rw [List.getElem?_append_right (by omega)]; simpa using ho
      exact ⟨_, by simp only [cur, hr, Res.bind_ok, (is7bit_iff o).mpr ho7, if_true]; rfl⟩
    have h1 := (C09_write_read c hc pre (buf.take (encode c).length)
      (buf.drop (encode c).length) (by simp; omega) hread).1
    have h2 := fwd_unit (encode_isUnit c h31)
      (holds_append pre (encode c) (buf.drop (encode c).length)) (i := (encode c).length - 1) (by omega)
    rw [show pre.length + ((encode c).length - 1) = pre.length + (encode c).length - 1 by omega] at h2
    have h3 := ih (fun d hd => h d (by simp [hd])) (pre ++ encode c) (buf.drop (encode c).length)
      (fun o ho => hb o (List.mem_of_mem_drop ho)) (by simp; omega)
    rw [List.length_append] at h3
    rw [hsplit]
    simp only [List.map_cons, copyInto, h1, h2, Res.bind_ok, h3]
    simp [List.append_assoc, Nat.add_assoc]

example : (∀ c ∈ [0x4F, 0xE1, 0x20AC], Encodable c) ∧
    (encodeText [0x4F, 0xE1, 0x20AC]).length ≤ (List.replicate 6 (0 : UInt8)).length := by decide

/-! ### C47: the output-iterator idiom `*it++ = c` -/

/-- C47. `*it++ = c` stores the encoding of `c` where `it` was, but advances `it` by the size of the
sequence `u` that was stored there BEFORE the assignment. -/
theorem C47_post_increment_write (c : Nat) (hc : Encodable c) (u : List UInt8) (hu : IsUnit u)
    (pre post : List UInt8) (hroom : (encode c).length ≤ u.length + post.length) :
    assignPost (pre ++ u ++ post) pre.length (BitVec.ofNat 32 c) =
      .ok (pre ++ encode c ++ (u ++ post).drop (encode c).length, pre.length + u.length) := by
  have h31 : c < 2 ^ 31 := by unfold Encodable at hc; omega
  have h1 := fwd_unit hu (holds_append pre u post) hu.length_pos
  have h2 := cur_unit hu (holds_append pre u post) hu.length_pos
  have hsplit : pre ++ u ++ post =
      pre ++ (u ++ post).take (encode c).length ++ (u ++ post).drop (encode c).length := by
    rw [List.append_assoc, List.append_assoc, List.take_append_drop]
  rw [Nat.add_zero] at h1 h2
  have h3 := (C09_write_read c hc pre ((u ++ post).take (encode c).length)
    ((u ++ post).drop (encode c).length) (by simp; omega) ⟨_, by rw [← hsplit]; exact h2⟩).1
  rw [← hsplit] at h3
  simp only [assignPost, h1, h3, Res.bind_ok, Res.pure_eq]

/-- Instance: `€` over three octets, the iterator then stands after the first of them. -/
example : assignPost ([0x41] ++ [0] ++ [0, 0, 0x42]) 1 (BitVec.ofNat 32 0x20AC) =
    .ok ([0x41] ++ encode 0x20AC ++ [0x42], 1 + 1) :=
  C47_post_increment_write 0x20AC (by decide) [0] (by decide) [0x41] [0, 0, 0x42] (by decide)

/-- C47, exactly: it is equivalent to `*it = c; ++it` iff the old sequence has the size of the new
one. -/
theorem C47_exact (c : Nat) (hc : Encodable c) (u : List UInt8) (hu : IsUnit u)
    (pre post : List UInt8) (hroom : (encode c).length ≤ u.length + post.length) :
    (assignPost (pre ++ u ++ post) pre.length (BitVec.ofNat 32 c) =
      (assign (pre ++ u ++ post) pre.length (BitVec.ofNat 32 c) >>= fun r =>
        fwd r.1 r.2 >>= fun q => .ok (r.1, q))) ↔ u.length = (encode c).length := by
  have h31 : c < 2 ^ 31 := by unfold Encodable at hc; omega
  have h2 := cur_unit hu (holds_append pre u post) hu.length_pos
  rw [Nat.add_zero] at h2
  have hsplit : pre ++ u ++ post =
      pre ++ (u ++ post).take (encode c).length ++ (u ++ post).drop (encode c).length := by
    rw [List.append_assoc, List.append_assoc, List.take_append_drop]
  have h3 := (C09_write_read c hc pre ((u ++ post).take (encode c).length)
    ((u ++ post).drop (encode c).length) (by simp; omega) ⟨_, by rw [← hsplit]; exact h2⟩).1
  rw [← hsplit] at h3
  have hpos := (encode_isUnit c h31).length_pos
  have h4 := fwd_unit (encode_isUnit c h31)
    (holds_append pre (encode c) ((u ++ post).drop (encode c).length))
    (i := (encode c).length - 1) (by omega)
  rw [show pre.length + ((encode c).length - 1) = pre.length + (encode c).length - 1 by omega] at h4
  rw [C47_post_increment_write c hc u hu pre post hroom, h3, Res.bind_ok, h4]
  simp

example : IsUnit [0] ∧ Encodable 0xE9 ∧ (encode 0xE9).length ≤ ([0] : List UInt8).length +
    ([0, 0] : List UInt8).length ∧ ([0] : List UInt8).length ≠ (encode 0xE9).length := by decide

/-- C47, consequence: writing "éA" with `*it++ = c` into a zeroed buffer destroys the é, while
`std::copy` (C12) writes it correctly. -/
theorem C47_destroys_text :
    copyIntoPost [0, 0, 0, 0] 0 [0xE9#32, 0x41#32] = .ok ([0xC3, 0x41, 0, 0], 2) ∧
    copyInto [0, 0, 0, 0] 0 [0xE9#32, 0x41#32] = .ok (encodeText [0xE9, 0x41] ++ [0], 3) := by
  decide +kernel

/-- C47, positive part: ASCII text over a buffer of 7-bit octets is written correctly. -/
theorem C47_ascii (cs : List Nat) (h : ∀ c ∈ cs, 1 ≤ c ∧ c < 0x80) (pre buf : List UInt8)
    (hb : ∀ o ∈ buf, o.toNat < 0x80) (hroom : cs.length ≤ buf.length) :
    copyIntoPost (pre ++ buf) pre.length (cs.map (BitVec.ofNat 32)) =
      .ok (pre ++ cs.map UInt8.ofNat ++ buf.drop cs.length, pre.length + cs.length) := by
  induction cs generalizing pre buf with
  | nil => simp [copyIntoPost]
  | cons c cs ih =>
    cases buf with
    | nil => simp at hroom
    | cons o os =>
      have hc := h c (by simp)
      have he : encode c = [UInt8.ofNat c] := by simp [encode, hc.2]
      have hu : IsUnit [o] := by
        have := hb o (by simp)
        simp [IsUnit, announced, this]
      have h1 := C47_post_increment_write c (by unfold Encodable; omega) [o] hu pre os
        (by rw [he]; simp)
      rw [he] at h1
      simp only [List.append_assoc, List.singleton_append, List.length_cons, List.length_nil,
        List.drop_succ_cons, List.drop_zero, Nat.zero_add] at h1
      have h2 := ih (fun d hd => h d (by simp [hd])) (pre ++ [UInt8.ofNat c]) os
        (fun o ho => hb o (by simp [ho])) (by simpa using hroom)
      simp only [List.map_cons, copyIntoPost, h1, Res.bind_ok]
      simp only [List.append_assoc, List.singleton_append, List.length_append, List.length_cons,
        List.length_nil, Nat.zero_add] at h2
      rw [h2]
      simp; omega

example : (∀ c ∈ [0x48, 0x69], 1 ≤ c ∧ c < 0x80) ∧
    ([0x48, 0x69] : List Nat).length ≤ (List.replicate 3 (0 : UInt8)).length := by decide

end U5e
