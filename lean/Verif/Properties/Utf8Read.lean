import Verif.Proofs.Walk
/-!
# C01–C05, C44: reading UTF-8

`walk m e fuel p` is the C++ loop `while (it != end) { out.push_back(*it); ++it; }` started at
octet `p` of memory `m` with `end` at octet `e` (Model/Utf8Iter.lean). A result `.ok l` means:
terminates, no undefined behaviour (no access outside the buffer), output `l`.
-/
namespace U5e
open Spec

/-- C01. Forward iteration over UTF-8 text yields exactly the codepoints, in order; terminates
(any fuel larger than the number of codepoints suffices) and stays inside the buffer, whatever
precedes the text and whatever follows it, as long as the octet at the end position is not a
continuation octet (a `std::string` has NUL there). -/
theorem C01_forward_iteration (cs : List Nat) (h : ∀ c ∈ cs, c < 2 ^ 31) (pre post : List UInt8)
    (o : UInt8) (ho : ¬ IsContinuation o) (fuel : Nat) (hf : cs.length < fuel) :
    walk (pre ++ encodeText cs ++ o :: post) (pre.length + (encodeText cs).length) fuel pre.length
      = .ok (cs.map Int.ofNat) := by
  have hm := holds_append pre (encodeText cs) (o :: post)
  rw [encodeText_flatten] at *
  rw [walk_units _ (cs.map encode) (wellShaped_encode cs h) pre.length hm o ?_ ho fuel (by simpa),
    map_payload_encode cs h]
  rw [List.getElem?_append_right (by simp)]; simp

/-- Instance: five codepoints of one to four octets, in the middle of an array with other octets. -/
example := C01_forward_iteration [0x4F, 0x6C, 0xE1, 0x20AC, 0x1F600] (by decide) [0x80, 0xFF] [0x80]
  0xC3 (by decide) 6 (by decide)

/-- C01, tied to Lean's own strings: walking over the UTF-8 bytes of any `String`, stored
NUL-terminated, yields exactly its characters. -/
theorem C01_lean_strings (s : List Char) (fuel : Nat) (hf : s.length < fuel) :
    walk (s.flatMap String.utf8EncodeChar ++ [0]) (s.flatMap String.utf8EncodeChar).length fuel 0
      = .ok (s.map fun c => (c.toNat : Int)) := by
  have h : ∀ c ∈ s.map Char.toNat, c < 2 ^ 31 := by
    intro c hc
    obtain ⟨d, _, rfl⟩ := List.mem_map.mp hc
    rcases d.valid with h | h
    · exact Nat.lt_trans h (by omega)
    · exact Nat.lt_trans h.2 (by omega)
  have := C01_forward_iteration (s.map Char.toNat) h [] [] 0 (by decide) fuel (by simpa)
  rw [encodeText_eq_core] at this
  simpa [List.map_map, Function.comp_def] using this

/-- Instance. -/
example := C01_lean_strings "Olá, 世界 😀".toList 20 (by decide)

/-- C01. The loop of examples/simple_iteration.cpp, `while (it != end) use(*it++);`, does the same as
`while (it != end) { use(*it); ++it; }` on every memory and from every position, misbehaviour
included; so it too yields exactly the codepoints. -/
theorem C01_post_increment (m : List UInt8) (e fuel p : Nat) :
    walkPost m e fuel p = walk m e fuel p := walkPost_eq m e fuel p

theorem C01_forward_iteration_post (cs : List Nat) (h : ∀ c ∈ cs, c < 2 ^ 31)
    (pre post : List UInt8) (o : UInt8) (ho : ¬ IsContinuation o) (fuel : Nat)
    (hf : cs.length < fuel) :
    walkPost (pre ++ encodeText cs ++ o :: post) (pre.length + (encodeText cs).length) fuel
      pre.length = .ok (cs.map Int.ofNat) := by
  rw [C01_post_increment]; exact C01_forward_iteration cs h pre post o ho fuel hf

/-- Non-vacuity: "Olá€😀" NUL-terminated, preceded by junk. -/
example : ∀ c ∈ [0x4F, 0x6C, 0xE1, 0x20AC, 0x1F600], c < 2 ^ 31 := by decide
example : walk ([0x80, 0xFF] ++ encodeText [0x4F, 0x6C, 0xE1, 0x20AC, 0x1F600] ++ [0]) 13 6 2
    = .ok [0x4F, 0x6C, 0xE1, 0x20AC, 0x1F600] := by decide +kernel

/-- C02. Backward iteration from the end to the beginning yields the codepoints in reverse.
Whatever precedes; after the text there must be an octet that is not a continuation octet, with as
many octets as it claims (the NUL of a string, or more text; any junk will do). -/
theorem C02_backward_iteration (cs : List Nat) (h : ∀ c ∈ cs, c < 2 ^ 31)
    (pre post : List UInt8) (hp : Followed post) (fuel : Nat) (hf : cs.length < fuel) :
    walkBack (pre ++ encodeText cs ++ post) pre.length fuel
        (pre.length + (encodeText cs).length)
      = .ok (cs.map Int.ofNat).reverse := by
  have hm := holds_append pre (encodeText cs) post
  obtain ⟨n, hn, hE⟩ := endAt_followed hp (pre ++ encodeText cs)
  rw [List.length_append] at hE
  rw [encodeText_flatten] at *
  rw [walkBack_units' _ (cs.map encode) (wellShaped_encode cs h) pre.length hm n hn hE fuel
    (by simpa), map_payload_encode cs h]

example : Followed [0] ∧ Followed [0xC3, 0x41] ∧ Followed ([0xC3, 0x81] ++ [0x80]) :=
  ⟨⟨0, rfl, by decide, by decide⟩, ⟨0xC3, rfl, by decide, by decide⟩,
   followed_unit (by decide) _⟩
example : walkBack (encodeText [0x4F, 0xC1, 0x21] ++ [0]) 0 4 4 = .ok [0x21, 0xC1, 0x4F] := by
  decide +kernel

/-- C02, the condition is needed: when a lead octet stands alone behind the text, comparing the end
iterator runs past the buffer. -/
theorem C02_needs_followed : walkBack ([0x41] ++ [0xC3]) 0 2 1 = .ub := by decide +kernel

/-- C03. Dereferencing an iterator at ANY octet of an encoded codepoint returns that codepoint and
leaves the iterator on its first octet; nothing else in memory matters. -/
theorem C03_deref_resynchronises (c : Nat) (h : c < 2 ^ 31) (pre post : List UInt8) (i : Nat)
    (hi : i < (encode c).length) :
    cur (pre ++ encode c ++ post) (pre.length + i) = .ok ((c : Int), pre.length) := by
  rw [cur_unit (encode_isUnit c h) (holds_append pre (encode c) post) hi, payload_encode c h]

example : cur ([0x41] ++ encode 0x20AC ++ []) (1 + 2) = .ok (0x20AC, 1) := by decide +kernel

/-- C04. `++` from any octet of a codepoint goes to the first octet after it; `--` from any octet
of the following sequence comes back; so `--` after `++` is "go to the start of the codepoint"
and `++` after `--` is the identity on codepoint starts. -/
theorem C04_increment_decrement (u v : List UInt8) (hu : IsUnit u) (hv : IsUnit v)
    (pre post : List UInt8) (i j : Nat) (hi : i < u.length) (hj : j < v.length) :
    let m := pre ++ u ++ (v ++ post)
    let p := pre.length
    fwd m (p + i) = .ok (p + u.length) ∧
    bwd m (p + u.length + j) = .ok p ∧
    (fwd m (p + i) >>= bwd m) = .ok p ∧
    (bwd m (p + u.length + j) >>= fwd m) = .ok (p + u.length) := by
  intro m p
  have hm : Holds m p u := holds_append pre u (v ++ post)
  have hmv : Holds m (p + u.length) v := by
    have := holds_append (pre ++ u) v post
    simpa [m, p, List.append_assoc] using this
  have h1 := fwd_unit hu hm hi
  have h2 := bwd_unit hu hm hv hmv hj
  have h1' := fwd_unit hu hm hu.length_pos
  have h2' := bwd_unit hu hm hv hmv hv.length_pos
  rw [Nat.add_zero] at h1' h2'
  exact ⟨h1, h2, by rw [h1]; exact h2', by rw [h2]; exact h1'⟩

/-- Instance: from the middle of `€`, and from the middle of an overlong unit after it. -/
example := C04_increment_decrement [0xE2, 0x82, 0xAC] [0xC1, 0x81] (by decide) (by decide) [0x80]
  [0xFF] 1 1 (by decide) (by decide)

/-- C04 in terms of codepoints. -/
theorem C04_codepoints (c d : Nat) (hc : c < 2 ^ 31) (hd : d < 2 ^ 31) (pre post : List UInt8)
    (i : Nat) (hi : i < (encode c).length) :
    let m := pre ++ encode c ++ (encode d ++ post)
    let p := pre.length
    fwd m (p + i) = .ok (p + (encode c).length) ∧ bwd m (p + (encode c).length) = .ok p ∧
    (fwd m (p + i) >>= bwd m) = .ok p := by
  intro m p
  have := C04_increment_decrement (encode c) (encode d) (encode_isUnit c hc) (encode_isUnit d hd)
    pre post i 0 hi (encode_isUnit d hd).length_pos
  exact ⟨this.1, this.2.1, this.2.2.1⟩

/-- Instance: from the last octet of `€`, followed by `á`. -/
example := C04_codepoints 0x20AC 0xE1 (by decide) (by decide) [0x80] [] 2 (by decide)

example : IsUnit (encode 0xE1) ∧ 1 < (encode 0xE1).length := by decide

/-- C05. On well-shaped text (in particular on UTF-8 text, `C05_utf8`), two iterators compare equal exactly when they lie in the same unit (end = end). -/
theorem C05_equality (us : List (List UInt8)) (hu : WellShaped us) (pre post : List UInt8)
    (hp : Followed post) (x y : Nat) (hx : x ≤ us.flatten.length) (hy : y ≤ us.flatten.length) :
    iterEq (pre ++ us.flatten ++ post) (pre.length + x) (pre.length + y)
      = .ok (decide (unitIndex us x = unitIndex us y)) := by
  obtain ⟨n, hn, hE⟩ := endAt_followed hp (pre ++ us.flatten)
  rw [List.length_append] at hE
  exact iterEq_text' _ us hu _ (holds_append pre us.flatten post) n hn hE x y hx hy

/-- Instance: "OÁ€" in an array, positions 1 and 2 (both octets of `Á`). -/
example : iterEq ([0x80] ++ [[0x4F], [0xC3, 0x81], [0xE2, 0x82, 0xAC]].flatten ++ [0xC3, 0x41])
    (1 + 1) (1 + 2) = .ok true :=
  C05_equality [[0x4F], [0xC3, 0x81], [0xE2, 0x82, 0xAC]]
    (by simp [WellShaped, IsUnit, announced, IsContinuation]) [0x80] [0xC3, 0x41]
    ⟨0xC3, rfl, by decide, by decide⟩ 1 2 (by decide) (by decide)

theorem C05_utf8 (cs : List Nat) (h : ∀ c ∈ cs, c < 2 ^ 31) (pre post : List UInt8)
    (hp : Followed post) (x y : Nat) (hx : x ≤ (encodeText cs).length)
    (hy : y ≤ (encodeText cs).length) :
    iterEq (pre ++ encodeText cs ++ post) (pre.length + x) (pre.length + y)
      = .ok (decide (unitIndex (cs.map encode) x = unitIndex (cs.map encode) y)) := by
  rw [encodeText_flatten] at *
  exact C05_equality _ (wellShaped_encode cs h) pre post hp x y hx hy

/-- Instance: the end of "OÁ€" and its last octet are different positions. -/
example : iterEq ([0x80] ++ encodeText [0x4F, 0xC1, 0x20AC] ++ [0]) (1 + 5) (1 + 6) = .ok false :=
  C05_utf8 [0x4F, 0xC1, 0x20AC] (by decide) [0x80] [0] ⟨0, rfl, by decide, by decide⟩ 5 6 (by decide)
    (by decide)

/-- C05. Hence `==` is symmetric and transitive there (reflexive: take `x = y`). -/
theorem C05_equivalence (us : List (List UInt8)) (hu : WellShaped us) (pre post : List UInt8)
    (hp : Followed post) (x y z : Nat) (hx : x ≤ us.flatten.length) (hy : y ≤ us.flatten.length)
    (hz : z ≤ us.flatten.length) :
    let m := pre ++ us.flatten ++ post
    let b := pre.length
    iterEq m (b + x) (b + x) = .ok true ∧
    iterEq m (b + x) (b + y) = iterEq m (b + y) (b + x) ∧
    (iterEq m (b + x) (b + y) = .ok true → iterEq m (b + y) (b + z) = .ok true →
      iterEq m (b + x) (b + z) = .ok true) := by
  intro m b
  simp only [m, b, C05_equality us hu pre post hp _ _ hx hx,
    C05_equality us hu pre post hp _ _ hx hy, C05_equality us hu pre post hp _ _ hy hx,
    C05_equality us hu pre post hp _ _ hy hz, C05_equality us hu pre post hp _ _ hx hz]
  refine ⟨by simp, by simp [eq_comm], ?_⟩
  simp only [Res.ok.injEq, decide_eq_true_eq]
  exact fun h1 h2 => h1.trans h2

/-- Instance: three positions in the same unit. -/
example := C05_equivalence [[0x4F], [0xC3, 0x81], [0xE2, 0x82, 0xAC]]
  (by simp [WellShaped, IsUnit, announced, IsContinuation]) [0x80] [0]
  ⟨0, rfl, by decide, by decide⟩ 3 4 5 (by decide) (by decide) (by decide)

example : WellShaped [[0x4F], [0xC3, 0x81], [0xE2, 0x82, 0xAC]] := by
  simp [WellShaped, IsUnit, announced, IsContinuation]

/-- C05, limits: on ill-formed text `==` is not symmetric ("\xC3" followed by "A") … -/
theorem C05_asymmetric_on_malformed :
    iterEq [0xC3, 0x41, 0] 0 1 = .ok true ∧ iterEq [0xC3, 0x41, 0] 1 0 = .ok false := by
  decide +kernel

/-- … and for a view whose following octet is a continuation octet, `end == end` is false. -/
theorem C05_end_not_reflexive_for_view : iterEq [0x41, 0x80, 0] 1 1 = .ok false := by
  decide +kernel

/-- C44. Every well-shaped sequence - overlong ones, surrogates and values beyond U+10FFFF
included - decodes to its payload bits. -/
theorem C44_decode_any_unit (u : List UInt8) (hu : IsUnit u) (pre post : List UInt8) (i : Nat)
    (hi : i < u.length) :
    cur (pre ++ u ++ post) (pre.length + i) = .ok ((payload u : Int), pre.length) :=
  cur_unit hu (holds_append pre u post) hi

/-- Instance: an overlong two-octet sequence for "A", from its second octet. -/
example : cur ([0x80] ++ [0xC1, 0x81] ++ [0xFF]) (1 + 1) = .ok (0x41, 1) :=
  C44_decode_any_unit [0xC1, 0x81] (by decide) [0x80] [0xFF] 1 (by decide)

/-- C44. The same for whole texts: iteration over any well-shaped text yields the payloads. -/
theorem C44_walk_any_units (us : List (List UInt8)) (hu : WellShaped us) (pre post : List UInt8)
    (o : UInt8) (ho : ¬ IsContinuation o) (fuel : Nat) (hf : us.length < fuel) :
    walk (pre ++ us.flatten ++ o :: post) (pre.length + us.flatten.length) fuel pre.length
      = .ok (us.map fun u => (payload u : Int)) := by
  apply walk_units _ us hu pre.length (holds_append pre us.flatten (o :: post)) o ?_ ho fuel hf
  rw [List.getElem?_append_right (by simp)]; simp

/-- Instance: an overlong "A", a surrogate and a value above U+10FFFF. -/
example : walk ([0x80] ++ [[0xC1, 0x81], [0xED, 0xA0, 0x80], [0xF4, 0xA0, 0xA0, 0xA0]].flatten ++
    0 :: []) (1 + 9) 4 1 = .ok [0x41, 0xD800, 1181728] :=
  C44_walk_any_units [[0xC1, 0x81], [0xED, 0xA0, 0x80], [0xF4, 0xA0, 0xA0, 0xA0]]
    (by simp [WellShaped, IsUnit, announced, IsContinuation]) [0x80] [] 0 (by decide) 4 (by decide)

/-- C44. So decoding is not injective: the overlong two-octet form of "A" reads as "A", a
surrogate half and a value above U+10FFFF are accepted. -/
theorem C44_overlong_accepted :
    (∃ u : List UInt8, IsUnit u ∧ u ≠ encode 0x41 ∧ payload u = 0x41 ∧
      walk (u ++ [0]) u.length 2 0 = .ok [0x41]) ∧
    walk ([0xED, 0xA0, 0x80] ++ [0]) 3 2 0 = .ok [0xD800] ∧
    walk ([0xF4, 0xA0, 0xA0, 0xA0] ++ [0]) 4 2 0 = .ok [1181728] := by
  refine ⟨⟨[0xC1, 0x81], ?_⟩, ?_⟩ <;> decide +kernel

end U5e
