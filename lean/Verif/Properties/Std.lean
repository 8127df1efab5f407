import Verif.Proofs.Std
import Verif.Proofs.SimInst
import Verif.Properties.Utf8Read
/-!
# C54: standard algorithms over codepoint iterators; C55: reverse iterators
-/
namespace U5e
open Spec

/-- C54, single-range algorithms over UTF-8: `at_ k` is the place of codepoint number k. They terminate, stay inside
memory and give what they give on the sequence of codepoints: the number of codepoints (as an `int`),
the first codepoint that satisfies a predicate (the end if there is none), how many satisfy it, and the
first largest codepoint. -/
theorem C54_single_range_utf8 (cs : List Nat) (h : ∀ c ∈ cs, c < 2 ^ 31) (pre post : List UInt8) (z : Nat)
    (hz : z < 2 ^ 31) (hn : cs.length < 2 ^ 31) (fuel : Nat) (hf : cs.length < fuel) (pred : Int → Bool) :
    let I := utf8Iter (pre ++ encodeText cs ++ (encode z ++ post))
    let at_ := fun k => pre.length + (encodeText (cs.take k)).length
    (∀ k, k ≤ cs.length → stdNext I k (at_ 0) = .ok (at_ k)) ∧
    stdDistance I (at_ cs.length) fuel (at_ 0) 0 = .ok (cs.length : Int) ∧
    stdFindIf I pred (at_ cs.length) fuel (at_ 0) = .ok (at_ (cs.findIdx fun c : Nat => pred (c : Int))) ∧
    stdCountIf I pred (at_ cs.length) fuel (at_ 0) 0 = .ok ((cs.countP fun c : Nat => pred (c : Int)) : Int) ∧
    (cs ≠ [] → ∃ k c, stdMaxElement I (at_ cs.length) fuel (at_ 0) = .ok (at_ k) ∧ cs[k]? = some c ∧
      ∀ j d, cs[j]? = some d → d ≤ c ∧ (j < k → d < c)) := by
  intro I at_
  obtain ⟨S, _⟩ := sim_encodeText cs h pre z hz post
  have hpos : upos pre.length (cs.map encode) = at_ := by
    funext k; rw [upos_encode]
  rw [hpos] at S
  have hl : (cs.map Int.ofNat).length = cs.length := by simp
  refine ⟨?_, ?_, ?_, ?_, ?_⟩
  · intro k hk
    have := stdNext_sim S k 0 (by omega)
    rw [Nat.zero_add] at this; exact this
  · have := stdDistance_sim S fuel 0 cs.length (Nat.zero_le _) (by omega) (by omega) 0 (by omega) (by omega)
    rw [Nat.sub_zero, Int.zero_add] at this; exact this
  · have := stdFindIf_sim S pred fuel 0 (Nat.zero_le _) (by omega)
    rw [hl, List.drop_zero, Nat.zero_add, List.findIdx_map] at this
    exact this
  · have := stdCountIf_sim S pred fuel 0 (Nat.zero_le _) (by omega) 0 (by omega) (by omega)
    rw [hl, List.drop_zero, Int.zero_add, List.countP_map] at this
    exact this
  · intro hne
    obtain ⟨k, c, h1, h2, h3⟩ := stdMaxElement_sim S fuel (by omega) (by simpa using hne)
    rw [hl] at h1
    rw [List.getElem?_map] at h2
    cases hk : cs[k]? with
    | none => rw [hk] at h2; simp at h2
    | some a =>
      rw [hk] at h2
      obtain rfl : (a : Int) = c := by simpa using h2
      refine ⟨k, a, h1, hk, fun j d hd => ?_⟩
      have := h3 j d (by rw [List.getElem?_map, hd]; rfl)
      exact ⟨by omega, fun hj => by have := this.2 hj; omega⟩

/-- Instance: "Olá€" in an array. -/
example := C54_single_range_utf8 [0x4F, 0x6C, 0xE1, 0x20AC] (by decide) [0x80] [0xFF] 0x61 (by decide) (by decide) 5
  (by decide) (fun c => 127 < c)

/-- C54, the same over utf32ne. (`std::distance` is the difference of the positions there.) -/
theorem C54_single_range_utf32 (pre cs post : List Int) (hn : cs.length < 2 ^ 31) (fuel : Nat)
    (hf : cs.length < fuel) (pred : Int → Bool) :
    let I := utf32Iter (pre ++ cs ++ post)
    let e := pre.length + cs.length
    stdFindIf I pred e fuel pre.length = .ok (pre.length + cs.findIdx pred) ∧
    stdCountIf I pred e fuel pre.length 0 = .ok ((cs.countP pred : Nat) : Int) ∧
    (cs ≠ [] → ∃ k c, stdMaxElement I e fuel pre.length = .ok (pre.length + k) ∧ cs[k]? = some c ∧
      ∀ j d, cs[j]? = some d → d ≤ c ∧ (j < k → d < c)) := by
  intro I e
  have S := sim_utf32 pre cs post
  refine ⟨?_, ?_, ?_⟩
  · have := stdFindIf_sim S pred fuel 0 (Nat.zero_le _) (by omega)
    rw [List.drop_zero, Nat.zero_add] at this; exact this
  · have := stdCountIf_sim S pred fuel 0 (Nat.zero_le _) (by omega) 0 (by omega) (by omega)
    rw [List.drop_zero, Int.zero_add] at this; exact this
  · intro hne
    exact stdMaxElement_sim S fuel (by omega) hne

/-- Instance. -/
example := C54_single_range_utf32 [1] [0x4F, 0x6C, 0xE1, 0x20AC] [] (by decide) 5 (by decide) (fun c => 127 < c)

/-- C54: counting more than 2^31-1 codepoints of UTF-8 with `std::distance` overflows its `int`. -/
theorem C54_distance_overflow (cs : List Nat) (h : ∀ c ∈ cs, c < 2 ^ 31) (hn : 2 ^ 31 ≤ cs.length) (fuel : Nat)
    (hf : cs.length < fuel) :
    stdDistance (utf8Iter (encodeText cs ++ [0])) (encodeText cs).length fuel 0 0 = .ub := by
  obtain ⟨S, _⟩ := sim_encodeText cs h [] 0 (by decide) []
  have e3 : [] ++ encodeText cs ++ (encode 0 ++ []) = encodeText cs ++ [0] := by simp [encode]
  rw [e3] at S
  have := stdDistance_overflow S fuel 0 cs.length (Nat.zero_le _) (by simp) (by omega) 0 (by omega) (by omega) (by omega)
  rwa [upos_zero, upos_encode_end, List.length_nil, Nat.zero_add] at this

/-- Instance: 2^31 letters. -/
example := C54_distance_overflow (List.replicate (2 ^ 31) 0x61)
  (fun c hc => by rw [List.eq_of_mem_replicate hc]; decide) (by rw [List.length_replicate]; exact Nat.le_refl _)
  (2 ^ 31 + 1) (by rw [List.length_replicate]; exact Nat.lt_succ_self _)

/-- C54, two ranges in UTF-8: `std::equal` decides equality of the codepoint sequences (overlong forms
do not occur in `encodeText`), and `std::lexicographical_compare` their lexicographical order. -/
theorem C54_two_ranges_utf8 (cs ds : List Nat) (hc : ∀ c ∈ cs, c < 2 ^ 31) (hd : ∀ c ∈ ds, c < 2 ^ 31)
    (pre post pre' post' : List UInt8) (z z' : Nat) (hz : z < 2 ^ 31) (hz' : z' < 2 ^ 31) (fuel : Nat)
    (hf : cs.length < fuel) :
    let I := utf8Iter (pre ++ encodeText cs ++ (encode z ++ post))
    let J := utf8Iter (pre' ++ encodeText ds ++ (encode z' ++ post'))
    let e := pre.length + (encodeText cs).length
    let e' := pre'.length + (encodeText ds).length
    stdEqual I J e e' fuel pre.length pre'.length = .ok (decide (cs = ds)) ∧
    stdLess I J e e' fuel pre.length pre'.length = .ok (decide (cs < ds)) := by
  intro I J e e'
  obtain ⟨S, _⟩ := sim_encodeText cs hc pre z hz post
  obtain ⟨T, _⟩ := sim_encodeText ds hd pre' z' hz' post'
  have hmap : ∀ xs ys : List Nat, (xs.map Int.ofNat = ys.map Int.ofNat ↔ xs = ys) := by
    intro xs ys
    refine ⟨fun h => ?_, fun h => by rw [h]⟩
    have := congrArg (List.map Int.toNat) h
    simpa [List.map_map, Function.comp_def] using this
  have hlt : ∀ xs ys : List Nat, (xs.map Int.ofNat < ys.map Int.ofNat ↔ xs < ys) := by
    intro xs
    induction xs with
    | nil => intro ys; cases ys <;> simp
    | cons x xs ih =>
      intro ys
      cases ys with
      | nil => simp
      | cons y ys =>
        rw [List.map_cons, List.map_cons, List.cons_lt_cons_iff, List.cons_lt_cons_iff, ih]
        simp [Int.ofNat_lt, Int.ofNat_inj]
  have h1 := stdEqual_sim S T fuel 0 0 (Nat.zero_le _) (Nat.zero_le _) (by simpa using hf)
  have h2 := stdLess_sim S T fuel 0 0 (Nat.zero_le _) (Nat.zero_le _) (by simpa using hf)
  rw [List.length_map, List.length_map, upos_zero, upos_zero, upos_encode_end, upos_encode_end, List.drop_zero,
    List.drop_zero] at h1 h2
  refine ⟨h1.trans ?_, h2.trans ?_⟩
  · congr 1; exact decide_eq_decide.mpr (hmap cs ds)
  · congr 1; exact decide_eq_decide.mpr (hlt cs ds)

/-- Instance: "Olá" and "Ol€". -/
example := C54_two_ranges_utf8 [0x4F, 0x6C, 0xE1] [0x4F, 0x6C, 0x20AC] (by decide) (by decide) [0x80] [] [] [0xFF] 0 0x61
  (by decide) (by decide) 4 (by decide)

/-- C54, two ranges of different encodings: comparing UTF-8 with utf32ne text compares codepoints. -/
theorem C54_two_ranges_mixed (cs : List Nat) (hc : ∀ c ∈ cs, c < 2 ^ 31) (pre post : List UInt8) (z : Nat)
    (hz : z < 2 ^ 31) (pre' ds post' : List Int) (fuel : Nat) (hf : cs.length < fuel) :
    let I := utf8Iter (pre ++ encodeText cs ++ (encode z ++ post))
    let J := utf32Iter (pre' ++ ds ++ post')
    let e := pre.length + (encodeText cs).length
    let e' := pre'.length + ds.length
    stdEqual I J e e' fuel pre.length pre'.length = .ok (decide (cs.map Int.ofNat = ds)) ∧
    stdLess I J e e' fuel pre.length pre'.length = .ok (decide (cs.map Int.ofNat < ds)) := by
  intro I J e e'
  obtain ⟨S, _⟩ := sim_encodeText cs hc pre z hz post
  have T := sim_utf32 pre' ds post'
  have h1 := stdEqual_sim S T fuel 0 0 (Nat.zero_le _) (Nat.zero_le _) (by simpa using hf)
  have h2 := stdLess_sim S T fuel 0 0 (Nat.zero_le _) (Nat.zero_le _) (by simpa using hf)
  rw [List.length_map, upos_zero, upos_encode_end, List.drop_zero, List.drop_zero] at h1 h2
  exact ⟨h1, h2⟩

/-- Instance: "Olá" in UTF-8 and in UTF-32. -/
example := C54_two_ranges_mixed [0x4F, 0x6C, 0xE1] (by decide) [0x80] [] 0 (by decide) [7] [0x4F, 0x6C, 0xE1] [] 4
  (by decide)

/-- Non-vacuity: "Olá€" — four codepoints, the first above 127 is at octet 2, the largest at octet 4; compared
with "Olé". -/
example : let I := utf8Iter (encodeText [0x4F, 0x6C, 0xE1, 0x20AC] ++ [0])
    stdDistance I 7 9 0 0 = .ok 4 ∧ stdFindIf I (fun c => 127 < c) 7 9 0 = .ok 2 ∧
    stdCountIf I (fun c => 127 < c) 7 9 0 0 = .ok 2 ∧ stdMaxElement I 7 9 0 = .ok 4 ∧
    stdLess I (utf8Iter (encodeText [0x4F, 0x6C, 0xE9] ++ [0])) 7 4 9 0 0 = .ok true ∧
    stdEqual I (utf32Iter [0x4F, 0x6C, 0xE1, 0x20AC, 0]) 7 4 9 0 0 = .ok true := by decide +kernel

/-- C54 does not say that equal codepoints mean equal octets: an overlong "A" compares equal to "A". -/
theorem C54_overlong_equal :
    stdEqual (utf8Iter [0xC1, 0x81, 0]) (utf8Iter [0x41, 0]) 2 1 9 0 0 = .ok true := by decide +kernel

/-- C55, utf32ne: a loop over `std::reverse_iterator`s from the end to the beginning reads the codepoints in
reverse. -/
theorem C55_reverse_utf32 (pre cs post : List Int) (fuel : Nat) (hf : cs.length < fuel) :
    revWalk (revBase32 (pre ++ cs ++ post)) pre.length fuel (pre.length + cs.length) = .ok cs.reverse := by
  have := revWalk_sim (sim_utf32 pre cs post) fuel cs.length (Nat.le_refl _) hf
  rw [List.take_length] at this; exact this

/-- Instance. -/
example := C55_reverse_utf32 [7] [0x4F, 0x6C, 0xE1] [8] 4 (by decide)

/-- C55, UTF-8: the same loop over any non-empty text is undefined at its first `*r` (the reference it
returns dangles), even though moving and comparing reverse iterators works: the distance from the end to
the beginning is the number of codepoints, and `*--it` on a copy of `r.base()` reads them in reverse. -/
theorem C55_reverse_utf8 (cs : List Nat) (h : ∀ c ∈ cs, c < 2 ^ 31) (pre post : List UInt8) (z : Nat)
    (hz : z < 2 ^ 31) (hn : cs.length < 2 ^ 31) (fuel : Nat) (hf : cs.length < fuel) :
    let m := pre ++ encodeText cs ++ (encode z ++ post)
    let e := pre.length + (encodeText cs).length
    (cs ≠ [] → revWalk (revBase8 m) pre.length fuel e = .ub) ∧
    revDistance (revBase8 m) pre.length fuel e 0 = .ok (cs.length : Int) ∧
    walkBack m pre.length fuel e = .ok (cs.map Int.ofNat).reverse := by
  intro m e
  obtain ⟨S, _⟩ := sim_encodeText cs h pre z hz post
  refine ⟨?_, ?_, ?_⟩
  · intro hne
    have := revWalk_dangling S fuel cs.length (by simp) hf (by simpa using hne)
    rwa [upos_zero, upos_encode_end] at this
  · have := revDistance_sim S true fuel cs.length (by simp) hf 0 (by omega) (by omega)
    rw [upos_zero, upos_encode_end, Int.zero_add] at this
    exact this
  · exact C02_backward_iteration cs h pre (encode z ++ post) (followed_unit (encode_isUnit z hz) post) fuel hf

/-- Instance. -/
example := C55_reverse_utf8 [0x4F, 0x6C, 0xE1] (by decide) [0x80] [] 0 (by decide) (by decide) 4 (by decide)

/-- Non-vacuity: "Olá". -/
example : revWalk (revBase32 [0x4F, 0x6C, 0xE1, 0]) 0 9 3 = .ok [0xE1, 0x6C, 0x4F] ∧
    revWalk (revBase8 (encodeText [0x4F, 0x6C, 0xE1] ++ [0])) 0 9 4 = .ub ∧
    revDistance (revBase8 (encodeText [0x4F, 0x6C, 0xE1] ++ [0])) 0 9 4 0 = .ok 3 := by decide +kernel

end U5e
