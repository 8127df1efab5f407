import Verif.Proofs.Search
import Verif.Proofs.Order
import Verif.Properties.Std
/-!
# C71: comparing and searching octets is comparing and searching codepoints

`encodeText cs` is the native `std::string`; its `==`, `<` and `find` are those of lists of octets (`std::char_traits<char>`
compares as `unsigned char`), `FirstMatch` is Spec/Search.lean. `stdEqual`, `stdLess`, `stdSearch` are `std::equal`,
`std::lexicographical_compare` and `std::search` over the modelled iterators.
-/
namespace U5e
open Spec

/-- C71, comparing: two UTF-8 texts compare through codepoint iterators exactly as their native strings do, for
equality and for order; wherever the texts are in memory. -/
theorem C71_order (cs ds : List Nat) (hc : ∀ c ∈ cs, c < 2 ^ 31) (hd : ∀ c ∈ ds, c < 2 ^ 31)
    (pre post pre' post' : List UInt8) (z z' : Nat) (hz : z < 2 ^ 31) (hz' : z' < 2 ^ 31) (fuel : Nat)
    (hf : cs.length < fuel) :
    let I := utf8Iter (pre ++ encodeText cs ++ (encode z ++ post))
    let J := utf8Iter (pre' ++ encodeText ds ++ (encode z' ++ post'))
    let e := pre.length + (encodeText cs).length
    let e' := pre'.length + (encodeText ds).length
    stdEqual I J e e' fuel pre.length pre'.length = .ok (decide (encodeText cs = encodeText ds)) ∧
    stdLess I J e e' fuel pre.length pre'.length = .ok (decide (encodeText cs < encodeText ds)) := by
  intro I J e e'
  obtain ⟨h1, h2⟩ := C54_two_ranges_utf8 cs ds hc hd pre post pre' post' z z' hz hz' fuel hf
  refine ⟨h1.trans ?_, h2.trans ?_⟩
  · exact congrArg Res.ok (decide_eq_decide.mpr (encodeText_inj hc hd).symm)
  · exact congrArg Res.ok (decide_eq_decide.mpr (encodeText_lt_iff hc hd).symm)

/-- Instance: U+FFFD and U+10000, which UTF-16 would order the other way round. -/
example := C71_order [0x41, 0xFFFD] [0x41, 0x10000] (by decide) (by decide) [0x80] [] [] [0xFF] 0 0x61
  (by decide) (by decide) 4 (by decide)
example : encodeText [0x41, 0xFFFD] < encodeText [0x41, 0x10000] := by decide +kernel

theorem encodeText_append (a b : List Nat) : encodeText (a ++ b) = encodeText a ++ encodeText b := by
  simp [encodeText]

theorem firstMatch_octets {cs ds : List Nat} (hc : ∀ c ∈ cs, c < 2 ^ 31) (hd : ∀ c ∈ ds, c < 2 ^ 31) {i : Nat}
    (h : FirstMatch ds cs i) : FirstMatch (encodeText ds) (encodeText cs) (encodeText (cs.take i)).length := by
  obtain ⟨h1, h2⟩ := h
  have hsplit : ∀ i, encodeText cs = encodeText (cs.take i) ++ encodeText (cs.drop i) := by
    intro i; rw [← encodeText_append, List.take_append_drop]
  have hdrop : ∀ i, (encodeText cs).drop (encodeText (cs.take i)).length = encodeText (cs.drop i) := by
    intro i
    conv => lhs; arg 2; rw [hsplit i]
    exact List.drop_left
  have hmem : ∀ i, ∀ c ∈ cs.drop i, c < 2 ^ 31 := fun i c h => hc c (List.mem_of_mem_drop h)
  refine ⟨fun j hj hp => ?_, ?_⟩
  · by_cases hne : ds = []
    · subst hne
      have : i = 0 := by
        rcases Nat.eq_zero_or_pos i with h | h
        · exact h
        · exact absurd List.nil_prefix (h1 0 h)
      subst this
      simp [encodeText] at hj
    · obtain ⟨i', _, hi', hp'⟩ := encodeText_occurs hd hc hne hp
      by_cases hlt : i' < i
      · exact h1 i' hlt hp'
      · have : cs.take i <+: cs.take i' := List.take_prefix_take_left (by omega)
        obtain ⟨t, ht⟩ := this
        have := congrArg (fun l => (encodeText l).length) ht
        simp only [encodeText_append, List.length_append] at this
        omega
  · rcases h2 with ⟨h2, h3⟩ | h2
    · refine .inl ⟨?_, ?_⟩
      · have hl := congrArg List.length (hsplit i)
        rw [List.length_append] at hl
        have : encodeText (cs.drop i) ≠ [] := by
          rw [List.drop_eq_getElem_cons h2, encodeText_cons]
          intro h
          exact encode_ne_nil _ (List.append_eq_nil_iff.mp h).1
        have := List.length_pos_iff.mpr this
        omega
      · rw [hdrop]
        exact (encodeText_prefix_iff hd (hmem i)).mpr h3
    · subst h2
      rw [List.take_length]; exact .inr rfl

theorem firstMatch_ints {cs ds : List Nat} {i : Nat} :
    FirstMatch (ds.map Int.ofNat) (cs.map Int.ofNat) i ↔ FirstMatch ds cs i := by
  have hp : ∀ j, ds.map Int.ofNat <+: (cs.map Int.ofNat).drop j ↔ ds <+: cs.drop j := by
    intro j
    rw [← List.map_drop]
    refine ⟨fun h => ?_, fun h => h.map _⟩
    have := h.map Int.toNat
    simpa [List.map_map, Function.comp_def] using this
  simp only [FirstMatch, hp, List.length_map]

/-- C71, searching: `std::search` for one UTF-8 text in another ends exactly where `std::string::find` does on the native
strings (at the end if that finds nothing), and that is the first place where the codepoints occur. -/
theorem C71_search (cs ds : List Nat) (hc : ∀ c ∈ cs, c < 2 ^ 31) (hd : ∀ c ∈ ds, c < 2 ^ 31)
    (pre post pre' post' : List UInt8) (z z' : Nat) (hz : z < 2 ^ 31) (hz' : z' < 2 ^ 31) (fuel : Nat)
    (hf : cs.length < fuel) (hf' : ds.length < fuel) :
    let I := utf8Iter (pre ++ encodeText cs ++ (encode z ++ post))
    let J := utf8Iter (pre' ++ encodeText ds ++ (encode z' ++ post'))
    let e := pre.length + (encodeText cs).length
    let e' := pre'.length + (encodeText ds).length
    ∃ k, stdSearch I J e e' fuel pre.length pre'.length = .ok (pre.length + k) ∧
      FirstMatch (encodeText ds) (encodeText cs) k ∧
      ∃ i, k = (encodeText (cs.take i)).length ∧ FirstMatch ds cs i := by
  intro I J e e'
  obtain ⟨S, _⟩ := sim_encodeText cs hc pre z hz post
  obtain ⟨T, _⟩ := sim_encodeText ds hd pre' z' hz' post'
  obtain ⟨i, h1, _, h3⟩ := stdSearch_sim S T fuel (by simpa using hf) (by simpa using hf')
  rw [firstMatch_ints] at h3
  rw [List.length_map, List.length_map, upos_zero, upos_zero, upos_encode_end, upos_encode_end, upos_encode] at h1
  exact ⟨_, h1, firstMatch_octets hc hd h3, i, rfl, h3⟩

/-- Instance: "né" in "un né". -/
example := C71_search [0x75, 0x6E, 0x20, 0x6E, 0xE9] [0x6E, 0xE9] (by decide) (by decide) [0x80] [] [] [0xFF] 0 0x61
  (by decide) (by decide) 6 (by decide) (by decide)
/-- It is found after the first "n" that does not continue; not found, the end is returned. -/
example : let I := utf8Iter (encodeText [0x75, 0x6E, 0x20, 0x6E, 0xE9] ++ [0])
    stdSearch I (utf8Iter (encodeText [0x6E, 0xE9] ++ [0])) 6 3 6 0 0 = .ok 3 ∧
    FirstMatch (encodeText [0x6E, 0xE9]) (encodeText [0x75, 0x6E, 0x20, 0x6E, 0xE9]) 3 ∧
    stdSearch I (utf8Iter (encodeText [0x6E, 0x6E] ++ [0])) 6 2 6 0 0 = .ok 6 ∧
    stdSearch I (utf8Iter (encodeText [0xE9] ++ [0])) 6 2 6 0 0 = .ok 4 ∧
    stdSearch I (utf8Iter ([] ++ [0])) 6 0 6 0 0 = .ok 0 := by decide +kernel

/-- C71, searching across encodings: text and pattern may be UTF-8 or utf32ne, each; the place found is that of the first
occurrence of the codepoints. -/
theorem C71_search_mixed (cs ds : List Nat) (hc : ∀ c ∈ cs, c < 2 ^ 31) (hd : ∀ c ∈ ds, c < 2 ^ 31)
    (pre post pre' post' : List UInt8) (z z' : Nat) (hz : z < 2 ^ 31) (hz' : z' < 2 ^ 31)
    (ipre ipost ipre' ipost' : List Int) (fuel : Nat) (hf : cs.length < fuel) (hf' : ds.length < fuel) :
    let I := utf8Iter (pre ++ encodeText cs ++ (encode z ++ post))
    let J := utf8Iter (pre' ++ encodeText ds ++ (encode z' ++ post'))
    let K := utf32Iter (ipre ++ cs.map Int.ofNat ++ ipost)
    let L := utf32Iter (ipre' ++ ds.map Int.ofNat ++ ipost')
    ∃ i, FirstMatch ds cs i ∧
      stdSearch I L (pre.length + (encodeText cs).length) (ipre'.length + ds.length) fuel pre.length ipre'.length =
        .ok (pre.length + (encodeText (cs.take i)).length) ∧
      stdSearch K J (ipre.length + cs.length) (pre'.length + (encodeText ds).length) fuel ipre.length pre'.length =
        .ok (ipre.length + i) ∧
      stdSearch K L (ipre.length + cs.length) (ipre'.length + ds.length) fuel ipre.length ipre'.length =
        .ok (ipre.length + i) := by
  intro I J K L
  obtain ⟨S, _⟩ := sim_encodeText cs hc pre z hz post
  obtain ⟨T, _⟩ := sim_encodeText ds hd pre' z' hz' post'
  have U := sim_utf32 ipre (cs.map Int.ofNat) ipost
  have V := sim_utf32 ipre' (ds.map Int.ofNat) ipost'
  obtain ⟨i, h1, _, h3⟩ := stdSearch_sim S V fuel (by simpa using hf) (by simpa using hf')
  obtain ⟨i', h1', _, h3'⟩ := stdSearch_sim U T fuel (by simpa using hf) (by simpa using hf')
  obtain ⟨i'', h1'', _, h3''⟩ := stdSearch_sim U V fuel (by simpa using hf) (by simpa using hf')
  rw [h3'.unique h3] at h1'
  rw [h3''.unique h3] at h1''
  rw [List.length_map, List.length_map, upos_zero, upos_encode_end, upos_encode] at h1
  rw [List.length_map, List.length_map, upos_zero, upos_encode_end] at h1'
  rw [List.length_map, List.length_map] at h1''
  exact ⟨i, firstMatch_ints.mp h3, h1, h1', h1''⟩

/-- Instance. -/
example := C71_search_mixed [0x75, 0x6E, 0x20, 0x6E, 0xE9] [0x6E, 0xE9] (by decide) (by decide) [0x80] [] [] [0xFF] 0 0x61
  (by decide) (by decide) [1] [] [] [-4] 6 (by decide) (by decide)

/-- Without well-formed text the two differ: "A" is found by codepoints in an overlong form, and a lone continuation
octet is found by octets inside a codepoint. -/
theorem C71_wellformed_needed :
    stdSearch (utf8Iter [0xC1, 0x81, 0]) (utf8Iter [0x41, 0]) 2 1 4 0 0 = .ok 0 ∧
    FirstMatch [0x41] [0xC1, 0x81] 2 ∧
    stdEqual (utf8Iter [0xC1, 0x81, 0]) (utf8Iter [0x41, 0]) 2 1 4 0 0 = .ok true ∧
    FirstMatch [0xA9] (encodeText [0xE9]) 1 := by decide +kernel

end U5e
