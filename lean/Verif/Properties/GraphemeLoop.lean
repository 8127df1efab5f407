import Verif.Properties.Examples
/-!
# C19, C26: the grapheme loop without a counter, and `filter` over the graphemes of UTF-8 text
-/
namespace U5e
open Spec

theorem graphemeLoop_eq {I : CpIter} {gfuel b e : Nat} {z : GIter} (hz : graphemeEnd I gfuel b e = .ok z)
    {g : GIter} {xs : List Grapheme} (h : Traverses (graphemeInput I gfuel) g z xs) (fuel : Nat)
    (hf : xs.length < fuel) (gs : List (List Int))
    (hgs : gs.length = xs.length ∧ ∀ (i : Nat) (x : Grapheme) c, xs[i]? = some x → gs[i]? = some c →
      readRange I x.last gfuel x.first = .ok c) :
    graphemeLoop I gfuel b e fuel g = .ok gs := by
  induction h generalizing fuel gs with
  | done h =>
    cases fuel with
    | zero => simp at hf
    | succ fuel =>
      obtain rfl : gs = [] := List.length_eq_zero_iff.mp hgs.1
      simp only [graphemeInput] at h
      rename_i s t
      cases hr : s.eqG I gfuel t with
      | ok r => rw [hr] at h; simp at h; subst h; simp [graphemeLoop, hz, hr]
      | ub => rw [hr] at h; simp at h
      | tmo => rw [hr] at h; simp at h
  | step h1 h2 h3 h4 ih =>
    cases fuel with
    | zero => simp at hf
    | succ fuel =>
      rename_i s s' s'' t x xs
      cases gs with
      | nil => simp at hgs
      | cons c gs =>
        simp only [graphemeInput] at h1 h2 h3
        cases hr : s.eqG I gfuel t with
        | ok r =>
          rw [hr] at h1
          simp at h1
          subst h1
          obtain ⟨hx, rfl⟩ := Prod.mk.inj (Res.ok.inj h2)
          have hc := hgs.2 0 x c rfl rfl
          rw [← hx] at hc
          simp only [graphemeLoop, hz, hr, Res.bind_ok, Bool.false_eq_true, if_false, hc, h3]
          rw [ih hz fuel (by simpa using hf) gs ⟨by simpa using hgs.1, fun i y d hy hd => hgs.2 (i + 1) y d hy hd⟩]
          simp
        | ub => rw [hr] at h1; simp at h1
        | tmo => rw [hr] at h1; simp at h1

theorem graphemeLoop_sim {I : CpIter} {pos : Nat → Nat} {cs : List Int} (S : Sim I pos cs) (fuel : Nat)
    (hf : cs.length < fuel) (z : Int) (hz : I.deref (pos cs.length) = .ok (z, pos cs.length))
    (hb : ∀ a, cs.getLast? = some a → isGraphemeBoundary a z = true) :
    (graphemeBegin I fuel (pos 0) (pos cs.length) >>= graphemeLoop I fuel (pos 0) (pos cs.length) fuel) =
      .ok (segments isGraphemeBoundary cs) := by
  have hz := graphemeEnd_sim S fuel hf z hz hb
  have hb := graphemeBegin_sim S fuel hf
  have ht := traverses_graphemes S fuel hf 0 (Nat.zero_le _)
  rw [List.drop_zero, Nat.zero_add] at ht
  have hlen := segments_length_le cs
  rw [hb, Res.bind_ok]
  exact graphemeLoop_eq hz ht fuel (by rw [segPos_length]; omega) _
    ⟨(segPos_length _ _ _).symm, segPos_read S fuel hf _ 0 (Nat.zero_le _) (by rw [segments_flatten]; simp)⟩

/-- C19, C20 and C22 for texts of any length: the loop `for (gi = grapheme_begin(); gi != grapheme_end(); ++gi)`
terminates for every sequence of codepoints, however long, visits non-empty consecutive parts that make up the text and
break exactly where the pair rules say, and visits the same in both encodings. -/
theorem C19_C20_C22_loop (cs : List Nat) (h : ∀ c ∈ cs, c < 2 ^ 31) (fuel : Nat) (hf : cs.length < fuel) :
    ∃ gs, IsSegmentation Breaks (cs.map Int.ofNat) gs ∧
      (graphemeBegin (utf8Iter (encodeText cs ++ [0])) fuel 0 (encodeText cs).length >>=
        graphemeLoop (utf8Iter (encodeText cs ++ [0])) fuel 0 (encodeText cs).length fuel) = .ok gs ∧
      (graphemeBegin (utf32Iter (cs.map Int.ofNat ++ [0])) fuel 0 cs.length >>=
        graphemeLoop (utf32Iter (cs.map Int.ofNat ++ [0])) fuel 0 cs.length fuel) = .ok gs := by
  refine ⟨segments isGraphemeBoundary (cs.map Int.ofNat), segments_breaks _, ?_, ?_⟩
  · have e3 : [] ++ encodeText cs ++ (encode 0 ++ []) = encodeText cs ++ [0] := by simp [encode]
    obtain ⟨S, hend⟩ := sim_encodeText cs h [] 0 (by decide) []
    rw [e3] at S hend
    have := graphemeLoop_sim S fuel (by simpa) 0 (by simpa using hend) (fun a _ => brk_zero a)
    rw [List.length_map, upos_zero, upos_encode_end, List.length_nil, Nat.zero_add] at this
    exact this
  · have := graphemeLoop_sim (sim_utf32 [] (cs.map Int.ofNat) [0]) fuel (by simpa) 0
      (sim_utf32_end [] (cs.map Int.ofNat) 0 []) (fun a _ => brk_zero a)
    simpa using this

/-- Instance. -/
example := C19_C20_C22_loop [0xD, 0xA, 0x1100, 0x1161, 0x65, 0x301] (by decide) 7 (by decide)

/-- The same for every utf32ne string, negative values and values above 2^31 - 1 included. -/
theorem C19_C20_loop_utf32 (cs : List Int) (fuel : Nat) (hf : cs.length < fuel) :
    ∃ gs, IsSegmentation Breaks cs gs ∧
      (graphemeBegin (utf32Iter (cs ++ [0])) fuel 0 cs.length >>=
        graphemeLoop (utf32Iter (cs ++ [0])) fuel 0 cs.length fuel) = .ok gs := by
  refine ⟨segments isGraphemeBoundary cs, segments_breaks _, ?_⟩
  have := graphemeLoop_sim (sim_utf32 [] cs [0]) fuel (by simpa) 0
    (sim_utf32_end [] cs 0 []) (fun a _ => brk_zero a)
  simpa using this

example : (graphemeBegin (utf8Iter (encodeText [0x65, 0x301, 0x20AC] ++ [0])) 4 0 6 >>=
    graphemeLoop (utf8Iter (encodeText [0x65, 0x301, 0x20AC] ++ [0])) 4 0 6 4) = .ok [[0x65, 0x301], [0x20AC]] := by
  decide +kernel

/-- C26 for the graphemes of a UTF-8 string: the operation is called once per grapheme, in order, with the octet range
of the grapheme, and the results are added. -/
theorem C26_filter_graphemes_utf8 {β : Type} (cs : List Nat) (h : ∀ c ∈ cs, c < 2 ^ 31) (gs : List (List Nat))
    (hgs : IsSegmentation Breaks (cs.map Int.ofNat) (gs.map (·.map Int.ofNat))) (fuel : Nat) (hf : cs.length < fuel)
    (out : β) (op : Grapheme → β → Res (Int × β)) :
    filterGraphemes (utf8Iter (encodeText cs ++ [0])) fuel 0 (encodeText cs).length out op =
      ((List.range gs.length).map fun k =>
        (⟨(encodeText (gs.take k).flatten).length, (encodeText (gs.take (k + 1)).flatten).length⟩ : Grapheme)).foldlM
        (fun st g => do
          let r ← op g st.2
          let k ← addInt st.1 r.1
          pure (k, r.2)) (0, out) := by
  have hseg := segments_unique hgs
  have hfl : gs.flatten = cs := by
    have := congrArg List.flatten hseg
    rw [segments_flatten, ← List.map_flatten] at this
    exact ints_injective this
  have e3 : [] ++ encodeText cs ++ (encode 0 ++ []) = encodeText cs ++ [0] := by simp [encode]
  obtain ⟨S, hend⟩ := sim_encodeText cs h [] 0 (by decide) []
  rw [e3] at S hend
  have := filterGraphemes_sim S fuel (by simpa) 0 (by simpa using hend) (fun a _ => brk_zero a) out op
  rw [segPos_range, ← hseg] at this
  rw [List.length_map, upos_zero, upos_encode_end, List.length_nil, Nat.zero_add] at this
  rw [this]
  congr 1
  rw [List.length_map]
  refine List.map_congr_left fun k hk => ?_
  have key : ∀ k, upos 0 (cs.map encode) (((gs.map (·.map Int.ofNat)).take k).flatten.length) =
      (encodeText (gs.take k).flatten).length := by
    intro k
    rw [upos_encode, Nat.zero_add]
    have hlen : ((gs.map (·.map Int.ofNat)).take k).flatten.length = (gs.take k).flatten.length := by
      rw [← List.map_take, ← List.map_flatten, List.length_map]
    rw [hlen]
    congr 2
    conv => lhs; rw [← hfl, ← List.take_append_drop k gs, List.flatten_append]
    simp
  simp only [Nat.zero_add, key]

/-- Instance: collecting the graphemes of "e\u0301€". -/
example := C26_filter_graphemes_utf8 [0x65, 0x301, 0x20AC] (by decide) [[0x65, 0x301], [0x20AC]]
  (segmentation_of (by decide +kernel)) 4 (by decide) ([] : List Grapheme) (fun g o => .ok (1, o ++ [g]))

end U5e
