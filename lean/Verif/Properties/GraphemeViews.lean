import Verif.Properties.GraphemeLoop
import Verif.Properties.GraphemeEnd
/-! # C19: what the grapheme loop over a view yields when the view is cut inside a grapheme -/
namespace U5e
open Spec

/-- Grapheme iteration towards an iterator that stands at position `s` of the text: the graphemes before the one `s` is in. -/
theorem traverses_until {I : CpIter} {pos : Nat → Nat} {cs : List Int} (S : Sim I pos cs) (fuel : Nat) (hf : cs.length < fuel)
    (s : Nat) (hs : s < cs.length) (i : Nat) (hi : i ≤ s) :
    ∃ shown g rest, segments isGraphemeBoundary (cs.drop i) = shown ++ g :: rest ∧ i + shown.flatten.length ≤ s ∧
      s < i + (shown ++ [g]).flatten.length ∧
      Traverses (graphemeInput I fuel) ⟨pos 0, pos cs.length, pos i, pos (i + firstLen (cs.drop i))⟩
        ⟨pos 0, pos cs.length, pos s, pos cs.length⟩ (segPos pos i shown) := by
  have hle := firstLen_le (cs.drop i)
  rw [List.length_drop] at hle
  obtain ⟨c, hc, hd⟩ := drop_cons_of_lt (l := cs) (i := i) (by omega)
  have hpos : 0 < firstLen (cs.drop i) := firstLen_pos (by rw [hd]; simp)
  have hne : ∀ b, (graphemeInput I fuel).ne ⟨pos 0, pos cs.length, pos i, pos (i + firstLen (cs.drop i))⟩
      ⟨pos 0, pos cs.length, pos s, pos cs.length⟩ = .ok b ↔ b = decide (i + firstLen (cs.drop i) ≤ s) := by
    intro b
    simp only [graphemeInput, eqG_sim S fuel 0 0 i (i + firstLen (cs.drop i)) s cs.length (by omega) (by omega)
      (by omega) (Nat.le_refl _) hf, Res.bind_ok, Res.pure_eq, Res.ok.injEq]
    have : decide ((i = cs.length ∧ s = cs.length) ∨ ∃ k, k < i + firstLen (cs.drop i) ∧ i ≤ k ∧
        (s = k ∨ (s ≤ k ∧ k < cs.length))) = decide (¬ i + firstLen (cs.drop i) ≤ s) := by
      apply decide_eq_decide.mpr
      constructor
      · rintro (h | ⟨k, h1, h2, h3⟩) <;> omega
      · intro h; exact Or.inr ⟨s, by omega, hi, Or.inl rfl⟩
    rw [this, decide_not, Bool.not_not]
    exact eq_comm
  have hseg : segments isGraphemeBoundary (cs.drop i) = (cs.drop i).take (firstLen (cs.drop i)) ::
      segments isGraphemeBoundary (cs.drop (i + firstLen (cs.drop i))) := by
    rw [← List.drop_drop, hd, segments_cons']
  have hlen : ((cs.drop i).take (firstLen (cs.drop i))).length = firstLen (cs.drop i) := by
    simp; omega
  by_cases h : i + firstLen (cs.drop i) ≤ s
  · obtain ⟨shown, g, rest, h1, h2, h3, h4⟩ := traverses_until S fuel hf s hs (i + firstLen (cs.drop i)) h
    refine ⟨(cs.drop i).take (firstLen (cs.drop i)) :: shown, g, rest, by rw [hseg, h1]; rfl, ?_, ?_, ?_⟩
    · rw [List.flatten_cons, List.length_append, hlen]; omega
    · rw [List.cons_append, List.flatten_cons, List.length_append, hlen]; omega
    · rw [segPos, hlen]
      refine .step (s' := ⟨pos 0, pos cs.length, pos i, pos (i + firstLen (cs.drop i))⟩)
        (s'' := ⟨pos 0, pos cs.length, pos (i + firstLen (cs.drop i)),
          pos (i + firstLen (cs.drop i) + firstLen (cs.drop (i + firstLen (cs.drop i))))⟩)
        ((hne true).mpr (by simp [h])) rfl ?_ h4
      simp only [graphemeInput, GIter.inc, findEnd_sim S fuel (i + firstLen (cs.drop i)) (by omega) hf,
        Res.bind_ok, Res.pure_eq]
  · refine ⟨[], _, _, hseg, by simpa using hi, ?_, .done ((hne false).mpr (by simp [h]))⟩
    simp only [List.nil_append, List.flatten_cons, List.flatten_nil, List.append_nil, hlen]
    omega
termination_by cs.length - i

/-- The same for any iterator over a text `cs` followed by a codepoint `z` that there is no break before. -/
theorem cut_sim {I : CpIter} {pos : Nat → Nat} {cs : List Int} (S : Sim I pos cs) (z : Int)
    (hz : I.deref (pos cs.length) = .ok (z, pos cs.length)) (fuel : Nat) (hf : cs.length < fuel) (a : Int)
    (hl : cs.getLast? = some a) (hb : ¬ Breaks a z) (gs : List (List Int)) (hgs : IsSegmentation Breaks cs gs) :
    let c := fun k => (cs ++ [z]).getD k 0
    ∃ s shown g rest, s < cs.length ∧ (s = 0 ∨ Breaks (c (s + 1)) (c s)) ∧
      (∀ u, s < u → u < cs.length → ¬ Breaks (c (u + 1)) (c u)) ∧
      gs = shown ++ g :: rest ∧ shown.flatten.length ≤ s ∧ s < (shown ++ [g]).flatten.length ∧
      (graphemeBegin I fuel (pos 0) (pos cs.length) >>= graphemeLoop I fuel (pos 0) (pos cs.length) fuel) = .ok shown ∧
      (cs.length < 2 ^ 31 → filterGraphemes I fuel (pos 0) (pos cs.length) [] (collectGrapheme I fuel) =
        .ok ((shown.length : Int), shown)) := by
  obtain rfl := segments_unique hgs
  rcases List.eq_nil_or_concat cs with rfl | ⟨l, a', rfl⟩
  · simp at hl
  rw [List.concat_eq_append] at *
  intro c
  obtain rfl : a' = a := by simpa using hl
  have hn : (l ++ [a']).length = l.length + 1 := by simp
  have hend := gAt_sim S z hz fuel (l ++ [a']).length (Nat.le_refl _) hf
  have h1 : (l ++ [a'] ++ [z]).getD ((l ++ [a']).length - 1) 0 = a' := by
    rw [hn]; simp [List.getD_eq_getElem?_getD]
  have h2 : (l ++ [a'] ++ [z]).getD (l.length + 1) 0 = z := by
    rw [List.getD_eq_getElem?_getD, List.getElem?_append_right (by simp)]; simp
  rw [if_neg (by simp), h1] at hend
  have hbz : ¬ isGraphemeBoundary a' z = true := fun h => hb ((isGraphemeBoundary_iff a' z).mp h)
  have hscan : scan (l ++ [a'] ++ [z]) a' (l ++ [a']).length = scan (l ++ [a'] ++ [z]) ((l ++ [a'] ++ [z]).getD (l.length + 1) 0) l.length := by
    rw [hn, scan, h2, if_neg hbz]
  rw [hscan] at hend
  obtain ⟨k1, k2, k3⟩ := (scan_eq_iff (l ++ [a'] ++ [z]) l.length _).mp rfl
  generalize scan (l ++ [a'] ++ [z]) ((l ++ [a'] ++ [z]).getD (l.length + 1) 0) l.length = s at *
  have hE : graphemeEnd I fuel (pos 0) (pos (l ++ [a']).length) =
      .ok ⟨pos 0, pos (l ++ [a']).length, pos s, pos (l ++ [a']).length⟩ := by
    rw [graphemeEnd, hend]; simp [firstLen]
  have hB := graphemeBegin_sim S fuel hf
  obtain ⟨shown, g, rest, e1, e2, e3, e4⟩ := traverses_until S fuel hf s (by omega) 0 (Nat.zero_le _)
  rw [List.drop_zero, Nat.zero_add] at e4
  rw [List.drop_zero] at e1
  rw [Nat.zero_add] at e2 e3
  have hfl : shown.flatten ++ (g ++ rest.flatten) = l ++ [a'] := by
    rw [← segments_flatten isGraphemeBoundary (l ++ [a']), e1]; simp
  have hcount : shown.length ≤ (l ++ [a']).length := by
    have := segments_length_le (l ++ [a'])
    rw [e1] at this
    simp at this ⊢; omega
  refine ⟨s, shown, g, rest, by omega, ?_, ?_, e1, e2, e3, ?_, ?_⟩
  · exact k2.imp id fun h => (isGraphemeBoundary_iff _ _).mp h
  · intro u hu1 hu2 hh
    have := (isGraphemeBoundary_iff _ _).mpr hh
    simp only [c, k3 u hu1 (by omega)] at this
    cases this
  · rw [hB, Res.bind_ok]
    refine graphemeLoop_eq hE e4 fuel (by rw [segPos_length]; omega) _ ⟨(segPos_length _ _ _).symm, ?_⟩
    intro i x cc hx hcx
    have hpre : segPos pos 0 (segments isGraphemeBoundary (l ++ [a'])) = segPos pos 0 shown ++
        segPos pos (0 + shown.flatten.length) (g :: rest) := by
      rw [e1]
      generalize g :: rest = r
      generalize 0 = i0
      clear e1 e2 e3 e4 hfl hcount hx hcx
      induction shown generalizing i0 with
      | nil => simp [segPos]
      | cons y ys ih =>
        simp only [List.cons_append, segPos, List.flatten_cons, List.length_append]
        rw [ih, Nat.add_assoc]
    refine segPos_read S fuel hf (segments isGraphemeBoundary (l ++ [a'])) 0 (Nat.zero_le _) (by rw [segments_flatten, List.drop_zero]) i x cc ?_ ?_
    · rw [hpre, List.getElem?_append_left (by
        have := (List.getElem?_eq_some_iff.mp hx).1; exact this)]
      exact hx
    · rw [e1, List.getElem?_append_left (List.getElem?_eq_some_iff.mp hcx).1]
      exact hcx
  · intro h31
    simp only [filterGraphemes, hB, hE, Res.bind_ok]
    rw [filter_eq _ _ e4 fuel (by rw [segPos_length]; omega) [],
      collect_fold S fuel hf (by omega) shown 0 [] 0 ⟨g ++ rest.flatten, by rw [List.drop_zero]; exact hfl⟩ (Nat.zero_le _) (Int.le_refl _)
        (by omega)]
    simp

/-- C19 for a view cut inside a grapheme (utf32ne): the codepoint `z` after the view does not break from the last one of it.
The loop `for (gi = grapheme_begin(); gi != grapheme_end(); ++gi)` ends, and yields only the graphemes before the one that
`grapheme_end()` points into: the last grapheme of the view is never among them, and earlier ones may be missing as well
(`C19_cut_flag`). `s` is where `grapheme_end()` points: the last place in the view whose codepoint breaks from its
SUCCESSOR, the two compared in swapped order, or the beginning. -/
theorem C19_cut_utf32 (pre cs post : List Int) (z : Int) (fuel : Nat) (hf : cs.length < fuel) (a : Int)
    (hl : cs.getLast? = some a) (hb : ¬ Breaks a z) (gs : List (List Int)) (hgs : IsSegmentation Breaks cs gs) :
    let c := fun k => (cs ++ [z]).getD k 0
    let I := utf32Iter (pre ++ cs ++ z :: post)
    let b := pre.length
    let e := pre.length + cs.length
    ∃ s shown g rest, s < cs.length ∧ (s = 0 ∨ Breaks (c (s + 1)) (c s)) ∧
      (∀ u, s < u → u < cs.length → ¬ Breaks (c (u + 1)) (c u)) ∧
      gs = shown ++ g :: rest ∧ shown.flatten.length ≤ s ∧ s < (shown ++ [g]).flatten.length ∧
      (graphemeBegin I fuel b e >>= graphemeLoop I fuel b e fuel) = .ok shown ∧
      (cs.length < 2 ^ 31 → filterGraphemes I fuel b e [] (collectGrapheme I fuel) = .ok ((shown.length : Int), shown)) :=
  cut_sim (sim_utf32 pre cs (z :: post)) z (sim_utf32_end pre cs z post) fuel hf a hl hb gs hgs

/-- C19 for UTF-8 text followed by any octets that can be read as a codepoint (`o` is not a continuation octet, is not 0xFF
and the octets it claims are there; valid or not): if there is a break before the value they give, the loop yields all
graphemes of the text, otherwise those before the one `grapheme_end()` points into, as in `C19_cut_utf32`. -/
theorem C19_view_utf8 (cs : List Nat) (h : ∀ c ∈ cs, c < 2 ^ 31) (pre post : List UInt8) (o : UInt8)
    (ho : ¬ IsContinuation o) (hff : o ≠ 0xFF) (hcl : claimed o ≤ post.length + 1) (fuel : Nat) (hf : cs.length < fuel)
    (gs : List (List Int)) (hgs : IsSegmentation Breaks (cs.map Int.ofNat) gs) :
    let m := pre ++ encodeText cs ++ o :: post
    let I := utf8Iter m
    let b := pre.length
    let e := pre.length + (encodeText cs).length
    let c := fun k => (cs.map Int.ofNat ++ [valueAt m e]).getD k 0
    ((∀ a : Nat, cs.getLast? = some a → Breaks a (valueAt m e)) →
      (graphemeBegin I fuel b e >>= graphemeLoop I fuel b e fuel) = .ok gs ∧
      (cs.length < 2 ^ 31 → filterGraphemes I fuel b e [] (collectGrapheme I fuel) = .ok ((gs.length : Int), gs))) ∧
    (∀ a : Nat, cs.getLast? = some a → ¬ Breaks a (valueAt m e) →
      ∃ s shown g rest, s < cs.length ∧ (s = 0 ∨ Breaks (c (s + 1)) (c s)) ∧
        (∀ u, s < u → u < cs.length → ¬ Breaks (c (u + 1)) (c u)) ∧
        gs = shown ++ g :: rest ∧ shown.flatten.length ≤ s ∧ s < (shown ++ [g]).flatten.length ∧
        (graphemeBegin I fuel b e >>= graphemeLoop I fuel b e fuel) = .ok shown ∧
        (cs.length < 2 ^ 31 → filterGraphemes I fuel b e [] (collectGrapheme I fuel) =
          .ok ((shown.length : Int), shown))) := by
  intro m I b e c
  have hat : m[e]? = some o := by
    simp only [m, e]
    rw [← List.length_append, List.getElem?_append_right (Nat.le_refl _)]
    simp
  have hlen : m.length = e + (post.length + 1) := by simp [m, e]; omega
  have S := sim_followed pre _ (wellShaped_encode cs h) (o :: post) ⟨o, rfl, ho, by simpa using hcl⟩
  rw [map_payload_encode cs h, ← encodeText_flatten] at S
  have hz : I.deref e = .ok (valueAt m e, e) := by
    refine ((C72_read m e).1 _ _).mpr ⟨o, ⟨⟨o, hat, ho⟩, Nat.le_refl _, fun k h1 h2 => by omega⟩, hat, hff, by omega, ?_⟩
    simp [readAt, hat]
  have hp0 : upos pre.length (cs.map encode) 0 = b := upos_zero _ _
  have hpe : upos pre.length (cs.map encode) (cs.map Int.ofNat).length = e := by rw [List.length_map, upos_encode_end]
  have hlast : ∀ x, (cs.map Int.ofNat).getLast? = some x → ∃ a : Nat, cs.getLast? = some a ∧ x = a := by
    intro x hx
    rw [List.getLast?_map] at hx
    cases hl : cs.getLast? with
    | none => simp [hl] at hx
    | some a => simp [hl] at hx; exact ⟨a, rfl, hx.symm⟩
  constructor
  · intro hb
    have hbb : ∀ x, (cs.map Int.ofNat).getLast? = some x → isGraphemeBoundary x (valueAt m e) = true := by
      intro x hx
      obtain ⟨a, ha, rfl⟩ := hlast x hx
      exact (isGraphemeBoundary_iff _ _).mpr (hb a ha)
    obtain rfl := segments_unique hgs
    have h1 := graphemeLoop_sim S fuel (by simpa using hf) _ (by rw [hpe]; exact hz) hbb
    rw [hp0, hpe] at h1
    refine ⟨h1, fun h31 => ?_⟩
    have h2 := collect_sim S fuel (by simpa using hf) (by simp; omega) _ (by rw [hpe]; exact hz) hbb
    rwa [hp0, hpe] at h2
  · intro a ha hb
    have := cut_sim S _ (by rw [hpe]; exact hz) fuel (by simpa using hf) a (by rw [List.getLast?_map, ha]; rfl) hb gs hgs
    rw [hp0, hpe, List.length_map] at this
    exact this

/-- C19. If the view ends with a base and marks (Extend, ZWJ, SpacingMark; the base as in `C23_base_and_marks`) and another
mark follows in memory, exactly the last grapheme is missing. -/
theorem C19_cut_marks (pre post : List Int) (p : List (List Int)) (b : Int) (ms : List Int) (z : Int)
    (hgs : IsSegmentation Breaks (p ++ [b :: ms]).flatten (p ++ [b :: ms]))
    (hms : ∀ x ∈ ms ++ [z], gcbResolve x = .EXTEND ∨ gcbResolve x = .ZWJ ∨ gcbResolve x = .SPACINGMARK)
    (hb : gcbResolve b ∉ [GCB.EXTEND, .ZWJ, .SPACINGMARK, .E_MODIFIER, .GLUE_AFTER_ZWJ, .E_BASE_GAZ, .CONTROL, .CR, .LF])
    (fuel : Nat) (hf : (p ++ [b :: ms]).flatten.length < fuel) :
    let I := utf32Iter (pre ++ (p ++ [b :: ms]).flatten ++ z :: post)
    let e := pre.length + (p ++ [b :: ms]).flatten.length
    (graphemeBegin I fuel pre.length e >>= graphemeLoop I fuel pre.length e fuel) = .ok p := by
  intro I e
  have hcs : (p ++ [b :: ms]).flatten = p.flatten ++ (b :: ms) := by simp
  have hlen : (p ++ [b :: ms]).flatten.length = p.flatten.length + (ms.length + 1) := by rw [hcs]; simp
  have hmm : ∀ x y, (gcbResolve x = .EXTEND ∨ gcbResolve x = .ZWJ ∨ gcbResolve x = .SPACINGMARK) →
      (gcbResolve y = .EXTEND ∨ gcbResolve y = .ZWJ ∨ gcbResolve y = .SPACINGMARK) → ¬ Breaks x y := by
    intro x y hx hy
    simp only [Breaks]
    intro hcon; apply hcon
    rw [← boundary_false_iff]
    rcases hx with h | h | h <;> rcases hy with h' | h' | h' <;> rw [h, h'] <;> decide
  obtain ⟨a, ha, hba⟩ : ∃ a, (p ++ [b :: ms]).flatten.getLast? = some a ∧ ¬ Breaks a z := by
    rw [hcs]
    rcases List.eq_nil_or_concat ms with rfl | ⟨l, x, rfl⟩
    · refine ⟨b, by simp, ?_⟩
      simp only [Breaks]
      intro hcon; apply hcon
      rw [← boundary_false_iff]
      generalize gcbResolve b = cb at hb
      rcases hms z (by simp) with h | h | h <;> rw [h] <;> revert hb <;> cases cb <;> decide
    · refine ⟨x, ?_, hmm _ _ (hms x (by simp)) (hms z (by simp))⟩
      rw [List.concat_eq_append, ← List.cons_append, ← List.append_assoc, List.getLast?_append]; rfl
  obtain ⟨s, shown, g, rest, h1, h2, h3, h4, h5, h6, h7, _⟩ := C19_cut_utf32 pre _ post z fuel hf a ha hba _ hgs
  have hc : ∀ j, j ≤ ms.length + 1 → ((p ++ [b :: ms]).flatten ++ [z]).getD (p.flatten.length + j) 0 =
      (b :: (ms ++ [z])).getD j 0 := by
    intro j hj
    rw [hcs, List.append_assoc, List.getD_eq_getElem?_getD, List.getElem?_append_right (by omega),
      Nat.add_sub_cancel_left]
    simp [List.getD_eq_getElem?_getD]
  have hmem : ∀ j, 0 < j → j ≤ ms.length + 1 → (b :: (ms ++ [z])).getD j 0 ∈ ms ++ [z] := by
    intro j hj1 hj2
    cases j with
    | zero => omega
    | succ j =>
      have hj : j < (ms ++ [z]).length := by simp; omega
      have : (b :: (ms ++ [z])).getD (j + 1) 0 = (ms ++ [z])[j] := by
        simp [List.getD_eq_getElem?_getD, List.getElem?_eq_getElem hj]
      rw [this]; exact List.getElem_mem hj
  have hfirst : Breaks ((b :: (ms ++ [z])).getD 1 0) b := by
    simp only [Breaks]
    have := hms _ (hmem 1 (by omega) (by omega))
    rw [← boundary_false_iff]
    generalize gcbResolve b = cb at hb
    rcases this with h | h | h <;> rw [h] <;> revert hb <;> cases cb <;> decide
  have hs : s = p.flatten.length := by
    rcases Nat.lt_trichotomy s p.flatten.length with h | h | h
    · have := h3 p.flatten.length h (by omega)
      have h0 := hc 0 (by omega)
      rw [Nat.add_zero, List.getD_cons_zero] at h0
      simp only [hc 1 (by omega), h0] at this
      exact absurd hfirst this
    · exact h
    · obtain ⟨j, rfl⟩ : ∃ j, s = p.flatten.length + j := ⟨s - p.flatten.length, by omega⟩
      rcases h2 with h2 | h2
      · omega
      · replace h2 : Breaks (((p ++ [b :: ms]).flatten ++ [z]).getD (p.flatten.length + (j + 1)) 0)
          (((p ++ [b :: ms]).flatten ++ [z]).getD (p.flatten.length + j) 0) := h2
        rw [hc (j + 1) (by omega), hc j (by omega)] at h2
        exact absurd h2 (hmm _ _ (hms _ (hmem _ (by omega) (by omega))) (hms _ (hmem _ (by omega) (by omega))))
  have hsh : shown = p := by
    have hne := hgs.nonempty
    have hlens : ∀ x ∈ p ++ [b :: ms], 0 < x.length := fun x hx => List.length_pos_iff.mpr (hne x hx)
    have hk : shown.length = p.length := by
      rcases Nat.lt_trichotomy shown.length p.length with h | h | h
      · have : shown ++ [g] <+: p := by
          refine List.prefix_of_prefix_length_le (l₃ := p ++ [b :: ms]) ⟨rest, by rw [h4]; simp⟩ ⟨_, rfl⟩ (by simp; omega)
        obtain ⟨t, ht⟩ := this
        have := congrArg (fun x => x.flatten.length) ht
        simp only [List.flatten_append, List.length_append] at this h6
        omega
      · exact h
      · have : p ++ [b :: ms] <+: shown := by
          refine List.prefix_of_prefix_length_le (l₃ := p ++ [b :: ms]) ⟨[], by simp⟩ ⟨g :: rest, by rw [h4]⟩ (by simp; omega)
        obtain ⟨t, ht⟩ := this
        have := congrArg (fun x => x.flatten.length) ht
        simp only [List.flatten_append, List.length_append] at this
        have h9 := hlen
        simp only [List.flatten_append, List.length_append] at h9
        omega
    exact ((List.append_inj h4 hk.symm).1).symm
  rw [← hsh]; exact h7

-- The views "xa" and "xa\u0301" of the buffer "xa\u0301\u0302".
example := C19_cut_marks [] [] [[0x78]] 0x61 [] 0x301 (segmentation_of (by decide +kernel)) (by decide +kernel)
  (by decide +kernel) 9 (by decide)
example := C19_cut_marks [] [] [[0x78]] 0x61 [0x301] 0x302 (segmentation_of (by decide +kernel)) (by decide +kernel)
  (by decide +kernel) 9 (by decide)

example := C19_cut_utf32 [0x78] [0x79, 0x61] [] 0x301 3 (by decide) 0x61 rfl
  (fun h => absurd ((isGraphemeBoundary_iff _ _).mpr h) (by decide +kernel)) [[0x79], [0x61]]
  (segmentation_of (by decide +kernel))
-- The octet 0xC1 0x81 is an overlong "A".
example := C19_view_utf8 [0x79, 0x61] (by decide) [0x78] [0x81] 0xC1 (by decide) (by decide) (by decide) 3 (by decide)
  [[0x79], [0x61]] (segmentation_of (by decide +kernel))
example := C19_view_utf8 [0x79, 0x61] (by decide) [0x78] [0x81] 0xCC (by decide) (by decide) (by decide) 3 (by decide)
  [[0x79], [0x61]] (segmentation_of (by decide +kernel))

/-- C19. More than the last grapheme can be missing: the view "yx" and the first half of a flag, in a text where the flag's
second half follows, yields "y" only. -/
theorem C19_cut_flag :
    let I := utf32Iter [0x79, 0x78, 0x1F1E7, 0x1F1F7, 0]
    (graphemeBegin I 4 0 3 >>= graphemeLoop I 4 0 3 4) = .ok [[0x79]] ∧
    IsSegmentation Breaks [0x79, 0x78, 0x1F1E7] [[0x79], [0x78], [0x1F1E7]] :=
  ⟨by decide +kernel, segmentation_of (by decide +kernel)⟩

end U5e
