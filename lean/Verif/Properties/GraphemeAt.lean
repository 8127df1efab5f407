import Verif.Properties.Grapheme
import Verif.Proofs.Utf8Spec
/-! # C23, C25: grapheme iterators at arbitrary positions; C26: filter; C39: grapheme-range append -/
namespace U5e
open Spec

variable {I : CpIter} {pos : Nat → Nat} {cs : List Int}

theorem segmentation_drop {p q : List (List Int)} {g : List Int}
    (hgs : IsSegmentation Breaks cs (p ++ g :: q)) (i : Nat) (hi : i < g.length) :
    IsSegmentation Breaks (cs.drop (p.flatten.length + i)) (g.drop i :: q) := by
  constructor
  · have := hgs.concat
    rw [← this, ← List.drop_drop]
    simp [List.drop_append, Nat.sub_eq_zero_of_le (Nat.le_of_lt hi)]
  · intro x hx
    rcases List.mem_cons.mp hx with rfl | hx
    · intro h; have := congrArg List.length h; simp at this; omega
    · exact hgs.nonempty x (by simp [hx])
  · intro x hx pre a b post he
    rcases List.mem_cons.mp hx with rfl | hx
    · refine hgs.inside g (by simp) (g.take i ++ pre) a b post ?_
      rw [List.append_assoc, ← he, List.take_append_drop]
    · exact hgs.inside x (by simp [hx]) pre a b post he
  · intro p' x y q' he a b ha hb
    cases p' with
    | nil =>
      simp only [List.nil_append, List.cons.injEq] at he
      obtain ⟨rfl, rfl⟩ := he
      refine hgs.between p g y q' rfl a b ?_ hb
      rw [← List.take_append_drop i g, List.getLast?_append, ha]; rfl
    | cons z p' =>
      simp only [List.cons_append, List.cons.injEq] at he
      exact hgs.between (p ++ g :: p') x y q' (by simp [he.2]) a b ha hb

theorem firstLen_of_segmentation {g : List Int} {q} (h : IsSegmentation Breaks cs (g :: q)) :
    firstLen cs = g.length := by
  have := segments_unique h
  cases cs with
  | nil => simp [segments] at this
  | cons c r =>
    rw [segments_cons'] at this
    rw [(List.cons.inj this).1, List.length_take, Nat.min_eq_left (firstLen_le _)]

theorem getD_segment {p q : List (List Int)} {g : List Int} (hc : (p ++ g :: q).flatten = cs)
    (z : Int) (k : Nat) (hk : k < g.length) :
    (cs ++ [z]).getD (p.flatten.length + k) 0 = g.getD k 0 := by
  rw [← hc, List.getD_eq_getElem?_getD, List.getD_eq_getElem?_getD, List.flatten_append,
    List.flatten_cons, List.append_assoc, List.getElem?_append_right (by omega),
    Nat.add_sub_cancel_left, List.append_assoc, List.getElem?_append_left hk]

theorem not_breaks_iff (a b : Int) : isGraphemeBoundary a b = false ↔ ¬ Breaks a b := by
  rw [Breaks, ← isGraphemeBoundary_iff]; simp

theorem locate (S : Sim I pos cs) (z : Int)
    (hz : I.deref (pos cs.length) = .ok (z, pos cs.length)) (fuel : Nat) (hf : cs.length < fuel)
    (p q : List (List Int)) (g : List Int) (hgs : IsSegmentation Breaks cs (p ++ g :: q)) (i : Nat)
    (hi : i < g.length) :
    ∃ x ≤ p.flatten.length + i, gAt I fuel (pos 0) (pos cs.length) (pos (p.flatten.length + i)) =
      .ok ⟨pos 0, pos cs.length, pos x, pos (p.flatten.length + g.length)⟩ ∧
      (x = p.flatten.length ↔ i = 0 ∨
        ((p.flatten.length = 0 ∨ Breaks (g.getD 1 0) (g.getD 0 0)) ∧
          ∀ k, 0 < k → k < i → ¬ Breaks (g.getD (k + 1) 0) (g.getD k 0))) := by
  have hc := hgs.concat
  have hlen : p.flatten.length + g.length ≤ cs.length := by rw [← hc]; simp
  have hgetl : ∀ k, k < g.length → (cs ++ [z]).getD (p.flatten.length + k) 0 = g.getD k 0 :=
    fun k hk => getD_segment hc z k hk
  generalize hs : p.flatten.length = s at *
  have hE : s + i + firstLen (cs.drop (s + i)) = s + g.length := by
    have h := segmentation_drop hgs i hi
    rw [hs] at h
    rw [firstLen_of_segmentation h]; simp; omega
  refine ⟨if s + i = 0 then 0 else scan (cs ++ [z]) ((cs ++ [z]).getD (s + i - 1) 0) (s + i), ?_, ?_, ?_⟩
  · split
    · omega
    · exact scan_le _ _ _
  · rw [gAt_sim S z hz fuel (s + i) (by omega) hf, hE]
  · cases i with
    | zero =>
      simp only [Nat.add_zero, true_or, iff_true]
      split
      · omega
      · next hs0 =>
        obtain ⟨v, rfl⟩ := Nat.exists_eq_succ_of_ne_zero hs0
        -- the previous part ends with a break
        rcases List.eq_nil_or_concat p with rfl | ⟨p', f, rfl⟩
        · simp at hs
        · rw [List.concat_eq_append] at *
          have hfne := hgs.nonempty f (by simp)
          cases hl : f.getLast? with
          | none => exact absurd (List.getLast?_eq_none_iff.mp hl) hfne
          | some a =>
            cases g with
            | nil => simp at hi
            | cons b g' =>
              have hbr : Breaks a b := hgs.between p' f (b :: g') q (by simp) a b hl (by simp)
              have h1 : (cs ++ [z]).getD v 0 = a := by
                obtain ⟨f', rfl⟩ : ∃ f', f = f' ++ [a] := by
                  rcases List.eq_nil_or_concat f with rfl | ⟨f', x, rfl⟩
                  · simp at hl
                  · simp at hl; subst hl; exact ⟨f', by simp⟩
                have hv : v = p'.flatten.length + f'.length := by
                  simp only [List.flatten_append, List.length_append, List.flatten_cons,
                    List.flatten_nil, List.length_cons, List.length_nil] at hs
                  omega
                rw [← hc, hv, List.getD_eq_getElem?_getD]
                simp
              have h2 := hgetl 0 (by simp)
              simp only [Nat.add_zero, List.getD_cons_zero] at h2
              simp only [Nat.succ_eq_add_one, Nat.add_sub_cancel, scan, h1] at h2 ⊢
              rw [h2, if_pos ((isGraphemeBoundary_iff a b).mpr hbr)]
    | succ i =>
      have hne : s + (i + 1) ≠ 0 := by omega
      rw [if_neg hne]
      simp only [Nat.succ_ne_zero, false_or]
      rw [show s + (i + 1) - 1 = s + i by omega, show s + (i + 1) = (s + i) + 1 by omega, scan,
        hgetl i (by omega), show s + i + 1 = s + (i + 1) by omega, hgetl (i + 1) hi]
      have hnb : isGraphemeBoundary (g.getD i 0) (g.getD (i + 1) 0) = false := by
        rw [not_breaks_iff]
        have hsplit : g = g.take i ++ g.getD i 0 :: g.getD (i + 1) 0 :: g.drop (i + 2) := by
          have h1 : g.getD i 0 = g[i] := by simp [List.getD_eq_getElem?_getD, List.getElem?_eq_getElem (show i < g.length by omega)]
          have h2 : g.getD (i + 1) 0 = g[i + 1] := by simp [List.getD_eq_getElem?_getD, List.getElem?_eq_getElem hi]
          rw [h1, h2, ← List.drop_eq_getElem_cons hi, ← List.drop_eq_getElem_cons (by omega),
            List.take_append_drop]
        exact hgs.inside g (by simp) _ _ _ _ hsplit
      rw [if_neg (by rw [hnb]; exact Bool.false_ne_true)]
      have hsc := scan_eq_iff (cs ++ [z]) (s + i) s
      rw [show s + i + 1 = s + (i + 1) by omega, hgetl (i + 1) hi] at hsc
      rw [hsc]
      have e0 := hgetl 0 (by omega)
      rw [Nat.add_zero] at e0
      rw [hgetl 1 (by omega), e0]
      constructor
      · rintro ⟨_, h2, h3⟩
        refine ⟨?_, ?_⟩
        · rcases h2 with h2 | h2
          · exact .inl h2
          · exact .inr ((isGraphemeBoundary_iff _ _).mp h2)
        · intro k hk1 hk2
          have := h3 (s + k) (by omega) (by omega)
          rw [show s + k + 1 = s + (k + 1) by omega, hgetl (k + 1) (by omega), hgetl k (by omega)] at this
          exact (not_breaks_iff _ _).mp this
      · rintro ⟨h2, h3⟩
        refine ⟨by omega, ?_, ?_⟩
        · rcases h2 with h2 | h2
          · exact .inl h2
          · exact .inr ((isGraphemeBoundary_iff _ _).mpr h2)
        · intro u hu1 hu2
          have hu : u = s + (u - s) := by omega
          have := h3 (u - s) (by omega) (by omega)
          rw [hu, show s + (u - s) + 1 = s + (u - s + 1) by omega, hgetl (u - s + 1) (by omega),
            hgetl (u - s) (by omega)]
          exact (not_breaks_iff _ _).mpr this

/-- C23. What a grapheme iterator constructed at an arbitrary codepoint covers, exactly: the end is always
the end of the grapheme containing the codepoint; the start is right exactly when the codepoint is the
first of its grapheme, or the scan - which after the first step compares neighbours in swapped order -
happens to stop there (`C23_counterexample` shows it may not). utf32ne text; `p`, `g`, `q` are the
graphemes before, at and after codepoint number `i` of `g`. -/
theorem C23_locate_utf32 (cs : List Int) (fuel : Nat) (hf : cs.length < fuel)
    (p q : List (List Int)) (g : List Int) (hgs : IsSegmentation Breaks cs (p ++ g :: q)) (i : Nat)
    (hi : i < g.length) :
    ∃ r, gAt (utf32Iter (cs ++ [0])) fuel 0 cs.length (p.flatten.length + i) = .ok r ∧
      r.endOf = p.flatten.length + g.length ∧
      (r.where_ = p.flatten.length ↔ i = 0 ∨
        ((p.flatten.length = 0 ∨ Breaks (g.getD 1 0) (g.getD 0 0)) ∧
          ∀ k, 0 < k → k < i → ¬ Breaks (g.getD (k + 1) 0) (g.getD k 0))) := by
  have S := sim_utf32 [] cs [0]
  obtain ⟨x, _, h1, h2⟩ := locate S 0 (sim_utf32_end [] cs 0 []) fuel hf p q g hgs i hi
  refine ⟨⟨0, cs.length, x, p.flatten.length + g.length⟩, ?_, rfl, h2⟩
  simpa using h1

/-- Instance: "x" and a Hangul syllable L V T, located at T. -/
example := C23_locate_utf32 [0x78, 0x1100, 0x1161, 0x11A8] 5 (by decide) [[0x78]] [] [0x1100, 0x1161, 0x11A8]
  (segmentation_of (by decide +kernel)) 2 (by decide)

/-- C23 for UTF-8 strings, at the octet where the codepoint starts. -/
theorem C23_locate_utf8 (cs : List Nat) (h : ∀ c ∈ cs, c < 2 ^ 31) (fuel : Nat)
    (hf : cs.length < fuel) (p q : List (List Int)) (g : List Int)
    (hgs : IsSegmentation Breaks (cs.map Int.ofNat) (p ++ g :: q)) (i : Nat) (hi : i < g.length) :
    let at_ := fun k => (encodeText (cs.take k)).length
    ∃ r, gAt (utf8Iter (encodeText cs ++ [0])) fuel 0 (encodeText cs).length
        (at_ (p.flatten.length + i)) = .ok r ∧
      r.endOf = at_ (p.flatten.length + g.length) ∧
      (r.where_ = at_ p.flatten.length ↔ i = 0 ∨
        ((p.flatten.length = 0 ∨ Breaks (g.getD 1 0) (g.getD 0 0)) ∧
          ∀ k, 0 < k → k < i → ¬ Breaks (g.getD (k + 1) 0) (g.getD k 0))) := by
  intro at_
  obtain ⟨S, hend⟩ := sim_encodeText cs h [] 0 (by decide) []
  obtain ⟨x, hx, h1, h2⟩ := locate S 0 (by simpa using hend) fuel (by simpa) p q g hgs i hi
  have e3 : [] ++ encodeText cs ++ (encode 0 ++ []) = encodeText cs ++ [0] := by simp [encode]
  have hpl : p.flatten.length + i < (cs.map Int.ofNat).length := by
    rw [← hgs.concat]; simp; omega
  have hat : ∀ k, upos ([] : List Octet).length (cs.map encode) k = at_ k := by
    intro k; rw [upos_encode]; simp [at_]
  have hinj : at_ x = at_ p.flatten.length ↔ x = p.flatten.length := by
    rw [← hat, ← hat]
    exact ⟨fun he => S.pos_inj (by omega) (by omega) he, fun he => by rw [he]⟩
  rw [e3, List.length_map, upos_encode_end, upos_zero, hat, hat, hat] at h1
  rw [List.length_nil, Nat.zero_add] at h1
  exact ⟨_, h1, rfl, hinj.trans h2⟩

/-- Instance: the same in UTF-8. -/
example := C23_locate_utf8 [0x78, 0x1100, 0x1161, 0x11A8] (by decide) 5 (by decide) [[0x78]] []
  [0x1100, 0x1161, 0x11A8] (segmentation_of (by decide +kernel)) 2 (by decide)

/-- C23, where the start of a grapheme iterator built at codepoint `j` ends up, exactly: at `j` if there
is a break before `j` (or `j = 0`); otherwise at the last codepoint `s` before `j` that breaks from its
SUCCESSOR - the two compared in swapped order - or at the beginning of the text. The position `j` may
also be the end of the string, whose terminator U+0000 breaks from everything. -/
theorem C23_start_exact (cs : List Int) (fuel : Nat) (hf : cs.length < fuel) (j : Nat)
    (hj : j ≤ cs.length) :
    let c := fun k => (cs ++ [0]).getD k 0
    ∃ r, gAt (utf32Iter (cs ++ [0])) fuel 0 cs.length j = .ok r ∧
      (j = 0 ∨ Breaks (c (j - 1)) (c j) → r.where_ = j) ∧
      (¬ (j = 0 ∨ Breaks (c (j - 1)) (c j)) → r.where_ < j ∧
        (r.where_ = 0 ∨ Breaks (c (r.where_ + 1)) (c r.where_)) ∧
        ∀ k, r.where_ < k → k < j → ¬ Breaks (c (k + 1)) (c k)) := by
  intro c
  have S := sim_utf32 [] cs [0]
  have hg := gAt_sim S 0 (sim_utf32_end [] cs 0 []) fuel j hj hf
  simp only [List.length_nil, Nat.zero_add, List.nil_append] at hg
  refine ⟨_, hg, ?_, ?_⟩
  · rintro (rfl | hb)
    · simp
    · cases j with
      | zero => simp
      | succ v =>
        simp only [Nat.add_sub_cancel] at hb
        have : isGraphemeBoundary ((cs ++ [0]).getD v 0) ((cs ++ [0]).getD (v + 1) 0) = true :=
          (isGraphemeBoundary_iff _ _).mpr hb
        simp only [Nat.succ_ne_zero, if_false, Nat.add_sub_cancel, scan, if_pos this]
  · intro hnb
    cases j with
    | zero => exact absurd (.inl rfl) hnb
    | succ v =>
      simp only [Nat.succ_ne_zero, false_or, Nat.add_sub_cancel] at hnb
      have hb : isGraphemeBoundary ((cs ++ [0]).getD v 0) ((cs ++ [0]).getD (v + 1) 0) = false :=
        (not_breaks_iff _ _).mpr hnb
      simp only [Nat.succ_ne_zero, if_false, Nat.add_sub_cancel, scan, hb, Bool.false_eq_true]
      have := (scan_eq_iff (cs ++ [0]) v _).mp rfl
      obtain ⟨h1, h2, h3⟩ := this
      refine ⟨by omega, ?_, ?_⟩
      · rcases h2 with h2 | h2
        · exact .inl h2
        · exact .inr ((isGraphemeBoundary_iff _ _).mp h2)
      · intro k hk1 hk2
        exact (not_breaks_iff _ _).mp (h3 k hk1 (by omega))

/-- Instance: two regional indicators after "ab", located at the second. -/
example := C23_start_exact [0x61, 0x62, 0x1F1E6, 0x1F1E7] 5 (by decide) 3 (by decide)

/-- Non-vacuity (both clauses): in "ab" + two regional indicators, an iterator built at the second
indicator starts at "b". -/
example : gAt (utf32Iter ([0x61, 0x62, 0x1F1E6, 0x1F1E7] ++ [0])) 5 0 4 3 = .ok ⟨0, 4, 1, 4⟩ ∧
    gAt (utf32Iter ([0x61, 0x62, 0x1F1E6, 0x1F1E7] ++ [0])) 5 0 4 2 = .ok ⟨0, 4, 2, 4⟩ := by
  decide +kernel

/-- All iterator operations at an octet inside a unit act as at its first octet. -/
theorem unit_ops {m : Mem} {s : Nat} {u : List Octet} (hu : IsUnit u) (hm : Holds m s u) {i : Nat}
    (hi : i < u.length) :
    (∀ x, iterEq m (s + i) x = iterEq m s x) ∧ bwd m (s + i) = bwd m s ∧
      cur m (s + i) = .ok ((payload u : Int), s) ∧ cur m s = .ok ((payload u : Int), s) := by
  have h0 := hu.length_pos
  have hr := rewind_unit hu hm hi
  have hr0 : rewind m s = .ok s := by simpa using rewind_unit hu hm h0
  refine ⟨fun x => by simp only [iterEq, hr, hr0], by simp only [bwd, hr, hr0], cur_unit hu hm hi, ?_⟩
  simpa using cur_unit hu hm h0

/-- C23 for UTF-8 strings at ANY octet of a codepoint: the iterator built there is the one built at the
first octet of the codepoint - except that inside the very first codepoint of the text the start is left
where it is, not moved to the first octet. -/
theorem C23_any_octet (l r : List Nat) (c : Nat) (h : ∀ x ∈ l ++ c :: r, x < 2 ^ 31) (fuel : Nat)
    (hf : (l ++ c :: r).length < fuel) (i : Nat) (hi : i < (encode c).length) :
    let I := utf8Iter (encodeText (l ++ c :: r) ++ [0])
    let e := (encodeText (l ++ c :: r)).length
    let s := (encodeText l).length
    ∃ g, gAt I fuel 0 e s = .ok g ∧
      gAt I fuel 0 e (s + i) = .ok (if l = [] then { g with where_ := i } else g) := by
  intro I e s
  have hc31 : c < 2 ^ 31 := h c (by simp)
  have hu := encode_isUnit c hc31
  have hM : encodeText (l ++ c :: r) ++ [0] = encodeText l ++ encode c ++ (encodeText r ++ [0]) := by
    simp [encodeText, List.append_assoc]
  have hm : Holds (encodeText (l ++ c :: r) ++ [0]) s (encode c) := by
    rw [hM]; exact holds_append _ _ _
  obtain ⟨o1, o2, o3, o4⟩ := unit_ops hu hm hi
  have hpos := hu.length_pos
  have he : e = s + (encode c).length + (encodeText r).length := by
    simp only [e, s, encodeText, List.flatMap_append, List.flatMap_cons, List.length_append]; omega
  have hEe : iterEq (encodeText (l ++ c :: r) ++ [0]) s e = .ok false := by
    have := iterEq_unit hu hm hpos e
    rw [Nat.add_zero] at this
    rw [this]; congr 1; apply decide_eq_false; omega
  have hEb : iterEq (encodeText (l ++ c :: r) ++ [0]) s 0 = .ok (decide (l = [])) := by
    have := iterEq_unit hu hm hpos 0
    rw [Nat.add_zero] at this
    rw [this]; congr 1; apply decide_eq_decide.mpr
    constructor
    · rintro ⟨h1, _⟩
      cases l with
      | nil => rfl
      | cons a l =>
        exfalso
        have := (encode_isUnit a (h a (by simp))).length_pos
        simp only [s, encodeText, List.flatMap_cons, List.length_append] at h1; omega
    · rintro rfl; simp [s, encodeText, hpos]
  -- the iterator at the first octet
  obtain ⟨S, hend⟩ := sim_encodeText (l ++ c :: r) h [] 0 (by decide) []
  have hg := gAt_sim S 0 (by simpa using hend) fuel l.length (by simp) (by simpa using hf)
  rw [List.length_map, upos_zero, upos_encode_end, upos_encode] at hg
  simp only [List.length_nil, Nat.zero_add, List.take_left'] at hg
  rw [show [] ++ encodeText (l ++ c :: r) ++ (encode 0 ++ []) = encodeText (l ++ c :: r) ++ [0] by
    simp [encode]] at hg
  refine ⟨_, hg, ?_⟩
  -- compare the two runs
  have hE : findEnd I fuel e (s + i) = findEnd I fuel e s := by
    simp only [findEnd, I, utf8Iter, o1, hEe, o3, o4, Res.bind_ok, Bool.false_eq_true, if_false]
  have hS : findStart I fuel 0 (s + i) = if l = [] then .ok (s + i) else findStart I fuel 0 s := by
    obtain ⟨n, rfl⟩ : ∃ n, fuel = n + 1 := ⟨fuel - 1, by omega⟩
    by_cases hl : l = []
    · rw [if_pos hl]
      simp only [findStart, I, utf8Iter, o1, hEb, Res.bind_ok]
      rw [if_pos (by simp [hl])]; rfl
    · rw [if_neg hl]
      have hd : decide (l = []) = false := decide_eq_false hl
      simp only [findStart, findStartLoop, I, utf8Iter, o1, o2, hEb, hd, Res.bind_ok,
        Bool.false_eq_true, if_false, o3, o4]
  have hgg : gAt I fuel 0 e s = .ok _ := hg
  simp only [gAt] at hgg ⊢
  rw [hE, hS]
  by_cases hl : l = []
  · subst hl
    simp only [if_true, Res.bind_ok]
    have hs0 : s = 0 := by simp [s, encodeText]
    cases hfe : findEnd I fuel e s with
    | ok x =>
      rw [hfe] at hgg
      cases hfs : findStart I fuel 0 s with
      | ok y =>
        rw [hfs] at hgg
        simp only [Res.bind_ok, Res.pure_eq, Res.ok.injEq, GIter.mk.injEq] at hgg ⊢
        refine ⟨trivial, rfl, by omega, hgg.2.2.2⟩
      | ub => rw [hfs] at hgg; simp at hgg
      | tmo => rw [hfs] at hgg; simp at hgg
    | ub => cases hfs : findStart I fuel 0 s <;> rw [hfe, hfs] at hgg <;> simp at hgg
    | tmo => cases hfs : findStart I fuel 0 s <;> rw [hfe, hfs] at hgg <;> simp at hgg
  · simp only [hl, if_false]
    exact hgg

/-- Instance: from the last octet of `€` in "é€a". -/
example := C23_any_octet [0xE9] [0x61] 0x20AC (by decide) 4 (by decide) 2 (by decide)

example : gAt (utf8Iter (encodeText [0xE9, 0x301, 0x20AC] ++ [0])) 4 0 7 1 = .ok ⟨0, 7, 1, 4⟩ ∧
    gAt (utf8Iter (encodeText [0xE9, 0x301, 0x20AC] ++ [0])) 4 0 7 6 =
      gAt (utf8Iter (encodeText [0xE9, 0x301, 0x20AC] ++ [0])) 4 0 7 4 := by decide +kernel

/-- C23 corollary: in graphemes "base + marks" - all but the first codepoint are Extend, ZWJ or
SpacingMark, the first is none of Extend, ZWJ, SpacingMark, E_Modifier, Glue_After_Zwj, E_Base_GAZ -
every position is located correctly. -/
theorem C23_base_and_marks (cs : List Int) (fuel : Nat) (hf : cs.length < fuel)
    (p q : List (List Int)) (b : Int) (ms : List Int)
    (hgs : IsSegmentation Breaks cs (p ++ (b :: ms) :: q))
    (hms : ∀ x ∈ ms, gcbResolve x = .EXTEND ∨ gcbResolve x = .ZWJ ∨ gcbResolve x = .SPACINGMARK)
    (hb : gcbResolve b ∉ [GCB.EXTEND, .ZWJ, .SPACINGMARK, .E_MODIFIER, .GLUE_AFTER_ZWJ, .E_BASE_GAZ])
    (i : Nat) (hi : i < (b :: ms).length) :
    gAt (utf32Iter (cs ++ [0])) fuel 0 cs.length (p.flatten.length + i) =
      .ok ⟨0, cs.length, p.flatten.length, p.flatten.length + (b :: ms).length⟩ := by
  have S := sim_utf32 [] cs [0]
  obtain ⟨x, _, h1, h2⟩ := locate S 0 (sim_utf32_end [] cs 0 []) fuel hf p q _ hgs i hi
  have hx : x = p.flatten.length := by
    rw [h2]
    cases i with
    | zero => exact .inl rfl
    | succ i =>
      have hi' : i < ms.length := by simpa using hi
      refine .inr ⟨.inr ?_, ?_⟩
      · have hm : (b :: ms).getD 1 0 ∈ ms := by
          cases ms with
          | nil => simp at hi'
          | cons m ms => simp
        simp only [Breaks, List.getD_cons_zero]
        rw [← boundary_false_iff]
        generalize gcbResolve b = cb at hb
        rcases hms _ hm with h | h | h <;> rw [h] <;> revert hb <;> cases cb <;> decide
      · intro k hk1 hk2
        have hmem : ∀ j, 0 < j → j ≤ i + 1 → (b :: ms).getD j 0 ∈ ms := by
          intro j hj1 hj2
          cases j with
          | zero => omega
          | succ j =>
            have hj : j < ms.length := by omega
            have : (b :: ms).getD (j + 1) 0 = ms[j] := by
              simp [List.getD_eq_getElem?_getD, List.getElem?_eq_getElem hj]
            rw [this]; exact List.getElem_mem hj
        simp only [Breaks]
        intro hcon; apply hcon
        rw [← boundary_false_iff]
        rcases hms _ (hmem (k + 1) (by omega) (by omega)) with h | h | h <;>
          rcases hms _ (hmem k hk1 (by omega)) with h' | h' | h' <;> rw [h, h'] <;> decide
  subst hx
  simpa using h1

/-- Instance: "xa\u0301\u0302", from the last mark. -/
example : gAt (utf32Iter ([0x78, 0x61, 0x301, 0x302] ++ [0])) 5 0 4 (1 + 2) = .ok ⟨0, 4, 1, 1 + 3⟩ :=
  C23_base_and_marks [0x78, 0x61, 0x301, 0x302] 5 (by decide) [[0x78]] [] 0x61 [0x301, 0x302]
    (segmentation_of (by decide +kernel)) (by decide +kernel) (by decide +kernel) 2 (by decide)

example : gAt (utf32Iter ([0x78, 0x61, 0x301, 0x302] ++ [0])) 5 0 4 3 = .ok ⟨0, 4, 1, 4⟩ := by
  decide +kernel

/-- C23 counterexample: in x + <Hangul L V T> an iterator built at T starts at V instead of L. -/
theorem C23_counterexample :
    gAt (utf32Iter ([0x78, 0x1100, 0x1161, 0x11A8] ++ [0])) 5 0 4 3 = .ok ⟨0, 4, 2, 4⟩ ∧
    filterGraphemes (utf32Iter ([0x78, 0x1100, 0x1161, 0x11A8] ++ [0])) 5 0 4 []
      (collectGrapheme (utf32Iter ([0x78, 0x1100, 0x1161, 0x11A8] ++ [0])) 5) =
        .ok (2, [[0x78], [0x1100, 0x1161, 0x11A8]]) := by decide +kernel

theorem end_at (S : Sim I pos cs) (z : Int)
    (hz : I.deref (pos cs.length) = .ok (z, pos cs.length)) (fuel : Nat) (hf : cs.length < fuel) :
    ∃ r, graphemeEnd I fuel (pos 0) (pos cs.length) = .ok r ∧ r.endOf = pos cs.length ∧
      (r.where_ = pos cs.length ↔ ∀ a, cs.getLast? = some a → Breaks a z) := by
  refine ⟨_, gAt_sim S z hz fuel cs.length (Nat.le_refl _) hf, by simp [firstLen], ?_⟩
  rcases List.eq_nil_or_concat cs with rfl | ⟨l, a, rfl⟩
  · simp
  · rw [List.concat_eq_append] at *
    have hn : (l ++ [a]).length = l.length + 1 := by simp
    have h1 : (l ++ [a] ++ [z]).getD ((l ++ [a]).length - 1) 0 = a := by
      rw [hn]; simp [List.getD_eq_getElem?_getD]
    have h2 : (l ++ [a] ++ [z]).getD (l.length + 1) 0 = z := by
      rw [List.getD_eq_getElem?_getD, List.getElem?_append_right (by simp)]; simp
    have h0 : (l ++ [a]).length ≠ 0 := by simp
    simp only [h0, if_false, h1]
    have hin := fun i => S.pos_inj (i := i) (j := (l ++ [a]).length)
    constructor
    · intro h x hx
      simp at hx; subst hx
      have hle := scan_le (l ++ [a] ++ [z]) a (l ++ [a]).length
      have := hin _ hle (Nat.le_refl _) h
      by_cases hb : isGraphemeBoundary a z = true
      · exact (isGraphemeBoundary_iff a z).mp hb
      · rw [hn, scan, h2, if_neg hb] at this
        have := scan_le (l ++ [a] ++ [z]) z l.length
        omega
    · intro h
      have hb := (isGraphemeBoundary_iff a z).mpr (h a (by simp))
      rw [hn, scan, h2, if_pos hb]

/-- C25. grapheme_end() can depend on what follows the text (`C25_counterexample`, for views); it is the
end position exactly when the codepoint after the text breaks
from the last codepoint of the text (always for NUL-terminated strings, `C25_strings`). -/
theorem C25_grapheme_end_utf32 (pre cs post : List Int) (z : Int) (fuel : Nat)
    (hf : cs.length < fuel) :
    ∃ r, graphemeEnd (utf32Iter (pre ++ cs ++ z :: post)) fuel pre.length (pre.length + cs.length)
        = .ok r ∧ r.endOf = pre.length + cs.length ∧
      (r.where_ = pre.length + cs.length ↔ ∀ a, cs.getLast? = some a → Breaks a z) :=
  end_at (sim_utf32 pre cs (z :: post)) z (sim_utf32_end pre cs z post) fuel hf

/-- Instance: "a" in the middle of "xa\u0301". -/
example := C25_grapheme_end_utf32 [0x78] [0x61] [] 0x301 2 (by decide)

theorem C25_grapheme_end_utf8 (cs : List Nat) (h : ∀ c ∈ cs, c < 2 ^ 31)
    (pre post : List UInt8) (z : Nat) (hz31 : z < 2 ^ 31) (fuel : Nat) (hf : cs.length < fuel) :
    ∃ r, graphemeEnd (utf8Iter (pre ++ encodeText cs ++ (encode z ++ post))) fuel pre.length
        (pre.length + (encodeText cs).length) = .ok r ∧
      r.endOf = pre.length + (encodeText cs).length ∧
      (r.where_ = pre.length + (encodeText cs).length ↔
        ∀ a : Nat, cs.getLast? = some a → Breaks a z) := by
  obtain ⟨S, hend⟩ := sim_encodeText cs h pre z hz31 post
  have := end_at S z (by simpa using hend) fuel (by simpa)
  rw [List.length_map, upos_zero, upos_encode_end] at this
  obtain ⟨r, h1, h2, h3⟩ := this
  refine ⟨r, h1, h2, h3.trans ?_⟩
  rw [List.getLast?_map]
  constructor
  · intro h a ha; exact h a (by simp [ha])
  · intro h a ha
    cases hl : cs.getLast? with
    | none => simp [hl] at ha
    | some x => simp [hl] at ha; subst ha; exact h x hl

/-- Instance: "a" in the middle of "xa\u0301". -/
example := C25_grapheme_end_utf8 [0x61] (by decide) [0x78] [] 0x301 (by decide) 2 (by decide)

/-- C25 for NUL-terminated strings: always the end position. -/
theorem C25_strings (cs : List Nat) (h : ∀ c ∈ cs, c < 2 ^ 31) (fuel : Nat) (hf : cs.length < fuel) :
    graphemeEnd (utf8Iter (encodeText cs ++ [0])) fuel 0 (encodeText cs).length =
      .ok ⟨0, (encodeText cs).length, (encodeText cs).length, (encodeText cs).length⟩ ∧
    graphemeEnd (utf32Iter (cs.map Int.ofNat ++ [0])) fuel 0 cs.length =
      .ok ⟨0, cs.length, cs.length, cs.length⟩ := by
  constructor
  · obtain ⟨S, hend⟩ := sim_encodeText cs h [] 0 (by decide) []
    have := graphemeEnd_sim S fuel (by simpa) 0 (by simpa using hend) (fun a _ => brk_zero a)
    rw [List.length_map, upos_zero, upos_encode_end] at this
    simpa [encode] using this
  · have := graphemeEnd_sim (sim_utf32 [] (cs.map Int.ofNat) [0]) fuel (by simpa) 0
      (sim_utf32_end [] (cs.map Int.ofNat) 0 []) (fun a _ => brk_zero a)
    simpa using this

/-- Instance: "e\u0301€". -/
example := C25_strings [0x65, 0x301, 0x20AC] (by decide) 4 (by decide)

/-- When nothing is readable at the end iterator, `grapheme_end` of a non-empty text is undefined. -/
theorem graphemeEnd_unreadable (S : Sim I pos cs) (fuel : Nat) (hf : cs.length < fuel) (hne : cs ≠ [])
    (hz : I.deref (pos cs.length) = .ub) :
    graphemeEnd I fuel (pos 0) (pos cs.length) = .ub := by
  have h : cs.length ≠ 0 := by simpa using hne
  obtain ⟨n, hn⟩ := Nat.exists_eq_succ_of_ne_zero h
  obtain ⟨a, ha, _⟩ := drop_cons_of_lt (l := cs) (i := n) (by omega)
  have hdec := S.dec n (by omega)
  rw [show n + 1 = cs.length by omega] at hdec
  have hfs : findStart I fuel (pos 0) (pos cs.length) = .ub := by
    simp only [findStart, S.eq cs.length 0 (Nat.le_refl _) (Nat.zero_le _), Res.bind_ok,
      decide_eq_true_eq]
    rw [if_neg h]
    simp only [hdec, Res.bind_ok, S.deref n a ha]
    cases fuel with
    | zero => omega
    | succ f =>
      simp only [findStartLoop, S.eq cs.length 0 (Nat.le_refl _) (Nat.zero_le _), Res.bind_ok,
        decide_eq_true_eq, h, if_false, hz]
      rfl
  simp only [graphemeEnd, gAt, hfs]; rfl

/-- C25, the other side: `grapheme_end` always reads the codepoint at the end of the range. If the
memory stops there (a view over exactly the text, with nothing after it), the call is undefined
behaviour: in utf32ne for every non-empty text, in UTF-8 for every sequence of octets, valid or not
(even an empty one: the iterator comparison itself reads at the end). -/
theorem C25_end_of_memory (pre cs : List Int) (fuel : Nat) (hf : cs.length < fuel) (hne : cs ≠ [])
    (m : List UInt8) (b fuel8 : Nat) :
    graphemeEnd (utf32Iter (pre ++ cs)) fuel pre.length (pre.length + cs.length) = .ub ∧
    graphemeEnd (utf8Iter m) fuel8 b m.length = .ub := by
  constructor
  · have S := sim_utf32 pre cs []
    rw [List.append_nil] at S
    refine graphemeEnd_unreadable S fuel hf hne ?_
    simp [utf32Iter]
  · have h : rewind m m.length = .ub := by
      have h1 : rd m m.length = .ub := by simp [rd]
      cases h0 : m.length with
      | zero => rw [rewind, ← h0, h1]; rfl
      | succ n => rw [rewind, ← h0, h1]; rfl
    simp only [graphemeEnd, gAt, findStart, utf8Iter, iterEq, h]
    rfl

/-- Instance: a view over a whole array. -/
example := C25_end_of_memory [0x78] [0x61, 0x301] 3 (by decide) (by decide) [0x41, 0xCC, 0x81] 1 3

/-- Non-vacuity, and the empty utf32ne text, which is fine. -/
example : graphemeEnd (utf32Iter [0x41, 0x301]) 9 0 2 = .ub ∧
    graphemeEnd (utf8Iter [0x41, 0xCC, 0x81]) 9 0 3 = .ub ∧
    graphemeEnd (utf32Iter [0x41, 0x301]) 9 2 2 = .ok ⟨2, 2, 2, 2⟩ := by decide +kernel

/-- C25 counterexample: the view "a" of the buffer "a" U+0301: `grapheme_end()` points at 'a', so
iterating the view produces no grapheme at all. -/
theorem C25_counterexample :
    graphemeEnd (utf32Iter [0x61, 0x301, 0]) 2 0 1 = .ok ⟨0, 1, 0, 1⟩ ∧
    filterGraphemes (utf32Iter [0x61, 0x301, 0]) 2 0 1 [] (collectGrapheme (utf32Iter [0x61, 0x301, 0]) 2)
      = .ok (0, []) := by decide +kernel

/-- C26 for codepoint ranges of utf32ne memory: `operation` is applied exactly once to each of the
elements between `from` and `to`, in order, with the output object threaded through; the result is the
accumulated count (`foldlM` in `Res`: any undefined behaviour of the operation, or overflow of the
`int` counter, is propagated). -/
theorem C26_filter_codepoints_utf32 {β : Type} (pre cs post : List Int) (fuel : Nat)
    (hf : cs.length < fuel) (out : β) (op : Int → β → Res (Int × β)) :
    filter (utf32Iter (pre ++ cs ++ post)).input fuel pre.length (pre.length + cs.length) out op =
      cs.foldlM (fun st c => do
        let r ← op c st.2
        let k ← addInt st.1 r.1
        pure (k, r.2)) (0, out) := by
  have := traverses_codepoints (sim_utf32 pre cs post) 0 cs.length (Nat.zero_le _) (Nat.le_refl _)
  simp only [List.take_length, List.drop_zero, Nat.add_zero] at this
  exact filter_eq _ op this fuel hf out

/-- Instance: with an operation that stops at a codepoint above 100 with an error. -/
example := C26_filter_codepoints_utf32 [0] [1, 2, 300, 4] [5] 5 (by decide) ([] : List Int)
  (fun x o => if 100 < x then .ub else .ok (1, o ++ [x]))

/-- C26 for codepoint ranges of UTF-8 text. -/
theorem C26_filter_codepoints_utf8 {β : Type} (cs : List Nat) (h : ∀ c ∈ cs, c < 2 ^ 31)
    (pre post : List UInt8) (z : Nat) (hz : z < 2 ^ 31) (fuel : Nat) (hf : cs.length < fuel) (out : β)
    (op : Int → β → Res (Int × β)) :
    filter (utf8Iter (pre ++ encodeText cs ++ (encode z ++ post))).input fuel pre.length
        (pre.length + (encodeText cs).length) out op =
      (cs.map Int.ofNat).foldlM (fun st c => do
        let r ← op c st.2
        let k ← addInt st.1 r.1
        pure (k, r.2)) (0, out) := by
  obtain ⟨S, _⟩ := sim_encodeText cs h pre z hz post
  have := traverses_codepoints S 0 cs.length (Nat.zero_le _) (by simp)
  rw [upos_zero, upos_encode_end, List.take_of_length_le (by simp), List.drop_zero] at this
  exact filter_eq _ op this fuel (by simpa) out

/-- Instance: "é€" followed by "a". -/
example := C26_filter_codepoints_utf8 [0xE9, 0x20AC] (by decide) [0x80] [0xFF] 0x61 (by decide) 3 (by decide)
  ([] : List Int) (fun x o => .ok (1, o ++ [x]))

/-- C26, read for operations that always succeed with count `cnt x` and output `nxt x out`: the result
is the sum of the counts and the left fold of the outputs, provided no partial sum leaves `int`. -/
theorem C26_sum {β : Type} (pre cs post : List Int) (fuel : Nat) (hf : cs.length < fuel) (out : β)
    (cnt : Int → Int) (nxt : Int → β → β)
    (hb : ∀ n, n ≤ cs.length → -2147483648 ≤ ((cs.take n).map cnt).sum ∧
      ((cs.take n).map cnt).sum ≤ 2147483647) :
    filter (utf32Iter (pre ++ cs ++ post)).input fuel pre.length (pre.length + cs.length) out
        (fun x o => .ok (cnt x, nxt x o)) =
      .ok ((cs.map cnt).sum, cs.foldl (fun o x => nxt x o) out) := by
  rw [C26_filter_codepoints_utf32 pre cs post fuel hf]
  have := foldlM_accum cnt nxt (fun x o => .ok (cnt x, nxt x o)) cs (by intros; rfl) 0 out
    (by simpa using hb)
  rw [Int.zero_add] at this
  exact this

/-- Instance: counting the even codepoints. -/
example := C26_sum [0] [1, 2, 4] [5] 4 (by decide) ([] : List Int) (fun x => if x % 2 = 0 then 1 else 0)
  (fun x o => if x % 2 = 0 then o ++ [x] else o) (by decide)

/-- C26, the other side: the counter is an `int`; as soon as the sum over some first elements does not
fit, the behaviour is undefined (so `C26_sum` covers exactly the defined cases). -/
theorem C26_overflow {β : Type} (pre cs post : List Int) (fuel : Nat) (hf : cs.length < fuel) (out : β)
    (cnt : Int → Int) (nxt : Int → β → β)
    (hb : ∃ n, n ≤ cs.length ∧ ¬ (-2147483648 ≤ ((cs.take n).map cnt).sum ∧
      ((cs.take n).map cnt).sum ≤ 2147483647)) :
    filter (utf32Iter (pre ++ cs ++ post)).input fuel pre.length (pre.length + cs.length) out
        (fun x o => .ok (cnt x, nxt x o)) = .ub := by
  rw [C26_filter_codepoints_utf32 pre cs post fuel hf]
  exact foldlM_accum_overflow cnt nxt (fun x o => .ok (cnt x, nxt x o)) cs (by intros; rfl) 0 out
    (by omega) (by simpa using hb)

/-- Instance: two results of 2^30. -/
example := C26_overflow [] [7, 8] [] 3 (by decide) () (fun _ => 2 ^ 30) (fun _ o => o) ⟨2, by decide, by decide⟩

/-- Non-vacuity: two elements counted 2³⁰ each. -/
example : filter (utf32Iter [7, 8]).input 3 0 2 () (fun _ o => .ok (2 ^ 30, o)) = .ub := by decide +kernel

theorem segPos_range (pos : Nat → Nat) (gs : List (List Int)) (i : Nat) :
    segPos pos i gs = (List.range gs.length).map fun k =>
      ⟨pos (i + (gs.take k).flatten.length), pos (i + (gs.take (k + 1)).flatten.length)⟩ := by
  induction gs generalizing i with
  | nil => rfl
  | cons g gs ih =>
    rw [List.length_cons, List.range_succ_eq_map, List.map_cons, List.map_map, segPos, ih]
    congr 1
    · simp
    · apply List.map_congr_left
      intro k _
      simp [Nat.add_assoc]

/-- C26 for graphemes of a utf32ne string: the operation is applied exactly once to each grapheme of
the text, in order. -/
theorem C26_filter_graphemes {β : Type} (cs : List Int) (gs : List (List Int))
    (hgs : IsSegmentation Breaks cs gs) (fuel : Nat) (hf : cs.length < fuel) (out : β)
    (op : Grapheme → β → Res (Int × β)) :
    filterGraphemes (utf32Iter (cs ++ [0])) fuel 0 cs.length out op =
      ((List.range gs.length).map fun k =>
        (⟨(gs.take k).flatten.length, (gs.take (k + 1)).flatten.length⟩ : Grapheme)).foldlM
        (fun st g => do
          let r ← op g st.2
          let k ← addInt st.1 r.1
          pure (k, r.2)) (0, out) := by
  obtain rfl := segments_unique hgs
  have := filterGraphemes_sim (sim_utf32 [] cs [0]) fuel hf 0 (sim_utf32_end [] cs 0 [])
    (fun a _ => brk_zero a) out op
  rw [segPos_range] at this
  simp only [List.length_nil, Nat.zero_add, List.nil_append] at this
  exact this

/-- Instance: counting the codepoints of the graphemes of "e\u0301f". -/
example := C26_filter_graphemes [0x65, 0x301, 0x66] [[0x65, 0x301], [0x66]] (segmentation_of (by decide +kernel)) 4
  (by decide) ([] : List Grapheme) (fun g o => .ok (1, o ++ [g]))

/-- An operation that does not append (returns 0 for odd elements), and non-vacuity of the bound. -/
example : filter (utf32Iter [1, 2, 3, 4, 0]).input 5 0 4 ([] : List Int)
    (fun x o => if x % 2 = 0 then .ok (1, o ++ [x]) else .ok (0, o)) = .ok (2, [2, 4]) := by
  decide +kernel

theorem readRange_eq (S : Sim I pos cs) (i j : Nat) (hij : i ≤ j) (hj : j ≤ cs.length) (fuel : Nat)
    (hf : j - i < fuel) : readRange I (pos j) fuel (pos i) = .ok ((cs.take j).drop i) := by
  induction fuel generalizing i with
  | zero => omega
  | succ f ih =>
    simp only [readRange, S.eq i j (by omega) hj, Res.bind_ok, decide_eq_true_eq]
    by_cases h : i = j
    · subst h; simp
    · obtain ⟨c, hc, hd⟩ := drop_cons_of_lt (l := cs.take j) (i := i) (by simp; omega)
      rw [List.getElem?_take_of_lt (by omega)] at hc
      rw [if_neg h, hd]
      simp only [S.deref i c hc, S.inc i (by omega), Res.bind_ok, ih (i + 1) (by omega) (by omega),
        Res.pure_eq]

theorem take_drop_flatten {gs : List (List Int)} (j k : Nat) (hjk : j ≤ k) :
    (gs.flatten.take (gs.take k).flatten.length).drop (gs.take j).flatten.length =
      ((gs.take k).drop j).flatten := by
  have h1 : gs.flatten.take (gs.take k).flatten.length = (gs.take k).flatten := by
    conv => lhs; arg 2; rw [← List.take_append_drop k gs, List.flatten_append]
    simp
  rw [h1]
  have h2 : gs.take k = gs.take j ++ (gs.take k).drop j := by
    conv => lhs; rw [← List.take_append_drop j (gs.take k), List.take_take, Nat.min_eq_left hjk]
  conv => lhs; arg 2; rw [h2, List.flatten_append]
  simp

/-- C39 for utf32ne strings: appending the range between the j-th and the k-th grapheme appends exactly
the codepoints of graphemes j, …, k-1. -/
theorem C39_append_utf32 (cs out : List Int) (gs : List (List Int)) (hgs : IsSegmentation Breaks cs gs)
    (fuel : Nat) (hf : cs.length < fuel) (j k : Nat) (hjk : j ≤ k) (hk : k ≤ gs.length) :
    let I := utf32Iter (cs ++ [0])
    ∃ gj gk, (graphemeBegin I fuel 0 cs.length >>= incN I fuel j) = .ok gj ∧
      (graphemeBegin I fuel 0 cs.length >>= incN I fuel k) = .ok gk ∧
      appendGraphemes32 I fuel out gj gk = .ok (out ++ ((gs.take k).drop j).flatten) := by
  intro I
  obtain rfl := segments_unique hgs
  have S := sim_utf32 [] cs [0]
  have hj' := graphemeN_sim S fuel hf j
  have hk' := graphemeN_sim S fuel hf k
  have hmono : segStart cs j ≤ segStart cs k := by
    rcases Nat.lt_or_eq_of_le hjk with h | h
    · have := segStart_mono_lt cs h hk; omega
    · rw [h]; exact Nat.le_refl _
  have hr := readRange_eq S _ _ hmono (segStart_le cs k) fuel (by have := segStart_le cs k; omega)
  refine ⟨_, _, by simpa [I] using hj', by simpa [I] using hk', ?_⟩
  have ht := take_drop_flatten (gs := segments isGraphemeBoundary cs) j k hjk
  rw [segments_flatten] at ht
  simp only [List.length_nil, Nat.zero_add, List.nil_append] at hr
  simp only [appendGraphemes32, I, hr, Res.bind_ok, Res.pure_eq]
  rw [← ht]; rfl

/-- Instance: the first grapheme of "e\u0301f". -/
example := C39_append_utf32 [0x65, 0x301, 0x66] [0x78] [[0x65, 0x301], [0x66]] (segmentation_of (by decide +kernel))
  4 (by decide) 0 1 (by decide) (by decide)

/-- Narrowing every codepoint to one octet gives its UTF-8 text exactly for 7-bit text. -/
theorem narrow_eq_encode (bs : List Nat) :
    bs.map (fun c => UInt8.ofNat (c % 256)) = encodeText bs ↔ ∀ c ∈ bs, c < 0x80 := by
  have hlen1 : ∀ c, 1 ≤ (encode c).length := by
    intro c; unfold encode; repeat' split
    all_goals simp
  have hlen2 : ∀ c, ¬ c < 0x80 → 2 ≤ (encode c).length := by
    intro c hc; unfold encode; rw [if_neg hc]; repeat' split
    all_goals simp
  constructor
  · intro he c hc
    have hl := congrArg List.length he
    have hge : ∀ l : List Nat, l.length ≤ (encodeText l).length ∧
        ((∃ c ∈ l, ¬ c < 0x80) → l.length < (encodeText l).length) := by
      intro l
      induction l with
      | nil => simp [encodeText]
      | cons a l ih =>
        have hl : (encodeText (a :: l)).length = (encode a).length + (encodeText l).length := by
          simp [encodeText]
        have h1 := hlen1 a
        rw [hl, List.length_cons]
        refine ⟨by omega, ?_⟩
        rintro ⟨c, hc, hc2⟩
        rcases List.mem_cons.mp hc with rfl | hc
        · have := hlen2 _ hc2; omega
        · have := ih.2 ⟨c, hc, hc2⟩; omega
    by_cases hlt : c < 0x80
    · exact hlt
    · have := (hge bs).2 ⟨c, hc, hlt⟩
      rw [List.length_map] at hl; omega
  · intro hall
    induction bs with
    | nil => rfl
    | cons a l ih =>
      have ha := hall a (by simp)
      have := ih (fun c hc => hall c (by simp [hc]))
      simp only [List.map_cons, encodeText, List.flatMap_cons] at this ⊢
      rw [this, encode, if_pos ha, Nat.mod_eq_of_lt (by omega)]
      simp

/-- C39 for UTF-8 strings: every codepoint is narrowed to its low eight bits, so what is appended is the
text between the two graphemes exactly when all of it is 7-bit (`C39_counterexample` otherwise). -/
theorem C39_append_utf8 (cs : List Nat) (h : ∀ c ∈ cs, c < 2 ^ 31) (out : List UInt8)
    (gs : List (List Nat)) (hgs : IsSegmentation Breaks (cs.map Int.ofNat) (gs.map (·.map Int.ofNat)))
    (fuel : Nat) (hf : cs.length < fuel) (j k : Nat) (hjk : j ≤ k) (hk : k ≤ gs.length) :
    let I := utf8Iter (encodeText cs ++ [0])
    let e := (encodeText cs).length
    let between := ((gs.take k).drop j).flatten
    ∃ gj gk, (graphemeBegin I fuel 0 e >>= incN I fuel j) = .ok gj ∧
      (graphemeBegin I fuel 0 e >>= incN I fuel k) = .ok gk ∧
      appendGraphemes8 I fuel out gj gk = .ok (out ++ between.map fun c => UInt8.ofNat (c % 256)) ∧
      (appendGraphemes8 I fuel out gj gk = .ok (out ++ encodeText between) ↔ ∀ c ∈ between, c < 0x80) := by
  intro I e between
  obtain ⟨S, _⟩ := sim_encodeText cs h [] 0 (by decide) []
  have hj' := graphemeN_sim S fuel (by simpa) j
  have hk' := graphemeN_sim S fuel (by simpa) k
  have hseg := segments_unique hgs
  have hk2 : k ≤ (segments isGraphemeBoundary (cs.map Int.ofNat)).length := by rw [← hseg]; simpa
  have hmono : segStart (cs.map Int.ofNat) j ≤ segStart (cs.map Int.ofNat) k := by
    rcases Nat.lt_or_eq_of_le hjk with h | h
    · have := segStart_mono_lt (cs.map Int.ofNat) h hk2; omega
    · rw [h]; exact Nat.le_refl _
  have hle := segStart_le (cs.map Int.ofNat) k
  have hr := readRange_eq S _ _ hmono hle fuel (by simp at hle; omega)
  have ht := take_drop_flatten (gs := segments isGraphemeBoundary (cs.map Int.ofNat)) j k hjk
  rw [segments_flatten] at ht
  have hbt : ((cs.map Int.ofNat).take (segStart (cs.map Int.ofNat) k)).drop (segStart (cs.map Int.ofNat) j)
      = between.map Int.ofNat := by
    show _ = _
    rw [segStart, segStart, ht, ← hseg]
    simp [between, List.map_flatten, List.map_take, List.map_drop]
  rw [hbt] at hr
  have e3 : [] ++ encodeText cs ++ (encode 0 ++ []) = encodeText cs ++ [0] := by simp [encode]
  rw [e3] at hj' hk' hr
  rw [List.length_map, upos_zero, upos_encode_end] at hj' hk'
  have happ : ∀ b1 e1 x1 b2 e2 x2, appendGraphemes8 I fuel out
      ⟨b1, e1, upos 0 (cs.map encode) (segStart (cs.map Int.ofNat) j), x1⟩
      ⟨b2, e2, upos 0 (cs.map encode) (segStart (cs.map Int.ofNat) k), x2⟩ =
      .ok (out ++ between.map fun c => UInt8.ofNat (c % 256)) := by
    intro b1 e1 x1 b2 e2 x2
    simp only [appendGraphemes8, I]
    rw [show upos 0 = upos ([] : List Octet).length from rfl, hr]
    simp only [Res.bind_ok, Res.pure_eq, List.map_map]
    congr 2
  refine ⟨_, _, by simpa [I, e] using hj', by simpa [I, e] using hk', happ _ _ _ _ _ _, ?_⟩
  rw [happ]
  simp only [Res.ok.injEq, List.append_cancel_left_eq]
  exact narrow_eq_encode between

/-- Instance: the first grapheme of "e\u0301f", which is not 7-bit, and the second, which is. -/
example := C39_append_utf8 [0x65, 0x301, 0x66] (by decide) [0x78] [[0x65, 0x301], [0x66]]
  (segmentation_of (by decide +kernel)) 4 (by decide) 0 1 (by decide) (by decide)

example := C39_append_utf8 [0x65, 0x301, 0x66] (by decide) [0x78] [[0x65, 0x301], [0x66]]
  (segmentation_of (by decide +kernel)) 4 (by decide) 1 2 (by decide) (by decide)

/-- C39 counterexample: appending the graphemes of "é€" (C3 A9 E2 82 AC) appends the octets E9 AC. -/
theorem C39_counterexample :
    appendGraphemes8 (utf8Iter (encodeText [0xE9, 0x20AC] ++ [0])) 3 [] ⟨0, 5, 0, 2⟩ ⟨0, 5, 5, 5⟩
      = .ok [0xE9, 0xAC] := by decide +kernel

end U5e
