import Verif.Properties.GraphemeAt
import Verif.Properties.Operators
/-! # C25 for UTF-8 text followed by any octets -/
namespace U5e
open Spec

/-- UTF-8 iterators over well-shaped text followed by any octets that let an iterator at the end be compared. -/
theorem sim_followed (pre : List Octet) (us : List (List Octet)) (hu : WellShaped us) (t : List Octet) (ht : Followed t) :
    Sim (utf8Iter (pre ++ us.flatten ++ t)) (upos pre.length us) (us.map fun u => (payload u : Int)) := by
  have hlen : (us.map fun u => (payload u : Int)).length = us.length := by simp
  have hm := holds_append pre us.flatten t
  obtain ⟨n, hn, hE, hr⟩ := endAt_followed ht (pre ++ us.flatten)
  rw [List.length_append] at hE hr
  generalize hM : pre ++ us.flatten ++ t = m at *
  have hrw : ∀ i, i ≤ us.length → rewind m (upos pre.length us i) = .ok (upos pre.length us i) := by
    intro i hi
    rcases Nat.lt_or_eq_of_le hi with h | h
    · have hU := hu us[i] (List.getElem_mem h)
      have := rewind_unit hU (holds_at hm i _ (List.getElem?_eq_getElem h)) hU.length_pos
      simpa using this
    · subst h; rw [upos_length]; exact hr
  constructor
  · intro i c hc
    rw [List.getElem?_map] at hc
    cases hui : us[i]? with
    | none => simp [hui] at hc
    | some u =>
      simp [hui] at hc
      subst hc
      have hU := hu u (List.mem_of_getElem? hui)
      have := cur_unit hU (holds_at hm i u hui) hU.length_pos
      simpa [utf8Iter] using this
  · intro i hi
    rw [hlen] at hi
    have hui : us[i]? = some us[i] := List.getElem?_eq_getElem hi
    have hU := hu us[i] (List.getElem_mem hi)
    have := fwd_unit hU (holds_at hm i _ hui) hU.length_pos
    rw [upos_succ pre.length us i _ hui]
    simpa [utf8Iter] using this
  · intro i hi
    rw [hlen] at hi
    have hui : us[i]? = some us[i] := List.getElem?_eq_getElem hi
    have hU := hu us[i] (List.getElem_mem hi)
    have h := hrw (i + 1) (by omega)
    rw [upos_succ pre.length us i _ hui] at h ⊢
    exact bwd_end hU (holds_at hm i _ hui) h
  · intro i j hi hj
    rw [hlen] at hi hj
    have hmono : ∀ a b, a < b → b ≤ us.length → upos pre.length us a + (us[a]?.getD []).length ≤ upos pre.length us b := by
      intro a b hab hb
      induction b with
      | zero => omega
      | succ b ih =>
        have hs := upos_succ pre.length us b _ (List.getElem?_eq_getElem (show b < us.length by omega))
        rcases Nat.lt_or_eq_of_le (Nat.le_of_lt_succ hab) with h | h
        · have := ih h (by omega); omega
        · subst h
          rw [hs, List.getElem?_eq_getElem (show a < us.length by omega)]
          exact Nat.le_refl _
    have hpos : ∀ a, a < us.length → 0 < (us[a]?.getD []).length := by
      intro a ha
      rw [List.getElem?_eq_getElem ha]
      exact (hu _ (List.getElem_mem ha)).length_pos
    rcases Nat.lt_or_eq_of_le hi with h | h
    · have hU := hu us[i] (List.getElem_mem h)
      have hv := iterEq_unit hU (holds_at hm i _ (List.getElem?_eq_getElem h)) hU.length_pos (upos pre.length us j)
      rw [Nat.add_zero] at hv
      have hg : us[i]?.getD [] = us[i] := by rw [List.getElem?_eq_getElem h]; rfl
      refine hv.trans ?_
      congr 1
      apply decide_eq_decide.mpr
      constructor
      · rintro ⟨h1, h2⟩
        rcases Nat.lt_trichotomy i j with h3 | h3 | h3
        · have := hmono i j h3 hj; rw [hg] at this; omega
        · exact h3
        · have := hmono j i h3 hi; have := hpos j (by omega); omega
      · rintro rfl
        have := hU.length_pos
        omega
    · subst h
      have hv := hE (upos pre.length us j)
      rw [← upos_length] at hv
      refine hv.trans ?_
      congr 1
      apply decide_eq_decide.mpr
      constructor
      · rintro ⟨h1, h2⟩
        rcases Nat.lt_or_eq_of_le hj with h3 | h3
        · have := hmono j _ h3 (Nat.le_refl _); have := hpos j h3; omega
        · exact h3.symm
      · rintro rfl
        omega

/-- The backward scan from a codepoint of the text ends at one of the text, not after where it started. -/
theorem findStartLoop_total {I : CpIter} {pos : Nat → Nat} {cs : List Int} (S : Sim I pos cs) :
    ∀ (i : Nat) (fuel : Nat) (a : Int), i < cs.length → i < fuel →
      ∃ j, j ≤ i ∧ findStartLoop I (pos 0) fuel a (pos i) = .ok (pos j) := by
  intro i
  induction i with
  | zero =>
    intro fuel a hi hf
    cases fuel with
    | zero => omega
    | succ f =>
      refine ⟨0, Nat.le_refl _, ?_⟩
      rw [findStartLoop, S.eq 0 0 (by omega) (by omega)]; simp
  | succ i ih =>
    intro fuel a hi hf
    cases fuel with
    | zero => omega
    | succ f =>
      rw [findStartLoop, S.eq (i + 1) 0 (by omega) (by omega)]
      simp only [Res.bind_ok, Nat.succ_ne_zero, decide_false, S.deref (i + 1) _ (getD_some hi)]
      split
      · simp_all
      · split
        · exact ⟨i + 1, Nat.le_refl _, rfl⟩
        · rw [S.dec i (by omega), Res.bind_ok]
          obtain ⟨j, h1, h2⟩ := ih f (cs.getD (i + 1) 0) (by omega) (by omega)
          exact ⟨j, by omega, h2⟩

/-- A position whose codepoint goes with itself, and which compares different from itself, is passed again and again. -/
theorem findEndLoop_spins {I : CpIter} {e s : Nat} {v : Int} (heq : I.eq e e = .ok false) (hd : I.deref e = .ok (v, s))
    (hi : I.inc s = .ok e) (hb : isGraphemeBoundary v v = false) (fuel : Nat) : findEndLoop I e fuel v e = .tmo := by
  induction fuel with
  | zero => rfl
  | succ f ih => simp only [findEndLoop, heq, hd, hi, hb, Res.bind_ok]; simpa using ih

/-- The octets from a codepoint's first to a continuation octet that follows it. -/
theorem strayAfter (a : Nat) (ha : a < 2 ^ 31) (pre post : List Octet) (o : Octet) (ho : IsContinuation o) :
    let m := pre ++ encode a ++ o :: post
    let e := pre.length + (encode a).length
    (∀ q, iterEq m e q = .ok (decide (pre.length ≤ q ∧ q < e))) ∧
    fwd m pre.length = .ok e ∧ rewind m e = .ok pre.length ∧
    cur m e = .ok (if a < 0x80 then ((a % 64 : Nat) : Int) else a, pre.length) := by
  intro m e
  have hU := encode_isUnit a ha
  have hm : Holds m pre.length (encode a) := holds_append pre (encode a) (o :: post)
  have hpos := hU.length_pos
  obtain ⟨l, hl, hl0, hann, hs⟩ := rd_lead hU hm
  have hl1 : m[pre.length]? = some l := by have := hm 0 hpos; rw [hl0] at this; simpa using this
  have hnc : ¬ IsContinuation l := by
    obtain ⟨l', h1, _, h3, _⟩ := hU.lead
    rw [hl0] at h1; cases h1; exact h3
  have hcl : claimed l = (encode a).length := by rw [← cpSize_claimed l hnc, hs]
  have hlen : e + 1 ≤ m.length := by simp only [m, e, List.length_append, List.length_cons]; omega
  have hof : Of m pre.length e := by
    refine ⟨⟨l, hl1, hnc⟩, by omega, fun k h1 h2 => ?_⟩
    rcases Nat.lt_or_eq_of_le h2 with h | h
    · have hk := hm (k - pre.length) (by omega)
      rw [show pre.length + (k - pre.length) = k by omega] at hk
      cases hu : encode a with
      | nil => rw [hu] at hpos; simp at hpos
      | cons x xs =>
        rw [hu] at hU hk
        obtain ⟨i, hi⟩ : ∃ i, k - pre.length = i + 1 := ⟨k - pre.length - 1, by omega⟩
        rw [hi, List.getElem?_cons_succ] at hk
        have hilt : i < xs.length := by
          have : (encode a).length = xs.length + 1 := by rw [hu]; rfl
          omega
        rw [List.getElem?_eq_getElem hilt] at hk
        exact ⟨_, hk, hU.2 _ (List.getElem_mem hilt)⟩
    · subst h
      refine ⟨o, ?_, ho⟩
      simp only [m, e]
      rw [← List.length_append, List.getElem?_append_right (Nat.le_refl _)]
      simp
  have hrw : rewind m e = .ok pre.length := (rewind_exact m e _).mpr hof
  have hff : l ≠ 0xFF := by
    rintro rfl
    have : announced 0xFF = 0 := by decide
    omega
  have hself : Of m pre.length pre.length :=
    ⟨⟨l, hl1, hnc⟩, Nat.le_refl _, fun k h1 h2 => by omega⟩
  have hval : readAt m pre.length pre.length = (a : Int) := by
    have h1 := ((C72_read m pre.length).1 _ _).mpr ⟨l, hself, hl1, hff, by omega, rfl⟩
    have h2 := cur_unit hU hm hpos
    rw [Nat.add_zero, payload_encode a ha] at h2
    rw [h1] at h2
    simp only [Res.ok.injEq, Prod.mk.injEq, and_true] at h2
    exact h2
  refine ⟨fun q => ?_, ?_, hrw, ?_⟩
  · simp only [iterEq, hrw, hl, Res.bind_ok, hs]
    exact eqLoop_eq m q _ _ (by omega)
  · have := fwd_unit hU hm hpos
    rwa [Nat.add_zero] at this
  · refine ((C72_read m e).1 _ _).mpr ⟨l, hof, hl1, hff, by omega, ?_⟩
    simp only [readAt, hl1]
    have hv : valueAt m pre.length = (a : Int) := by
      have h := hval
      simp only [readAt, hl1] at h
      rwa [if_neg (by simp)] at h
    by_cases h7 : a < 0x80
    · have he : encode a = [UInt8.ofNat a] := by simp [encode, h7]
      have hla : l = UInt8.ofNat a := by rw [he] at hl0; simpa using hl0.symm
      have hn : l.toNat = a := by rw [hla]; simp; omega
      rw [if_pos h7, hn, if_pos ⟨h7, by omega⟩]
      rfl
    · have hn : ¬ l.toNat < 0x80 := by
        intro hlt
        have hx : valueAt m pre.length = l.toNat := by
          have hd : m.drop pre.length = l :: m.drop (pre.length + 1) := by
            obtain ⟨hlt', rfl⟩ := List.getElem?_eq_some_iff.mp hl1
            exact List.drop_eq_getElem_cons hlt'
          simp only [valueAt, hd, if_pos hlt]
        rw [hv] at hx
        omega
      rw [if_neg h7, if_neg (by intro h; exact hn h.1), hv]

theorem small_break : ∀ v, v < 128 → isGraphemeBoundary ((v % 64 : Nat) : Int) ((v % 64 : Nat) : Int) = true ∧
    isGraphemeBoundary (v : Int) (v : Int) = true := by decide +kernel

theorem stray_break (a : Nat) (v : Int) (hv : (if a < 0x80 then ((a % 64 : Nat) : Int) else (a : Int)) = v) :
    isGraphemeBoundary v v = true ↔ Breaks a a := by
  rw [← hv]
  split
  · rename_i h7
    obtain ⟨b1, b2⟩ := small_break a h7
    rw [b1, isGraphemeBoundary_iff] at *
    exact ⟨fun _ => b2, fun _ => rfl⟩
  · exact isGraphemeBoundary_iff _ _

theorem findStart_step {I : CpIter} {b e q q' : Nat} {x : Int} {fuel : Nat} (h1 : I.eq e b = .ok false)
    (h2 : I.dec e = .ok q) (h3 : I.deref q = .ok (x, q')) : findStart I fuel b e = findStartLoop I b fuel x e := by
  rw [findStart, h1, Res.bind_ok, if_neg (by simp), h2, Res.bind_ok, h3]
  rfl

theorem findStartLoop_step {I : CpIter} {b e w : Nat} {x a : Int} {f : Nat} (h1 : I.eq e b = .ok false)
    (h2 : I.deref e = .ok (x, w)) : findStartLoop I b (f + 1) a e =
      if isGraphemeBoundary a x = true then .ok w else I.dec w >>= fun w2 => findStartLoop I b f x w2 := by
  rw [findStartLoop, h1, Res.bind_ok, if_neg (by simp), h2, Res.bind_ok]
  rfl

/-- Where the backward scan from the end of the text goes if the end is taken for a place inside the last codepoint. -/
theorem stray_start (cs : List Nat) (hcs : ∀ c ∈ cs, c < 2 ^ 31) (a : Nat) (ha : a < 2 ^ 31) (pre post : List UInt8)
    (o : UInt8) (m : Mem) (e : Nat) (v : Int) (hm : m = (pre ++ encodeText cs) ++ encode a ++ o :: post)
    (he : e = (pre ++ encodeText cs).length + (encode a).length)
    (s1 : ∀ q, iterEq m e q = .ok (decide ((pre ++ encodeText cs).length ≤ q ∧ q < e)))
    (s3 : rewind m e = .ok (pre ++ encodeText cs).length) (s4 : cur m e = .ok (v, (pre ++ encodeText cs).length))
    (fuel : Nat) (hf : cs.length + 1 < fuel) :
    ∃ w, findStart (utf8Iter m) fuel pre.length e = .ok w ∧ (w = e ↔ cs = []) := by
  have hpos : 0 < (encode a).length := (encode_isUnit a ha).length_pos
  have hlt : pre.length < e := by rw [he, List.length_append]; omega
  rcases List.eq_nil_or_concat cs with rfl | ⟨l, p, rfl⟩
  · refine ⟨e, ?_, by simp⟩
    have : iterEq m e pre.length = .ok true := by
      rw [s1, decide_eq_true]
      exact ⟨by simp [encodeText], hlt⟩
    simp [findStart, utf8Iter, this]
  · rw [List.concat_eq_append] at *
    obtain ⟨S, hend⟩ := sim_encodeText (l ++ [p]) hcs pre a ha (o :: post)
    rw [show pre ++ encodeText (l ++ [p]) ++ (encode a ++ o :: post) = m by rw [hm]; simp] at S hend
    have hb0 : upos pre.length ((l ++ [p]).map encode) 0 = pre.length := upos_zero _ _
    have hs0 : upos pre.length ((l ++ [p]).map encode) (l ++ [p]).length = (pre ++ encodeText (l ++ [p])).length := by
      rw [upos_encode_end, List.length_append]
    have hle : ∀ j, upos pre.length ((l ++ [p]).map encode) j ≤ (pre ++ encodeText (l ++ [p])).length := by
      intro j
      rw [upos_encode, List.length_append]
      have := take_flatten_le ((l ++ [p]).map encode) j
      rw [← List.map_take, ← encodeText_flatten, ← encodeText_flatten] at this
      omega
    have hne : iterEq m e pre.length = .ok false := by
      rw [s1, decide_eq_false]
      rintro ⟨h1, _⟩
      have : 0 < (encodeText (l ++ [p])).length := by
        have := (encode_isUnit p (hcs p (by simp))).length_pos
        simp [encodeText]; omega
      rw [List.length_append] at h1
      omega
    have hPe : (pre ++ encodeText (l ++ [p])).length < e := he ▸ Nat.lt_add_of_pos_right hpos
    have hdec := S.dec l.length (by simp)
    rw [show l.length + 1 = (l ++ [p]).length by simp, hs0] at hdec
    have hdecE : bwd m e = .ok (upos pre.length ((l ++ [p]).map encode) l.length) := by
      obtain ⟨s', g1, g2, g3⟩ := ((C72_decrement m _).1 _).mp hdec
      have hof := (rewind_exact m e _).mp s3
      have hself : rewind m (pre ++ encodeText (l ++ [p])).length = .ok (pre ++ encodeText (l ++ [p])).length :=
        (rewind_exact _ _ _).mpr ⟨hof.1, Nat.le_refl _, fun k h1 h2 => by omega⟩
      rw [(rewind_exact _ _ _).mpr g1] at hself
      cases hself
      exact ((C72_decrement m e).1 _).mpr ⟨_, hof, g2, g3⟩
    have hderef := S.deref l.length (p : Int) (by simp)
    cases fuel with
    | zero => omega
    | succ f =>
      have hfl : l.length < f := by simp at hf; omega
      have hst := findStart_step (I := utf8Iter m) (fuel := f + 1) hne hdecE hderef
      rw [findStartLoop_step (I := utf8Iter m) hne s4] at hst
      by_cases hpv : isGraphemeBoundary p v = true
      · rw [if_pos hpv] at hst
        exact ⟨_, hst, fun hh => absurd hh (Nat.ne_of_lt hPe), fun hh => by simp at hh⟩
      · obtain ⟨j, hj1, hj2⟩ := findStartLoop_total S l.length f v (by simp) hfl
        rw [hb0] at hj2
        rw [if_neg hpv, hdec, Res.bind_ok, hj2] at hst
        exact ⟨_, hst, fun hh => absurd hh (Nat.ne_of_lt (Nat.lt_of_le_of_lt (hle j) hPe)), fun hh => by simp at hh⟩

/-- C25 for UTF-8 text (its last codepoint is `a`) followed by any octet `o` and any further ones.

If `o` is not a continuation octet and the octets it claims are there, what counts is whether a break belongs between `a`
and the value read there. If they are not there, or `o` is 0xFF, the behaviour is undefined. If `o` is a continuation octet,
the end is taken for a place inside `a`: if `a` would join another `a`, `grapheme_end` never returns; otherwise it returns an
iterator whose grapheme ends before `a`, and which begins at the end only if `a` is all of the text. -/
theorem C25_any_octets (cs : List Nat) (a : Nat) (h : ∀ c ∈ cs ++ [a], c < 2 ^ 31) (pre post : List UInt8) (o : UInt8)
    (fuel : Nat) (hf : (cs ++ [a]).length < fuel) :
    let m := pre ++ encodeText (cs ++ [a]) ++ o :: post
    let e := pre.length + (encodeText (cs ++ [a])).length
    let r := graphemeEnd (utf8Iter m) fuel pre.length e
    (¬ IsContinuation o → o ≠ 0xFF → claimed o ≤ post.length + 1 →
      ∃ g, r = .ok g ∧ g.endOf = e ∧ (g.where_ = e ↔ Breaks a (valueAt m e))) ∧
    (¬ IsContinuation o → o = 0xFF ∨ post.length + 1 < claimed o → r = .ub) ∧
    (IsContinuation o → Breaks a a →
      ∃ g, r = .ok g ∧ g.endOf + (encode a).length = e ∧ (g.where_ = e ↔ cs = [])) ∧
    (IsContinuation o → ¬ Breaks a a → r = .tmo) := by
  intro m e r
  have ha : a < 2 ^ 31 := h a (by simp)
  have hcs : ∀ c ∈ cs, c < 2 ^ 31 := fun c hc => h c (by simp [hc])
  have hat : m[e]? = some o := by
    simp only [m, e]
    rw [← List.length_append, List.getElem?_append_right (Nat.le_refl _)]
    simp
  have hlen : m.length = e + (post.length + 1) := by simp [m, e]; omega
  have hpos : 0 < (encode a).length := (encode_isUnit a ha).length_pos
  have hlt : pre.length < e := by simp [e, encodeText]; omega
  refine ⟨fun hc hff hcl => ?_, fun hc hbad => ?_, fun hc hb => ?_, fun hc hb => ?_⟩
  · have hfol : Followed (o :: post) := ⟨o, rfl, hc, by simpa using hcl⟩
    have S := sim_followed pre _ (wellShaped_encode _ h) _ hfol
    rw [map_payload_encode _ h, ← encodeText_flatten] at S
    have hz : (utf8Iter m).deref e = .ok (valueAt m e, e) := by
      refine ((C72_read m e).1 _ _).mpr ⟨o, ⟨⟨o, hat, hc⟩, Nat.le_refl _, fun k h1 h2 => by omega⟩, hat, hff,
        by omega, ?_⟩
      simp [readAt, hat]
    have := end_at S (valueAt m e) (by rw [List.length_map, upos_encode_end]; exact hz) fuel (by simpa using hf)
    rw [List.length_map, upos_zero, upos_encode_end] at this
    obtain ⟨g, h1, h2, h3⟩ := this
    refine ⟨g, h1, h2, h3.trans ?_⟩
    simp
  · have hrw : rewind m e = .ok e := rewind_stop hat hc
    have heq : iterEq m e pre.length = .ub ∨ (iterEq m e pre.length = .ok false ∧ cur m e = .ub ∧ o = 0xFF) := by
      obtain ⟨q1, q2, q3⟩ := C72_equal m e pre.length
      have hone : ∀ s, Of m s e → s = e := fun s hs => by
        have := (rewind_exact m e s).mpr hs
        rw [hrw] at this; cases this; rfl
      have hof : Of m e e := (rewind_exact m e e).mp hrw
      cases hE : iterEq m e pre.length with
      | ub => exact .inl rfl
      | tmo => exact absurd hE q3
      | ok b =>
        cases b with
        | true =>
          obtain ⟨s, l, g1, _, g3, _⟩ := q1.mp hE
          have := hone s g1; omega
        | false =>
          obtain ⟨s, l, g1, g2, _, g4⟩ := q2.mp hE
          rw [hone s g1] at g2 g4
          rw [hat] at g2; cases g2
          have hff : o = 0xFF := by
            rcases hbad with h | h
            · exact h
            · omega
          refine .inr ⟨rfl, ((C72_read m e).2).mpr ?_, hff⟩
          rintro ⟨s', l, k1, k2, k3, _⟩
          rw [hone s' k1, hat] at k2; cases k2
          exact k3 hff
    rcases heq with heq | ⟨heq, hcur, hff⟩
    · simp [r, graphemeEnd, gAt, findStart, utf8Iter, heq]
    · have hbwd : ∃ q v w, bwd m e = .ok q ∧ cur m q = .ok (v, w) := by
        have hm : Holds m (pre.length + (encodeText cs).length) (encode a) := by
          have := holds_append (pre ++ encodeText cs) (encode a) (o :: post)
          simpa [m, encodeText] using this
        have he : e = pre.length + (encodeText cs).length + (encode a).length := by simp [e, encodeText]; omega
        have := bwd_end (encode_isUnit a ha) hm (by rw [← he]; exact hrw)
        have h2 := cur_unit (encode_isUnit a ha) hm hpos
        exact ⟨_, _, _, by rw [he]; exact this, h2⟩
      obtain ⟨q, v, w, hq1, hq2⟩ := hbwd
      cases fuel with
      | zero => omega
      | succ f =>
        simp [r, graphemeEnd, gAt, findStart, findStartLoop, utf8Iter, heq, hq1, hq2, hcur]
  all_goals
    have hm : m = (pre ++ encodeText cs) ++ encode a ++ o :: post := by simp [m, encodeText]
    have he : e = (pre ++ encodeText cs).length + (encode a).length := by simp [e, encodeText]; omega
    obtain ⟨s1, s2, s3, s4⟩ := strayAfter a ha (pre ++ encodeText cs) post o hc
    rw [← hm, ← he] at s1 s2 s3 s4
    generalize hv : (if a < 0x80 then ((a % 64 : Nat) : Int) else (a : Int)) = v at s4
    have hvb : isGraphemeBoundary v v = true ↔ Breaks a a := stray_break a v hv
    have hee : iterEq m e e = .ok false := by rw [s1]; congr 1; simp
    have hcs' : ∀ c ∈ cs, c < 2 ^ 31 := fun c hc' => h c (by simp [hc'])
    obtain ⟨w, hw1, hw2⟩ := stray_start cs hcs' a ha pre post o m e v hm he s1 s3 s4 fuel (by simpa using hf)
  · cases fuel with
    | zero => omega
    | succ f =>
      refine ⟨⟨pre.length, e, w, (pre ++ encodeText cs).length⟩, ?_, he.symm, hw2⟩
      have hfe : findEnd (utf8Iter m) (f + 1) e e = .ok (pre ++ encodeText cs).length := by
        simp only [findEnd, findEndLoop, utf8Iter, hee, s4, s2, hvb.mpr hb, Res.bind_ok, Bool.false_eq_true, if_false,
          if_true, Res.pure_eq]
      simp only [r, graphemeEnd, gAt, hw1, hfe, Res.bind_ok, Res.pure_eq]
  · have hb' : isGraphemeBoundary v v = false := by
      rw [← Bool.not_eq_true]; exact fun hh => hb (hvb.mp hh)
    have hspin := findEndLoop_spins (I := utf8Iter m) hee s4 s2 hb' fuel
    have hfe : findEnd (utf8Iter m) fuel e e = .tmo := by
      rw [findEnd, show (utf8Iter m).eq e e = .ok false from hee, Res.bind_ok, if_neg (by simp),
        show (utf8Iter m).deref e = _ from s4, Res.bind_ok]
      simp only
      rw [show (utf8Iter m).inc _ = _ from s2, Res.bind_ok, hspin]
    simp only [r, graphemeEnd, gAt, hw1, hfe, Res.bind_ok]
    rfl

-- Text `e`, U+0301 followed by `x`; by 0xFF; by an octet that claims two that are not there; by a stray octet.
example := C25_any_octets [0x65] 0x301 (by decide) [0x78] [] 0x78 3 (by decide)
example := (C25_any_octets [0x65] 0x301 (by decide) [0x78] [] 0xFF 3 (by decide)).2.1 (by decide) (.inl rfl)
example := (C25_any_octets [0x65] 0x301 (by decide) [0x78] [0xCC] 0xE2 3 (by decide)).2.1 (by decide) (.inr (by decide))
example := (C25_any_octets [0x65] 0x301 (by decide) [0x78] [] 0x80 3 (by decide)).2.2.2 (by decide)
example := (C25_any_octets [0x65] 0x7A (by decide) [] [] 0x80 3 (by decide)).2.2.1 (by decide)

example : graphemeEnd (utf8Iter ([0x65, 0xCC, 0x81] ++ 0x80 :: [])) 50 0 3 = .tmo ∧
    graphemeEnd (utf8Iter ([0x65, 0x7A] ++ 0x80 :: [])) 50 0 2 = .ok ⟨0, 2, 1, 1⟩ ∧
    graphemeEnd (utf8Iter ([0x7A] ++ 0x80 :: [])) 50 0 1 = .ok ⟨0, 1, 1, 0⟩ ∧
    graphemeEnd (utf8Iter ([0x65, 0x7A] ++ 0xE2 :: [])) 50 0 2 = .ub ∧
    graphemeEnd (utf8Iter ([0x65, 0x7A] ++ 0x78 :: [])) 50 0 2 = .ok ⟨0, 2, 2, 2⟩ := by decide +kernel

end U5e
