import Verif.Properties.GraphemeEnd
import Verif.Properties.Utf8Read
/-!
# C01, C02, C05 for UTF-8 text followed by any octets

A view of UTF-8 text that is not the end of a string is followed by whatever is in memory there.
-/
namespace U5e
open Spec

/-- Walking over text towards a position behind it: what remains to be walked behind the text decides. -/
theorem walk_over (m : Mem) (e : Nat) (cs : List Nat) (h : ∀ c ∈ cs, c < 2 ^ 31) (p : Nat) (hm : Holds m p (encodeText cs))
    (he : p + (encodeText cs).length ≤ e) (fuel : Nat) :
    walk m e (cs.length + fuel) p =
      walk m e fuel (p + (encodeText cs).length) >>= fun r => .ok (cs.map Int.ofNat ++ r) := by
  induction cs generalizing p with
  | nil => simp [encodeText]; cases walk m e fuel p <;> rfl
  | cons c cs ih =>
    have hu := encode_isUnit c (h c (by simp))
    have hfl : encodeText (c :: cs) = encode c ++ encodeText cs := by simp [encodeText]
    rw [hfl] at hm he ⊢
    rw [List.length_append] at he ⊢
    have hpos := hu.length_pos
    have h1 := iterEq_unit hu hm.left hpos e
    have h2 := cur_unit hu hm.left hpos
    have h3 := fwd_unit hu hm.left hpos
    rw [Nat.add_zero] at h1 h2 h3
    rw [decide_eq_false (by omega)] at h1
    rw [show (c :: cs).length + fuel = cs.length + fuel + 1 by simp; omega, walk]
    simp only [h1, h2, h3, Res.bind_ok, Bool.false_eq_true, if_false, payload_encode c (h c (by simp)),
      ih (fun d hd => h d (by simp [hd])) _ hm.right (by omega), Nat.add_assoc]
    cases walk m e fuel (p + ((encode c).length + (encodeText cs).length)) <;> rfl

/-- Walking on from `q` goes back to `q`. -/
theorem walk_stays {m : Mem} {e q s : Nat} {v : Int} (h1 : iterEq m q e = .ok false) (h2 : cur m q = .ok (v, s))
    (h3 : fwd m s = .ok q) (fuel : Nat) : walk m e fuel q = .tmo := by
  induction fuel with
  | zero => rfl
  | succ f ih => simp only [walk, h1, h2, h3, ih, Res.bind_ok, Bool.false_eq_true, if_false]; rfl

theorem rewind_outside (m : Mem) : rewind m m.length = .ub := by
  have h1 : rd m m.length = .ub := by simp [rd]
  cases h0 : m.length with
  | zero => rw [rewind, ← h0, h1]; rfl
  | succ n => rw [rewind, ← h0, h1]; rfl

/-- C01 for UTF-8 text (at least one codepoint) followed by any octets: if the one after the text is not a continuation
octet, forward iteration yields the codepoints of the text; if there is none, it is undefined behaviour; and if it is a
continuation octet, `while (it != end)` never ends. -/
theorem C01_any_octets (cs : List Nat) (a : Nat) (h : ∀ c ∈ cs ++ [a], c < 2 ^ 31) (pre post : List UInt8) (fuel : Nat) :
    let m := pre ++ encodeText (cs ++ [a]) ++ post
    let r := walk m (pre.length + (encodeText (cs ++ [a])).length) fuel pre.length
    ((cs ++ [a]).length < fuel → ∀ o, post.head? = some o → ¬ IsContinuation o → r = .ok ((cs ++ [a]).map Int.ofNat)) ∧
    ((cs ++ [a]).length < fuel → post = [] → r = .ub) ∧
    (∀ o, post.head? = some o → IsContinuation o → r = .tmo) := by
  intro m r
  refine ⟨fun hf o ho hc => ?_, fun hf hp => ?_, fun o ho hc => ?_⟩
  · cases post with
    | nil => simp at ho
    | cons o' post =>
      obtain rfl : o' = o := by simpa using ho
      exact C01_forward_iteration _ h pre post o' hc fuel hf
  · have hm : Holds m pre.length (encodeText (cs ++ [a])) := holds_append _ _ _
    have := walk_over m _ _ h pre.length hm (Nat.le_refl _) (fuel - (cs ++ [a]).length)
    rw [Nat.add_sub_cancel' (by omega)] at this
    have hl : pre.length + (encodeText (cs ++ [a])).length = m.length := by subst hp; simp [m]
    obtain ⟨f, hf'⟩ : ∃ f, fuel - (cs ++ [a]).length = f + 1 := ⟨fuel - (cs ++ [a]).length - 1, by omega⟩
    simp only [r]
    rw [this, hf', hl, walk, iterEq, rewind_outside]
    rfl
  · cases post with
    | nil => simp at ho
    | cons o' post =>
      obtain rfl : o' = o := by simpa using ho
      have ha : a < 2 ^ 31 := h a (by simp)
      have hm : m = (pre ++ encodeText cs) ++ encode a ++ o' :: post := by simp [m, encodeText]
      have he : pre.length + (encodeText (cs ++ [a])).length = (pre ++ encodeText cs).length + (encode a).length := by
        simp [encodeText]; omega
      obtain ⟨s1, s2, s3, s4⟩ := strayAfter a ha (pre ++ encodeText cs) post o' hc
      rw [← hm, ← he] at s1 s2 s3 s4
      have hspin : ∀ f, walk m (pre.length + (encodeText (cs ++ [a])).length) f
          (pre.length + (encodeText (cs ++ [a])).length) = .tmo :=
        walk_stays (by rw [s1, decide_eq_false (by omega)]) s4 s2
      have hover := fun f => walk_over m _ _ h pre.length (holds_append _ _ _) (Nat.le_refl _) f
      simp only [hspin] at hover
      have hnone : ∀ f, walk m (pre.length + (encodeText (cs ++ [a])).length) ((cs ++ [a]).length + f) pre.length = .tmo :=
        fun f => by rw [hover f]; rfl
      by_cases hf : (cs ++ [a]).length ≤ fuel
      · obtain ⟨f, rfl⟩ := Nat.exists_eq_add_of_le hf
        exact hnone f
      · have := walk_over m (pre.length + (encodeText (cs ++ [a])).length) ((cs ++ [a]).take fuel)
          (fun c hc => h c (List.mem_of_mem_take hc)) pre.length ?_ ?_ 0
        · rw [List.length_take, Nat.min_eq_left (by omega), Nat.add_zero] at this
          simp only [r]
          rw [this]; rfl
        · have hall : Holds m pre.length (encodeText (cs ++ [a])) := holds_append _ _ _
          have hsp : encodeText (cs ++ [a]) = encodeText ((cs ++ [a]).take fuel) ++ encodeText ((cs ++ [a]).drop fuel) := by
            rw [← show ∀ x y, encodeText (x ++ y) = encodeText x ++ encodeText y by simp [encodeText],
              List.take_append_drop]
          rw [hsp] at hall
          exact hall.left
        · have : encodeText (cs ++ [a]) = encodeText ((cs ++ [a]).take fuel) ++ encodeText ((cs ++ [a]).drop fuel) := by
            rw [← show ∀ x y, encodeText (x ++ y) = encodeText x ++ encodeText y by simp [encodeText],
              List.take_append_drop]
          rw [this, List.length_append]; omega

/-- C02 for UTF-8 text (at least one codepoint) followed by any octets: if the first of them is a continuation octet,
backward iteration from the end misses the last codepoint of the text; otherwise it yields the codepoints in reverse if
the octets claimed by that one are there, and is undefined behaviour if not. -/
theorem C02_any_octets (cs : List Nat) (a : Nat) (h : ∀ c ∈ cs ++ [a], c < 2 ^ 31) (pre post : List UInt8) (fuel : Nat)
    (hf : (cs ++ [a]).length < fuel) :
    let r := walkBack (pre ++ encodeText (cs ++ [a]) ++ post) pre.length fuel
      (pre.length + (encodeText (cs ++ [a])).length)
    (∀ o, post.head? = some o → ¬ IsContinuation o → claimed o ≤ post.length →
      r = .ok ((cs ++ [a]).map Int.ofNat).reverse) ∧
    (∀ o, post.head? = some o → ¬ IsContinuation o → post.length < claimed o → r = .ub) ∧
    (post = [] → r = .ub) ∧
    (∀ o, post.head? = some o → IsContinuation o → r = .ok (cs.map Int.ofNat).reverse) := by
  intro r
  have ha : a < 2 ^ 31 := h a (by simp)
  have hpos : 0 < (encode a).length := (encode_isUnit a ha).length_pos
  have hlt : 0 < (encodeText (cs ++ [a])).length := by simp [encodeText]; omega
  obtain ⟨f, rfl⟩ : ∃ f, fuel = f + 1 := ⟨fuel - 1, by omega⟩
  refine ⟨fun o ho hc hcl => C02_backward_iteration _ h pre post ⟨o, ho, hc, hcl⟩ _ hf, fun o ho hc hcl => ?_,
    fun hp => ?_, fun o ho hc => ?_⟩
  · cases post with
    | nil => simp at ho
    | cons o' post =>
      obtain rfl : o' = o := by simpa using ho
      generalize hM : pre ++ encodeText (cs ++ [a]) ++ o' :: post = m at *
      have hat : m[pre.length + (encodeText (cs ++ [a])).length]? = some o' := by
        rw [← hM, ← List.length_append, List.getElem?_append_right (Nat.le_refl _)]; simp
      have hlen : m.length = pre.length + (encodeText (cs ++ [a])).length + (post.length + 1) := by
        rw [← hM]; simp; omega
      simp only [List.length_cons] at hcl
      have hself := rewind_stop hat hc
      have hone : ∀ s, Of m s (pre.length + (encodeText (cs ++ [a])).length) →
          s = pre.length + (encodeText (cs ++ [a])).length := fun s hs => by
        have := (rewind_exact m _ s).mpr hs
        rw [hself] at this; cases this; rfl
      have : iterEq m (pre.length + (encodeText (cs ++ [a])).length) pre.length = .ub := by
        obtain ⟨q1, q2, q3⟩ := C72_equal m (pre.length + (encodeText (cs ++ [a])).length) pre.length
        cases hE : iterEq m (pre.length + (encodeText (cs ++ [a])).length) pre.length with
        | ub => rfl
        | tmo => exact absurd hE q3
        | ok b =>
          cases b with
          | true =>
            obtain ⟨s, l, g1, _, g3, _⟩ := q1.mp hE
            have := hone s g1; omega
          | false =>
            obtain ⟨s, l, g1, g2, _, g4⟩ := q2.mp hE
            rw [hone s g1] at g2 g4
            rw [hat] at g2; cases g2
            omega
      simp only [r]
      rw [hM, walkBack, this]
      rfl
  · subst hp
    have hl : pre.length + (encodeText (cs ++ [a])).length = (pre ++ encodeText (cs ++ [a]) ++ []).length := by simp
    simp only [r]
    rw [hl, walkBack, iterEq, rewind_outside]
    rfl
  · cases post with
    | nil => simp at ho
    | cons o' post =>
      obtain rfl : o' = o := by simpa using ho
      have hm : pre ++ encodeText (cs ++ [a]) ++ o' :: post = (pre ++ encodeText cs) ++ encode a ++ o' :: post := by
        simp [encodeText]
      have he : pre.length + (encodeText (cs ++ [a])).length = (pre ++ encodeText cs).length + (encode a).length := by
        simp [encodeText]; omega
      obtain ⟨s1, s2, s3, s4⟩ := strayAfter a ha (pre ++ encodeText cs) post o' hc
      rw [← hm, ← he] at s1 s2 s3 s4
      simp only [r]
      rw [walkBack, s1]
      rcases List.eq_nil_or_concat cs with rfl | ⟨l, p, rfl⟩
      · rw [decide_eq_true (by simp [encodeText]; omega)]; rfl
      · rw [List.concat_eq_append] at *
        have hp31 : p < 2 ^ 31 := h p (by simp)
        have hup := encode_isUnit p hp31
        have hpp := hup.length_pos
        have hcl : encodeText (l ++ [p]) = encodeText l ++ encode p := by simp [encodeText]
        rw [decide_eq_false (by rw [List.length_append, hcl, List.length_append]; omega)]
        have hHp : Holds (pre ++ encodeText (l ++ [p] ++ [a]) ++ o' :: post) (pre.length + (encodeText l).length) (encode p) := by
          have := holds_append (pre ++ encodeText l) (encode p) (encode a ++ o' :: post)
          simpa [encodeText] using this
        have hHa : Holds (pre ++ encodeText (l ++ [p] ++ [a]) ++ o' :: post)
            (pre.length + (encodeText l).length + (encode p).length) (encode a) := by
          have := holds_append (pre ++ encodeText l ++ encode p) (encode a) (o' :: post)
          simpa [encodeText, Nat.add_assoc] using this
        have hua := encode_isUnit a ha
        have hstart : (pre ++ encodeText (l ++ [p])).length = pre.length + (encodeText l).length + (encode p).length := by
          rw [hcl]; simp; omega
        have hself := rewind_unit hua hHa hua.length_pos
        rw [Nat.add_zero] at hself
        have hb := bwd_end hup hHp hself
        rw [hstart] at s3
        obtain ⟨s', g1, g2, g3⟩ := ((C72_decrement _ _).1 _).mp hb
        have hof := (rewind_exact _ _ _).mp s3
        rw [(rewind_exact _ _ _).mpr g1] at hself
        cases hself
        have hbe := ((C72_decrement _ _).1 _).mpr ⟨_, hof, g2, g3⟩
        have hcur := cur_unit hup hHp hpp
        rw [Nat.add_zero] at hcur
        have hfol : Followed (encode p ++ (encode a ++ o' :: post)) := followed_unit hup _
        have hrest := C02_backward_iteration l (fun c hc => h c (by simp [hc])) pre _ hfol f (by simp at hf; omega)
        rw [show pre ++ encodeText l ++ (encode p ++ (encode a ++ o' :: post)) =
          pre ++ encodeText (l ++ [p] ++ [a]) ++ o' :: post by simp [encodeText]] at hrest
        simp only [Res.bind_ok, Bool.false_eq_true, if_false, hbe, hcur, hrest, payload_encode p hp31]
        simp

/-- C05 for UTF-8 text followed by any octets. An iterator at any octet of a codepoint of the text is equal to those at the
octets of this codepoint and to no others, wherever they are and whatever follows the text. An iterator at the end of the
text is undefined behaviour to compare if there is nothing after it; if a continuation octet is there, it is equal to those
at the octets of the last codepoint `a` of the text, and not to itself; otherwise it is equal to itself and different from
all in the text, where the latter is undefined behaviour if the octets claimed by the one after the text are not there. -/
theorem C05_any_octets (cs : List Nat) (a : Nat) (h : ∀ c ∈ cs ++ [a], c < 2 ^ 31) (pre post : List UInt8) :
    let m := pre ++ encodeText (cs ++ [a]) ++ post
    let e := pre.length + (encodeText (cs ++ [a])).length
    (∀ p c q, cs ++ [a] = p ++ c :: q → ∀ i y, i < (encode c).length →
      let s := pre.length + (encodeText p).length
      iterEq m (s + i) y = .ok (decide (s ≤ y ∧ y < s + (encode c).length))) ∧
    (post = [] → ∀ y, iterEq m e y = .ub) ∧
    (∀ o, post.head? = some o → IsContinuation o → ∀ y,
      iterEq m e y = .ok (decide (pre.length + (encodeText cs).length ≤ y ∧ y < e))) ∧
    (∀ o, post.head? = some o → ¬ IsContinuation o → iterEq m e e = .ok true ∧
      ∀ y, y < e → iterEq m e y = if claimed o ≤ post.length then .ok false else .ub) := by
  intro m e
  have ha : a < 2 ^ 31 := h a (by simp)
  refine ⟨fun p c q hsplit i y hi => ?_, fun hp y => ?_, fun o ho hc y => ?_, fun o ho hc => ?_⟩
  · have hc31 : c < 2 ^ 31 := h c (by rw [hsplit]; simp)
    have hH : Holds m (pre.length + (encodeText p).length) (encode c) := by
      have := holds_append (pre ++ encodeText p) (encode c) (encodeText q ++ post)
      simp only [m, hsplit]
      simpa [encodeText] using this
    exact iterEq_unit (encode_isUnit c hc31) hH hi y
  · subst hp
    have hl : e = m.length := by simp [e, m]
    rw [hl, iterEq, rewind_outside]
    rfl
  · cases post with
    | nil => simp at ho
    | cons o' post =>
      obtain rfl : o' = o := by simpa using ho
      have hm : m = (pre ++ encodeText cs) ++ encode a ++ o' :: post := by simp [m, encodeText]
      have he : e = (pre ++ encodeText cs).length + (encode a).length := by simp [e, encodeText]; omega
      obtain ⟨s1, _⟩ := strayAfter a ha (pre ++ encodeText cs) post o' hc
      rw [← hm, ← he] at s1
      rw [s1, List.length_append]
  · cases post with
    | nil => simp at ho
    | cons o' post =>
      obtain rfl : o' = o := by simpa using ho
      have hat : m[e]? = some o' := by
        simp only [m, e]
        rw [← List.length_append, List.getElem?_append_right (Nat.le_refl _)]; simp
      have hlen : m.length = e + (post.length + 1) := by simp [m, e]; omega
      have hself := rewind_stop hat hc
      have hofe := (rewind_exact m e e).mp hself
      have hone : ∀ s, Of m s e → s = e := fun s hs => by
        have := (rewind_exact m _ s).mpr hs
        rw [hself] at this; cases this; rfl
      refine ⟨iterEq_self hat hc, fun y hy => ?_⟩
      obtain ⟨q1, q2, q3⟩ := C72_equal m e y
      split
      · next hcl =>
        refine q2.mpr ⟨e, o', hofe, hat, by omega, ?_⟩
        rw [hlen]; simp at hcl; omega
      · next hcl =>
        cases hE : iterEq m e y with
        | ub => rfl
        | tmo => exact absurd hE q3
        | ok b =>
          cases b with
          | true =>
            obtain ⟨s, l, g1, _, g3, _⟩ := q1.mp hE
            have := hone s g1; omega
          | false =>
            obtain ⟨s, l, g1, g2, _, g4⟩ := q2.mp hE
            rw [hone s g1] at g2 g4
            rw [hat] at g2; cases g2
            simp at hcl; omega

-- "Á€" followed by `x`, by nothing, by a stray octet, by one that claims too much.
example := (C01_any_octets [0xC1] 0x20AC (by decide) [0x78] [0x78] 3).1 (by decide) 0x78 rfl (by decide)
example := (C01_any_octets [0xC1] 0x20AC (by decide) [0x78] [] 3).2.1 (by decide) rfl
example := (C01_any_octets [0xC1] 0x20AC (by decide) [0x78] [0x80] 1000).2.2 0x80 rfl (by decide)
example := (C02_any_octets [0xC1] 0x20AC (by decide) [0x78] [0xC3] 3 (by decide)).2.1 0xC3 rfl (by decide) (by decide)
example := (C02_any_octets [0xC1] 0x20AC (by decide) [0x78] [0x80] 3 (by decide)).2.2.2 0x80 rfl (by decide)
example := (C05_any_octets [0xC1] 0x20AC (by decide) [0x78] [0x80]).1 [] 0xC1 [0x20AC] rfl 1 2 (by decide)
example := (C05_any_octets [0xC1] 0x20AC (by decide) [0x78] [0x80]).2.2.1 0x80 rfl (by decide) 6
example := (C05_any_octets [0xC1] 0x20AC (by decide) [0x78] [0xC3]).2.2.2 0xC3 rfl (by decide)

example : walkBack (encodeText [0xC1, 0x20AC] ++ [0x80]) 0 4 5 = .ok [0xC1] ∧
    walkBack (encodeText [0xC1, 0x20AC] ++ [0xC3]) 0 4 5 = .ub ∧
    walk (encodeText [0xC1, 0x20AC] ++ [0x80]) 5 20 0 = .tmo ∧
    walk (encodeText [0xC1, 0x20AC] ++ [0xC3]) 5 4 0 = .ok [0xC1, 0x20AC] := by decide +kernel

end U5e
