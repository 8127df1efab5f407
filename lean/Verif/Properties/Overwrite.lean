import Verif.Proofs.Octets
import Verif.Spec.Overwrite
import Verif.Properties.Utf8Write
/-!
# C12: sequential writes over arbitrary old content

`copyInto m p cs` is `std::copy` of the codepoints `cs` into a mutable UTF-8 iterator at octet `p` of the memory `m`.
-/
namespace U5e
open Spec

/-- The octet at the first place of writing. -/
def HeadOK (ps : List Nat) (buf : List UInt8) : Prop :=
  ∃ o, buf[0]? = some o ∧ if IsContinuation o then ps ≠ [] else o ≠ 0xFF ∧ claimed o ≤ buf.length

theorem encodeText_append (as bs : List Nat) : encodeText (as ++ bs) = encodeText as ++ encodeText bs := by
  simp [encodeText]

theorem overwritable_cons (ps : List Nat) (buf : List UInt8) (c : Nat) (cs : List Nat)
    (hr : (encode c).length ≤ buf.length) :
    Overwritable ps buf (c :: cs) ↔ HeadOK ps buf ∧ Overwritable (ps ++ [c]) (buf.drop (encode c).length) cs := by
  have hcons : ∀ as : List Nat, (encodeText (c :: as)).length = (encode c).length + (encodeText as).length := by
    intro as; simp [encodeText]
  constructor
  · intro h
    constructor
    · obtain ⟨o, h1, h2⟩ := h [] c cs rfl
      refine ⟨o, by simpa [encodeText] using h1, ?_⟩
      simpa [encodeText] using h2
    · intro as d bs he
      obtain ⟨o, h1, h2⟩ := h (c :: as) d bs (by rw [he]; rfl)
      rw [hcons] at h1 h2
      refine ⟨o, by rw [List.getElem?_drop]; exact h1, ?_⟩
      split
      · simp
      · next hc =>
        rw [if_neg hc] at h2
        exact ⟨h2.1, by rw [List.length_drop]; omega⟩
  · rintro ⟨h1, h2⟩ as d bs he
    cases as with
    | nil =>
      obtain ⟨o, h3, h4⟩ := h1
      refine ⟨o, by simpa [encodeText] using h3, ?_⟩
      simpa [encodeText] using h4
    | cons a as =>
      rw [List.cons_append, List.cons.injEq] at he
      obtain ⟨rfl, he⟩ := he
      obtain ⟨o, h3, h4⟩ := h2 as d bs he
      rw [List.getElem?_drop] at h3
      rw [hcons]
      refine ⟨o, h3, ?_⟩
      split
      · simp
      · next hc =>
        rw [if_neg hc, List.length_drop] at h4
        refine ⟨h4.1, ?_⟩
        have hp : 0 < claimed o := by
          have : ∀ o : UInt8, ¬ IsContinuation o → 0 < claimed o := by apply forall_octet; decide +kernel
          exact this o hc
        omega

/-- Whether the octets at the end of a text can be decoded. -/
theorem cur_after_text (ps : List Nat) (hp : ∀ c ∈ ps, c < 2 ^ 31) (buf : List UInt8) :
    (HeadOK ps buf → ∃ r, cur (encodeText ps ++ buf) (encodeText ps).length = .ok r) ∧
      (¬ HeadOK ps buf → cur (encodeText ps ++ buf) (encodeText ps).length = .ub) := by
  cases hb : buf[0]? with
  | none =>
    have h0 : buf = [] := by cases buf <;> simp_all
    subst h0
    refine ⟨fun ⟨o, h, _⟩ => by simp at h, fun _ => ?_⟩
    have : (encodeText ps ++ [])[(encodeText ps).length]? = none := by simp
    rw [cur, rd, this]; rfl
  | some o =>
    have hget : (encodeText ps ++ buf)[(encodeText ps).length]? = some o := by
      rw [List.getElem?_append_right (by omega)]; simpa using hb
    have hOK : HeadOK ps buf ↔ if IsContinuation o then ps ≠ [] else o ≠ 0xFF ∧ claimed o ≤ buf.length :=
      ⟨fun ⟨o', h1, h2⟩ => by rw [hb] at h1; cases h1; exact h2, fun h => ⟨o, hb, h⟩⟩
    rw [hOK]
    by_cases hc : IsContinuation o
    · rw [if_pos hc]
      constructor
      · intro hne
        obtain ⟨qs, d, rfl⟩ : ∃ qs d, ps = qs ++ [d] := ⟨_, _, (List.dropLast_concat_getLast hne).symm⟩
        have hd : d < 2 ^ 31 := hp d (by simp)
        have hu := encode_isUnit d hd
        have htext : encodeText (qs ++ [d]) = encodeText qs ++ encode d := by simp [encodeText]
        have hm : Holds (encodeText (qs ++ [d]) ++ buf) (encodeText qs).length (encode d) := by
          rw [htext]; exact holds_append _ _ _
        obtain ⟨l, hl1, hl2, hl3⟩ : ∃ l, (encodeText (qs ++ [d]) ++ buf)[(encodeText qs).length]? = some l ∧
            ¬ IsContinuation l ∧ l ≠ 0xFF ∧ claimed l = (encode d).length := by
          have key : ∀ l : UInt8, announced l ≠ 0 → ¬ IsContinuation l ∧ l ≠ 0xFF ∧ claimed l = announced l := by
            apply forall_octet; decide +kernel
          cases he : encode d with
          | nil => rw [he] at hu; exact absurd hu id
          | cons l r =>
            rw [he] at hu hm
            have ha : announced l = r.length + 1 := hu.1
            obtain ⟨k1, k2, k3⟩ := key l (by omega)
            refine ⟨l, ?_, k1, k2, by rw [k3, ha]; rfl⟩
            rw [htext, he, List.append_assoc, List.getElem?_append_right (by omega)]
            simp
        have hrw : rewind (encodeText (qs ++ [d]) ++ buf) (encodeText (qs ++ [d])).length =
            .ok (encodeText qs).length := by
          have hlen : (encodeText (qs ++ [d])).length = (encodeText qs).length + ((encode d).length - 1) + 1 := by
            have := hu.length_pos
            rw [htext, List.length_append]; omega
          rw [hlen, rewind_cont (by rw [← hlen]; exact hget) hc]
          exact rewind_unit hu hm (by have := hu.length_pos; omega)
        rcases Decidable.em (l.toNat < 0x80) with h7 | h7
        · -- the last codepoint is ASCII: the stray octet is read as a continuation of it
          have hlen1 : claimed l = 1 := by rw [claimed, if_pos h7]
          have hno : is7bit o = false := by
            rw [Bool.eq_false_iff]; intro hb
            have := (is7bit_iff o).mp hb
            simp only [IsContinuation] at hc; omega
          have hcp := cpSize_claimed l hl2
          have h1 : cpSize l = 1 := by omega
          rcases cur_cases (encodeText (qs ++ [d]) ++ buf) (encodeText (qs ++ [d])).length with ⟨r, hr, _⟩ | hub
          · exact ⟨r, hr⟩
          · simp [cur, rd_some hget, Res.bind_ok, hno, hrw, rd_some hl1, maskFirst, h1, decLoop] at hub
        · refine ⟨_, cur_value hrw hl1 (.inr ⟨by omega, o, hget, hc⟩) hl2 hl3.1 ?_⟩
          rw [hl3.2, htext]; simp
      · intro hne
        have hps : ps = [] := by simpa using hne
        subst hps
        have h0 : rewind (encodeText [] ++ buf) 0 = .ub := rewind_ub (fun k hk => by
          obtain rfl : k = 0 := by omega
          exact ⟨o, by simpa [encodeText] using hb, hc⟩)
        rcases cur_cases (encodeText [] ++ buf) (encodeText []).length with ⟨r, hr, hr'⟩ | h
        · have hno : is7bit o = false := by
            rw [Bool.eq_false_iff]; intro hb
            have := (is7bit_iff o).mp hb
            simp only [IsContinuation] at hc; omega
          simp only [cur, rd_some hget, Res.bind_ok, hno, Bool.false_eq_true, if_false] at hr
          rw [show (encodeText []).length = 0 from rfl] at hr
          rw [h0] at hr
          simp at hr
        · exact h
    · rw [if_neg hc]
      constructor
      · rintro ⟨h1, h2⟩
        exact ⟨_, cur_value (rewind_stop hget hc) hget (.inl rfl) hc h1 (by rw [List.length_append]; omega)⟩
      · intro hn
        refine cur_ub hget hc ?_
        by_cases h1 : o = 0xFF
        · exact .inr h1
        · left
          have : ¬ claimed o ≤ buf.length := fun h => hn ⟨h1, h⟩
          rw [List.length_append]; omega

/-- C12, exact, for every old content. Copying a text through a mutable iterator over any octets leaves the encodings
followed by the untouched rest of the octets if the text fits and the octets at the places of writing do not stop the
library; otherwise it is undefined behaviour. -/
theorem C12_exact (ps cs : List Nat) (hp : ∀ c ∈ ps, c < 2 ^ 31) (h : ∀ c ∈ cs, Encodable c) (buf : List UInt8) :
    ((encodeText cs).length ≤ buf.length ∧ Overwritable ps buf cs →
      copyInto (encodeText ps ++ buf) (encodeText ps).length (cs.map (BitVec.ofNat 32)) =
        .ok (encodeText ps ++ encodeText cs ++ buf.drop (encodeText cs).length,
          (encodeText ps).length + (encodeText cs).length)) ∧
    (¬ ((encodeText cs).length ≤ buf.length ∧ Overwritable ps buf cs) →
      copyInto (encodeText ps ++ buf) (encodeText ps).length (cs.map (BitVec.ofNat 32)) = .ub) := by
  induction cs generalizing ps buf with
  | nil =>
    refine ⟨fun _ => by simp [copyInto, encodeText], fun hn => absurd ⟨by simp [encodeText], ?_⟩ hn⟩
    intro as c bs he; simp at he
  | cons c cs ih =>
    have hc : Encodable c := h c (by simp)
    have h31 : c < 2 ^ 31 := by unfold Encodable at hc; omega
    have htext : encodeText (c :: cs) = encode c ++ encodeText cs := by simp [encodeText]
    have hps : encodeText (ps ++ [c]) = encodeText ps ++ encode c := by simp [encodeText]
    rw [htext]
    rw [List.length_append]
    by_cases hr : (encode c).length ≤ buf.length
    · rw [overwritable_cons ps buf c cs hr]
      by_cases hh : HeadOK ps buf
      · have hsplit : encodeText ps ++ buf =
            encodeText ps ++ buf.take (encode c).length ++ buf.drop (encode c).length := by
          rw [List.append_assoc, List.take_append_drop]
        have h1 := (C09_write_read c hc (encodeText ps) (buf.take (encode c).length) (buf.drop (encode c).length)
          (by simp; omega) (by rw [← hsplit]; exact (cur_after_text ps hp buf).1 hh)).1
        rw [← hsplit] at h1
        have hpos := (encode_isUnit c h31).length_pos
        have h2 := fwd_unit (encode_isUnit c h31)
          (holds_append (encodeText ps) (encode c) (buf.drop (encode c).length)) (i := (encode c).length - 1) (by omega)
        rw [show (encodeText ps).length + ((encode c).length - 1) = (encodeText ps).length + (encode c).length - 1
          by omega] at h2
        have h3 := ih (ps ++ [c]) (by
            intro x hx; rcases List.mem_append.mp hx with hx | hx
            · exact hp x hx
            · simp at hx; omega) (fun d hd => h d (by simp [hd])) (buf.drop (encode c).length)
        rw [hps, List.length_append, List.length_drop] at h3
        have heq : copyInto (encodeText ps ++ buf) (encodeText ps).length ((c :: cs).map (BitVec.ofNat 32)) =
            copyInto (encodeText ps ++ encode c ++ buf.drop (encode c).length)
              ((encodeText ps).length + (encode c).length) (cs.map (BitVec.ofNat 32)) := by
          simp only [List.map_cons, copyInto, h1, h2, Res.bind_ok]
        rw [heq]
        constructor
        · rintro ⟨hl, _, ho⟩
          rw [h3.1 ⟨by omega, ho⟩, List.drop_drop]
          simp only [List.append_assoc, Nat.add_assoc]
        · intro hn
          exact h3.2 fun ⟨hl, ho⟩ => hn ⟨by omega, hh, ho⟩
      · refine ⟨fun ⟨_, hh', _⟩ => absurd hh' hh, fun _ => ?_⟩
        simp only [List.map_cons, copyInto, assign, (cur_after_text ps hp buf).2 hh]
        rfl
    · refine ⟨fun ⟨hl, _⟩ => absurd hl (by omega), fun _ => ?_⟩
      simp only [List.map_cons, copyInto, C09_no_room c hc (encodeText ps) buf (by omega)]
      rfl

/-- Every octet of a text is a continuation with an octet before it, or begins a codepoint whose octets are all
there. -/
theorem text_octet (ds : List Nat) (hd : ∀ d ∈ ds, d < 2 ^ 31) (k : Nat) (hk : k < (encodeText ds).length) :
    ∃ o, (encodeText ds)[k]? = some o ∧
      if IsContinuation o then 0 < k else o ≠ 0xFF ∧ k + claimed o ≤ (encodeText ds).length := by
  induction ds generalizing k with
  | nil => simp [encodeText] at hk
  | cons d ds ih =>
    have htext : encodeText (d :: ds) = encode d ++ encodeText ds := by simp [encodeText]
    have hu := encode_isUnit d (hd d (by simp))
    rw [htext, List.length_append] at hk
    rw [htext, List.length_append]
    by_cases hlt : k < (encode d).length
    · rw [List.getElem?_append_left hlt]
      cases he : encode d with
      | nil => rw [he] at hlt; simp at hlt
      | cons l r =>
        rw [he] at hu hlt
        have key : ∀ l : UInt8, announced l ≠ 0 → ¬ IsContinuation l ∧ l ≠ 0xFF ∧ claimed l = announced l := by
          apply forall_octet; decide +kernel
        have ha : announced l = r.length + 1 := hu.1
        cases k with
        | zero =>
          obtain ⟨k1, k2, k3⟩ := key l (by omega)
          refine ⟨l, rfl, ?_⟩
          rw [if_neg k1]
          exact ⟨k2, by rw [k3, ha]; simp⟩
        | succ k =>
          have hr : k < r.length := by simpa using hlt
          refine ⟨r[k], by simp [List.getElem?_eq_getElem hr], ?_⟩
          rw [if_pos (hu.2 _ (List.getElem_mem hr))]
          omega
    · obtain ⟨o, h1, h2⟩ := ih (fun x hx => hd x (by simp [hx])) (k - (encode d).length) (by omega)
      refine ⟨o, by rw [List.getElem?_append_right (by omega)]; exact h1, ?_⟩
      split
      · next hc => rw [if_pos hc] at h2; omega
      · next hc => rw [if_neg hc] at h2; exact ⟨h2.1, by omega⟩

/-- C12, text over text. Replacing a text by another one in place works whatever the two texts are, as long as the
new one has no more octets than the old one: the octets of the new text are followed by the old octets after them. -/
theorem C12_over_text (ps cs ds : List Nat) (hp : ∀ c ∈ ps, c < 2 ^ 31) (hd : ∀ d ∈ ds, d < 2 ^ 31)
    (h : ∀ c ∈ cs, Encodable c) (hroom : (encodeText cs).length ≤ (encodeText ds).length) :
    copyInto (encodeText ps ++ encodeText ds) (encodeText ps).length (cs.map (BitVec.ofNat 32)) =
      .ok (encodeText ps ++ encodeText cs ++ (encodeText ds).drop (encodeText cs).length,
        (encodeText ps).length + (encodeText cs).length) := by
  refine (C12_exact ps cs hp h (encodeText ds)).1 ⟨hroom, ?_⟩
  intro as c bs he
  have hpos : 0 < (encode c).length := by
    have hc : Encodable c := h c (by simp [he])
    exact (encode_isUnit c (by unfold Encodable at hc; omega)).length_pos
  have hlt : (encodeText as).length < (encodeText ds).length := by
    rw [he, encodeText_append] at hroom
    simp [encodeText] at hroom hpos ⊢
    omega
  obtain ⟨o, h1, h2⟩ := text_octet ds hd _ hlt
  refine ⟨o, h1, ?_⟩
  split
  · next hc =>
    rw [if_pos hc] at h2
    intro hn
    have : as = [] := by simp at hn; exact hn.2
    subst this
    simp [encodeText] at h2
  · next hc => rwa [if_neg hc] at h2

/-- Instance: "aé" over "€\u00e9", which puts the lead octet of é on a continuation octet. -/
example : copyInto (encodeText [0x20] ++ encodeText [0x20AC, 0xE9]) 1 [0x61#32, 0xE9#32] =
    .ok (encodeText [0x20] ++ encodeText [0x61, 0xE9] ++ (encodeText [0x20AC, 0xE9]).drop 3, 4) := by
  exact C12_over_text [0x20] [0x61, 0xE9] [0x20AC, 0xE9] (by decide) (by decide)
    (by intro c hc; simp at hc; rcases hc with rfl | rfl <;> decide) (by decide)

/-- Instance of the other side: a continuation octet with no text before it stops the library, a lead octet claiming
more octets than there are does too, and so does too little room. -/
example : copyInto [0x80, 0x20, 0x20] 0 [0x61#32] = .ub ∧ copyInto [0x20, 0xE2, 0x20] 0 [0x61#32, 0x62#32] = .ub ∧
    copyInto [0x20] 0 [0xE9#32] = .ub := by
  refine ⟨?_, ?_, ?_⟩
  · refine (C12_exact [] [0x61] (by decide) (by intro c hc; simp at hc; subst hc; decide) [0x80, 0x20, 0x20]).2 ?_
    rintro ⟨_, h⟩
    obtain ⟨o, h1, h2⟩ := h [] 0x61 [] rfl
    simp [encodeText] at h1
    subst h1
    exact absurd rfl ((if_pos (by decide)).mp h2)
  · refine (C12_exact [] [0x61, 0x62] (by decide) (by intro c hc; simp at hc; rcases hc with rfl | rfl <;> decide)
      [0x20, 0xE2, 0x20]).2 ?_
    rintro ⟨_, h⟩
    obtain ⟨o, h1, h2⟩ := h [0x61] 0x62 [] rfl
    obtain rfl : o = 0xE2 := by
      have : (encodeText [0x61]).length = 1 := by decide
      rw [this] at h1; simpa using h1.symm
    exact absurd h2 (by decide)
  · refine (C12_exact [] [0xE9] (by decide) (by intro c hc; simp at hc; subst hc; decide) [0x20]).2 ?_
    rintro ⟨h, _⟩
    exact absurd h (by decide)

/-- C47 over a whole text. With `*it++ = c` a text is replaced correctly by one whose codepoints have, one by one, the
sizes of the old ones, whatever they are. -/
theorem C47_same_sizes (cs ds : List Nat) (h : ∀ c ∈ cs, Encodable c) (hd : ∀ d ∈ ds, d < 2 ^ 31)
    (hs : cs.map (fun c => (encode c).length) = ds.map (fun d => (encode d).length)) (pre post : List UInt8) :
    copyIntoPost (pre ++ encodeText ds ++ post) pre.length (cs.map (BitVec.ofNat 32)) =
      .ok (pre ++ encodeText cs ++ post, pre.length + (encodeText cs).length) := by
  induction cs generalizing ds pre with
  | nil =>
    have : ds = [] := by simpa using hs.symm
    subst this
    simp [copyIntoPost, encodeText]
  | cons c cs ih =>
    cases ds with
    | nil => simp at hs
    | cons d ds =>
      rw [List.map_cons, List.map_cons, List.cons.injEq] at hs
      have htext : ∀ (c : Nat) cs, encodeText (c :: cs) = encode c ++ encodeText cs := by intro c cs; simp [encodeText]
      have h1 := C47_post_increment_write c (h c (by simp)) (encode d) (encode_isUnit d (hd d (by simp))) pre
        (encodeText ds ++ post) (by omega)
      have h2 := ih ds (fun x hx => h x (by simp [hx])) (fun x hx => hd x (by simp [hx])) hs.2 (pre ++ encode c)
      rw [List.length_append, hs.1] at h2
      rw [hs.1, List.drop_left] at h1
      simp only [List.append_assoc] at h1 h2
      simp only [List.map_cons, copyIntoPost, htext, List.append_assoc, h1, h2, Res.bind_ok, List.length_append, hs.1,
        Nat.add_assoc]

/-- Instance: "é€a" over "ñ‰z". -/
example : copyIntoPost ([0x20] ++ encodeText [0xF1, 0x2030, 0x7A] ++ [0]) 1 [0xE9#32, 0x20AC#32, 0x61#32] =
    .ok ([0x20] ++ encodeText [0xE9, 0x20AC, 0x61] ++ [0], 7) :=
  C47_same_sizes [0xE9, 0x20AC, 0x61] [0xF1, 0x2030, 0x7A]
    (by intro c hc; simp at hc; rcases hc with rfl | rfl | rfl <;> decide) (by decide) (by decide) [0x20] [0]

end U5e
