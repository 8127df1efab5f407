import Verif.Spec.Cursors
import Verif.Properties.History
import Verif.Properties.Utf8Read
/-!
# Iterators anywhere inside a codepoint

`*it = c` leaves a mutable UTF-8 iterator on the last octet it has written. These lemmas say that moving, reading and
comparing work from any octet of a codepoint.
-/
namespace U5e
open Spec

/-- Where codepoint number `i` starts. -/
def off (rep : List Nat → List α) (cs : List Nat) (i : Nat) : Nat := (rep (cs.take i)).length

/-- Position `p` lies in codepoint number `i`, or `i` is the end and `p` the end of the string. -/
def Inside (rep : List Nat → List α) (cs : List Nat) (i p : Nat) : Prop :=
  (i = cs.length ∧ p = off rep cs i) ∨ (i < cs.length ∧ off rep cs i ≤ p ∧ p < off rep cs (i + 1))

theorem Inside.le {rep : List Nat → List α} {cs : List Nat} {i p : Nat} (h : Inside rep cs i p) : i ≤ cs.length := by
  rcases h with ⟨h, _⟩ | ⟨h, _⟩ <;> omega

/-- What one encoding has to provide for iterators in the middle of codepoints. -/
structure RefinesMid (E : Encoding α) (rep : List Nat → List α) : Prop where
  pos : ∀ c, c < 2 ^ 31 → 0 < (rep [c]).length
  one : (rep [0]).length = 1
  sameLen : ∀ a b, (encode a).length = (encode b).length → (rep [a]).length = (rep [b]).length
  deref : ∀ cs : List Nat, (∀ c ∈ cs, c < 2 ^ 31) → ∀ i p c, cs[i]? = some c → Inside rep cs i p →
    (E.over (rep cs)).deref p = .ok (Int.ofNat c, off rep cs i)
  inc : ∀ cs : List Nat, (∀ c ∈ cs, c < 2 ^ 31) → ∀ i p, i < cs.length → Inside rep cs i p →
    (E.over (rep cs)).inc p = .ok (off rep cs (i + 1))
  dec : ∀ cs : List Nat, (∀ c ∈ cs, c < 2 ^ 31) → ∀ i p, Inside rep cs (i + 1) p →
    (E.over (rep cs)).dec p = .ok (off rep cs i)
  eq : ∀ cs : List Nat, (∀ c ∈ cs, c < 2 ^ 31) → ∀ i j p q, Inside rep cs i p → Inside rep cs j q →
    (E.over (rep cs)).eq p q = .ok (decide (i = j))
  assign : ∀ (pre post : List Nat) (old n : Nat), (∀ c ∈ pre ++ old :: post, c < 2 ^ 31) → Encodable n →
    (encode n).length = (encode old).length →
    ∃ q, E.assign (rep (pre ++ old :: post) ++ [E.nul]) (rep pre).length n = .ok (rep (pre ++ n :: post) ++ [E.nul], q) ∧
      (rep pre).length ≤ q ∧ q < (rep (pre ++ [n])).length

theorem take_succ_of_getElem? {cs : List Nat} {i c : Nat} (h : cs[i]? = some c) : cs.take (i + 1) = cs.take i ++ [c] := by
  rw [List.take_add_one, h]; rfl

theorem split_at {cs : List Nat} {i c : Nat} (h : cs[i]? = some c) : cs = cs.take i ++ c :: cs.drop (i + 1) := by
  have hi := (List.getElem?_eq_some_iff.mp h).1
  conv => lhs; rw [← List.take_append_drop i cs, List.drop_eq_getElem_cons hi]
  rw [(List.getElem?_eq_some_iff.mp h).2]

theorem inside32 {cs : List Nat} {i p : Nat} (h : Inside (fun cs => ints cs) cs i p) : p = i := by
  rcases h with ⟨h, h1⟩ | ⟨h, h1, h2⟩
  · simp [off] at h1; omega
  · simp [off] at h1 h2; omega

theorem refinesMid32 : RefinesMid enc32 (fun cs => ints cs) where
  pos c _ := by simp
  one := rfl
  sameLen a b _ := by simp
  deref cs h i p c hc hp := by
    obtain rfl := inside32 hp
    have S := sim_utf32 [] (ints cs) [0]
    have := S.deref p (Int.ofNat c) (by simp [hc])
    have hl := (List.getElem?_eq_some_iff.mp hc).1
    simp only [Encoding.over, enc32, off, ints, List.length_map, List.length_take] at this ⊢
    rw [Nat.min_eq_left (by omega)]
    simpa using this
  inc cs h i p hi hp := by
    obtain rfl := inside32 hp
    have S := sim_utf32 [] (ints cs) [0]
    have := S.inc p (by simpa using hi)
    simp only [Encoding.over, enc32, off, ints, List.length_map, List.length_take] at this ⊢
    rw [Nat.min_eq_left (by omega)]
    simpa using this
  dec cs h i p hp := by
    have hle := hp.le
    obtain rfl := inside32 hp
    have S := sim_utf32 [] (ints cs) [0]
    have := S.dec i (by simp; omega)
    simp only [Encoding.over, enc32, off, ints, List.length_map, List.length_take] at this ⊢
    rw [Nat.min_eq_left (by omega)]
    simpa using this
  eq cs h i j p q hp hq := by
    have h1 := hp.le
    have h2 := hq.le
    obtain rfl := inside32 hp
    obtain rfl := inside32 hq
    have S := sim_utf32 [] (ints cs) [0]
    have := S.eq p q (by simpa using h1) (by simpa using h2)
    simpa [Encoding.over, enc32] using this
  assign pre post old n _ _ _ := by
    refine ⟨pre.length, ?_, by simp, by simp⟩
    show assign32 _ _ _ = _
    rw [assign32, if_pos (by simp)]
    simp

theorem unitIndex_inside {cs : List Nat} (h : ∀ c ∈ cs, c < 2 ^ 31) {i p : Nat} (hp : Inside encodeText cs i p) :
    unitIndex (cs.map encode) p = i ∧ p ≤ (encodeText cs).length := by
  have hws := wellShaped_encode cs h
  have key : ∀ j, j ≤ cs.length → unitIndex (cs.map encode) (off encodeText cs j) = j := by
    intro j hj
    have := unitIndex_upos _ hws j (by simpa)
    rw [← List.map_take, ← encodeText_flatten] at this
    exact this
  have hmono : ∀ j, j ≤ cs.length → off encodeText cs j ≤ (encodeText cs).length := by
    intro j hj
    conv => rhs; rw [← List.take_append_drop j cs]
    simp only [off, encodeText, List.flatMap_append, List.length_append]; omega
  rcases hp with ⟨rfl, rfl⟩ | ⟨hi, h1, h2⟩
  · exact ⟨key _ (Nat.le_refl _), hmono _ (Nat.le_refl _)⟩
  · have hc : cs[i]? = some cs[i] := List.getElem?_eq_getElem hi
    refine ⟨?_, by have := hmono (i + 1) (by omega); omega⟩
    clear key hmono hws
    induction cs generalizing i p with
    | nil => simp at hi
    | cons c cs ih =>
      cases i with
      | zero =>
        simp only [off, List.take_zero, List.take_succ_cons, encodeText, List.flatMap_cons, List.flatMap_nil,
          List.append_nil] at h1 h2
        simp [unitIndex, h2]
      | succ i =>
        simp only [off, List.take_succ_cons, encodeText, List.flatMap_cons, List.length_append] at h1 h2
        have := ih (fun x hx => h x (by simp [hx])) (i := i) (p := p - (encode c).length)
          (by simpa using hi) (by simp only [off, encodeText]; omega) (by simp only [off, encodeText]; omega)
          (List.getElem?_eq_getElem (by simpa using hi))
        simp only [List.map_cons, unitIndex]
        rw [if_neg (by omega), this]

theorem text_split {cs : List Nat} {i c : Nat} (h : cs[i]? = some c) :
    encodeText cs ++ [0] = encodeText (cs.take i) ++ encode c ++ (encodeText (cs.drop (i + 1)) ++ [0]) := by
  have e : encodeText cs = encodeText (cs.take i ++ c :: cs.drop (i + 1)) := by rw [← split_at h]
  rw [e]
  simp [-List.take_append_drop, encodeText]

theorem off_succ8 {cs : List Nat} {i c : Nat} (h : cs[i]? = some c) :
    off encodeText cs (i + 1) = (encodeText (cs.take i)).length + (encode c).length := by
  rw [off, take_succ_of_getElem? h]
  generalize cs.take i = a
  simp [encodeText]

theorem over8 (cs : List Nat) : enc8.over (encodeText cs) = utf8Iter (encodeText cs ++ [0]) := rfl

theorem refinesMid8 : RefinesMid enc8 encodeText where
  pos c h := by
    have := (encode_isUnit c h).length_pos
    simpa [encodeText] using this
  one := rfl
  sameLen a b h := by simpa [encodeText] using h
  deref cs h i p c hc hp := by
    have hi := (List.getElem?_eq_some_iff.mp hc).1
    have h31 := h c (List.mem_of_getElem? hc)
    rcases hp with ⟨h1, _⟩ | ⟨_, h1, h2⟩
    · omega
    rw [off_succ8 hc] at h2
    have := C03_deref_resynchronises c h31 (encodeText (cs.take i)) (encodeText (cs.drop (i + 1)) ++ [0])
      (p - off encodeText cs i) (by simp only [off] at h1 h2 ⊢; omega)
    rw [over8]
    show cur _ _ = _
    rw [text_split hc]
    rw [show (encodeText (cs.take i)).length + (p - off encodeText cs i) = p by rw [off] at h1 ⊢; omega] at this
    rw [this]; rfl
  inc cs h i p hi hp := by
    have hc : cs[i]? = some cs[i] := List.getElem?_eq_getElem hi
    have h31 := h cs[i] (List.getElem_mem hi)
    rcases hp with ⟨h1, _⟩ | ⟨_, h1, h2⟩
    · omega
    rw [off_succ8 hc] at h2
    have := fwd_unit (encode_isUnit cs[i] h31)
      (holds_append (encodeText (cs.take i)) (encode cs[i]) (encodeText (cs.drop (i + 1)) ++ [0]))
      (i := p - off encodeText cs i) (by simp only [off] at h1 h2 ⊢; omega)
    rw [over8]
    show fwd _ _ = _
    rw [text_split hc]
    rw [show (encodeText (cs.take i)).length + (p - off encodeText cs i) = p by rw [off] at h1 ⊢; omega] at this
    rw [this, off_succ8 hc]
  dec cs h i p hp := by
    have hle := hp.le
    have hi : i < cs.length := by omega
    have hc : cs[i]? = some cs[i] := List.getElem?_eq_getElem hi
    have h31 := h cs[i] (List.getElem_mem hi)
    have e1 := off_succ8 hc
    rw [over8]
    show bwd _ _ = _
    -- what follows codepoint `i`: the next one, or the terminator
    obtain ⟨v, post, hv, hpost, j, hj, hpj⟩ : ∃ v post, IsUnit v ∧ encodeText (cs.drop (i + 1)) ++ [0] = v ++ post ∧
        ∃ j, j < v.length ∧ p = off encodeText cs (i + 1) + j := by
      rcases hp with ⟨h1, h2⟩ | ⟨h1, h2, h3⟩
      · refine ⟨[0], [], by decide, ?_, 0, by decide, by rw [h2]; rfl⟩
        rw [h1, List.drop_length]; rfl
      · have hc2 : cs[i + 1]? = some cs[i + 1] := List.getElem?_eq_getElem h1
        refine ⟨encode cs[i + 1], encodeText (cs.drop (i + 1 + 1)) ++ [0],
          encode_isUnit _ (h _ (List.getElem_mem h1)), ?_, p - off encodeText cs (i + 1), ?_, by omega⟩
        · rw [List.drop_eq_getElem_cons h1]
          generalize cs.drop (i + 1 + 1) = a
          simp [encodeText]
        · have e2 := off_succ8 hc2
          simp only [off] at h2 h3 e2 ⊢
          omega
    have em : encodeText cs ++ [0] = encodeText (cs.take i) ++ encode cs[i] ++ (v ++ post) := by
      rw [← hpost]; exact text_split hc
    rw [em, hpj, e1]
    have hm2 := holds_append (encodeText (cs.take i) ++ encode cs[i]) v post
    rw [List.length_append] at hm2
    have := bwd_unit (encode_isUnit cs[i] h31) (holds_append (encodeText (cs.take i)) (encode cs[i]) (v ++ post)) hv
      (by rw [← List.append_assoc]; exact hm2) hj
    rw [this]; rfl
  eq cs h i j p q hp hq := by
    obtain ⟨a1, a2⟩ := unitIndex_inside h hp
    obtain ⟨b1, b2⟩ := unitIndex_inside h hq
    have := C05_utf8 cs h [] [0] ⟨0, rfl, by decide, by decide⟩ p q a2 b2
    rw [a1, b1] at this
    rw [over8]
    show iterEq _ _ _ = _
    simpa using this
  assign pre post old n h henc hlen := by
    have h31 := encodable_lt henc
    have hold : old < 2 ^ 31 := h old (by simp)
    have e (x : Nat) : encodeText (pre ++ x :: post) = encodeText pre ++ encode x ++ encodeText post := by
      simp [encodeText]
    have hr := cur_unit (encode_isUnit old hold) (holds_append (encodeText pre) (encode old) (encodeText post ++ [0]))
      (encode_isUnit old hold).length_pos
    have hw := (C09_write_read n henc (encodeText pre) (encode old) (encodeText post ++ [0]) hlen.symm ⟨_, hr⟩).1
    have hp := (encode_isUnit n h31).length_pos
    refine ⟨(encodeText pre).length + (encode n).length - 1, ?_, by omega, ?_⟩
    · show U5e.assign _ _ _ = _
      rw [e, e, List.append_assoc _ (encodeText post), List.append_assoc _ (encodeText post)]
      exact hw
    · have : (encodeText (pre ++ [n])).length = (encodeText pre).length + (encode n).length := by simp [encodeText]
      omega

end U5e
