import Verif.Proofs.Grapheme
import Verif.Proofs.Walk
/-! The two codepoint iterators simulate list positions. -/
namespace U5e
open Spec

theorem sim_utf32 (pre cs post : List Int) :
    Sim (utf32Iter (pre ++ cs ++ post)) (fun i => pre.length + i) cs := by
  constructor
  · intro i c hc
    have hi := (List.getElem?_eq_some_iff.mp hc).1
    simp only [utf32Iter]
    rw [List.append_assoc, List.getElem?_append_right (by omega),
      List.getElem?_append_left (by omega)]
    simp [hc]
  · intro i hi
    simp only [utf32Iter]
    rw [if_pos (by simp; omega)]; rfl
  · intro i _
    simp only [utf32Iter]
    rw [← Nat.add_assoc]
    rfl
  · intro i j _ _
    simp only [utf32Iter]
    congr 1; apply decide_eq_decide.mpr; omega

theorem sim_utf32_end (pre cs : List Int) (z : Int) (post : List Int) :
    (utf32Iter (pre ++ cs ++ z :: post)).deref (pre.length + cs.length) =
      .ok (z, pre.length + cs.length) := by
  simp only [utf32Iter]
  rw [List.getElem?_append_right (by simp)]; simp

/-- Position of the i-th unit. -/
def upos (p : Nat) (us : List (List Octet)) (i : Nat) : Nat := p + (us.take i).flatten.length

theorem unitIndex_upos (us : List (List Octet)) (hu : WellShaped us) (i : Nat) (hi : i ≤ us.length) :
    unitIndex us (us.take i).flatten.length = i := by
  induction us generalizing i with
  | nil => simp at hi; subst hi; simp [unitIndex]
  | cons u us ih =>
    have hu0 := (hu u (by simp)).length_pos
    cases i with
    | zero => simp [unitIndex, hu0]
    | succ i =>
      have := ih (fun v hv => hu v (by simp [hv])) i (by simpa using hi)
      simp only [List.take_succ_cons, List.flatten_cons, List.length_append, unitIndex]
      rw [if_neg (by omega), Nat.add_sub_cancel_left, this]

theorem take_flatten_le (us : List (List Octet)) (i : Nat) :
    (us.take i).flatten.length ≤ us.flatten.length := by
  conv => rhs; rw [← List.take_append_drop i us, List.flatten_append, List.length_append]
  omega

theorem holds_at {m : Mem} {p : Nat} {us : List (List Octet)} (hm : Holds m p us.flatten) (i : Nat)
    (u : List Octet) (hu : us[i]? = some u) : Holds m (upos p us i) u := by
  obtain ⟨hi, rfl⟩ := List.getElem?_eq_some_iff.mp hu
  have hsplit : us.flatten = (us.take i).flatten ++ (us[i] ++ (us.drop (i + 1)).flatten) := by
    conv => lhs; rw [← List.take_append_drop i us, List.flatten_append, List.drop_eq_getElem_cons hi,
      List.flatten_cons]
  rw [hsplit] at hm
  exact hm.right.left

theorem upos_succ (p : Nat) (us : List (List Octet)) (i : Nat) (u : List Octet)
    (hu : us[i]? = some u) : upos p us (i + 1) = upos p us i + u.length := by
  obtain ⟨hi, rfl⟩ := List.getElem?_eq_some_iff.mp hu
  simp only [upos]
  rw [List.take_add_one, List.flatten_append, List.length_append, List.getElem?_eq_getElem hi]
  simp; omega

theorem upos_length (p : Nat) (us : List (List Octet)) :
    upos p us us.length = p + us.flatten.length := by simp [upos]

theorem upos_zero (p : Nat) (us : List (List Octet)) : upos p us 0 = p := by simp [upos]

theorem upos_encode (p : Nat) (cs : List Nat) (i : Nat) :
    upos p (cs.map encode) i = p + (encodeText (cs.take i)).length := by
  simp only [upos, encodeText_flatten, List.map_take]

theorem upos_encode_end (p : Nat) (cs : List Nat) :
    upos p (cs.map encode) cs.length = p + (encodeText cs).length := by
  rw [upos_encode, List.take_length]

/-- UTF-8 iterators over well-shaped text followed by a well-shaped sequence. -/
theorem sim_utf8 (m : Mem) (us : List (List Octet)) (hu : WellShaped us) (p : Nat)
    (hm : Holds m p us.flatten) (t : List Octet) (ht : IsUnit t)
    (hmt : Holds m (p + us.flatten.length) t) :
    Sim (utf8Iter m) (upos p us) (us.map fun u => (payload u : Int)) := by
  have hlen : (us.map fun u => (payload u : Int)).length = us.length := by simp
  -- the unit at any position, including the sequence after the end
  have hat : ∀ i, i ≤ us.length → ∃ v, IsUnit v ∧ Holds m (upos p us i) v := by
    intro i hi
    rcases Nat.lt_or_eq_of_le hi with h | h
    · exact ⟨us[i], hu _ (List.getElem_mem h), holds_at hm i _ (List.getElem?_eq_getElem h)⟩
    · subst h; rw [upos_length]; exact ⟨t, ht, hmt⟩
  constructor
  · intro i c hc
    rw [List.getElem?_map] at hc
    cases hui : us[i]? with
    | none => simp [hui] at hc
    | some u =>
      simp [hui] at hc
      subst hc
      have := cur_unit (hu u (List.mem_of_getElem? hui)) (holds_at hm i u hui)
        (hu u (List.mem_of_getElem? hui)).length_pos
      simpa [utf8Iter] using this
  · intro i hi
    rw [hlen] at hi
    have hui : us[i]? = some us[i] := List.getElem?_eq_getElem hi
    have hU := hu us[i] (List.getElem_mem hi)
    have := fwd_unit hU (holds_at hm i _ hui) hU.length_pos
    rw [upos_succ p us i _ hui]
    simpa [utf8Iter] using this
  · intro i hi
    rw [hlen] at hi
    have hui : us[i]? = some us[i] := List.getElem?_eq_getElem hi
    have hU := hu us[i] (List.getElem_mem hi)
    obtain ⟨v, hv, hmv⟩ := hat (i + 1) (by omega)
    rw [upos_succ p us i _ hui] at hmv ⊢
    have := bwd_unit hU (holds_at hm i _ hui) hv hmv hv.length_pos
    simpa [utf8Iter] using this
  · intro i j hi hj
    rw [hlen] at hi hj
    have := iterEq_text m us hu p hm t ht hmt _ _ (take_flatten_le us i) (take_flatten_le us j)
    rw [unitIndex_upos us hu i hi, unitIndex_upos us hu j hj] at this
    exact this

theorem sim_utf8_end (m : Mem) (us : List (List Octet)) (p : Nat) (t : List Octet) (ht : IsUnit t)
    (hmt : Holds m (p + us.flatten.length) t) :
    (utf8Iter m).deref (upos p us us.length) = .ok ((payload t : Int), upos p us us.length) := by
  rw [upos_length]
  have := cur_unit ht hmt ht.length_pos
  simpa [utf8Iter] using this

/-- UTF-8 text `cs`, preceded by anything and followed by the encoding of `z`. -/
theorem sim_encodeText (cs : List Nat) (h : ∀ c ∈ cs, c < 2 ^ 31) (pre : List Octet) (z : Nat)
    (hz : z < 2 ^ 31) (post : List Octet) :
    Sim (utf8Iter (pre ++ encodeText cs ++ (encode z ++ post))) (upos pre.length (cs.map encode))
      (cs.map Int.ofNat) ∧
    (utf8Iter (pre ++ encodeText cs ++ (encode z ++ post))).deref
      (upos pre.length (cs.map encode) cs.length) =
        .ok ((z : Int), upos pre.length (cs.map encode) cs.length) := by
  have hm := holds_append pre (encodeText cs) (encode z ++ post)
  have hmt : Holds (pre ++ encodeText cs ++ (encode z ++ post))
      (pre.length + (encodeText cs).length) (encode z) := by
    have := holds_append (pre ++ encodeText cs) (encode z) post
    simpa [List.append_assoc] using this
  rw [encodeText_flatten] at *
  refine ⟨?_, ?_⟩
  · have := sim_utf8 _ (cs.map encode) (wellShaped_encode cs h) pre.length hm (encode z)
      (encode_isUnit z hz) hmt
    rwa [map_payload_encode cs h] at this
  · have := sim_utf8_end _ (cs.map encode) pre.length (encode z) (encode_isUnit z hz) hmt
    rw [payload_encode z hz, List.length_map] at this
    exact this

end U5e
