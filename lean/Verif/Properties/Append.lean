import Verif.Model.EncodedString
import Verif.Proofs.Walk
/-! # C18: appending codepoint ranges -/
namespace U5e
open Spec

/-- Position `x` in a well-shaped text is rewound to the start of its unit. -/
theorem rewind_text {m : Mem} (us : List (List UInt8)) (hu : WellShaped us) (p : Nat)
    (hm : Holds m p us.flatten) (z : UInt8) (hz : m[p + us.flatten.length]? = some z)
    (hzc : ¬ IsContinuation z) (x : Nat) (hx : x ≤ us.flatten.length) :
    rewind m (p + x) = .ok (p + (us.take (unitIndex us x)).flatten.length) := by
  induction us generalizing p x with
  | nil =>
    simp at hx; subst hx
    simpa [unitIndex] using rewind_stop (by simpa using hz) hzc
  | cons u us ih =>
    have hu0 : IsUnit u := hu u (by simp)
    rw [List.flatten_cons] at hm hz hx
    rw [List.length_append] at hz hx
    by_cases hxu : x < u.length
    · simp [unitIndex, hxu, rewind_unit hu0 hm.left hxu]
    · have := ih (fun v hv => hu v (by simp [hv])) (p + u.length) hm.right (by rwa [Nat.add_assoc])
        (x - u.length) (by omega)
      rw [show p + u.length + (x - u.length) = p + x by omega] at this
      rw [this]
      simp [unitIndex, hxu]; omega

theorem unitIndex_mono (us : List (List UInt8)) (x y : Nat) (h : x ≤ y) :
    unitIndex us x ≤ unitIndex us y := by
  induction us generalizing x y with
  | nil => simp [unitIndex]
  | cons u us ih =>
    unfold unitIndex
    split
    · omega
    · next h1 =>
      rw [if_neg (by omega)]
      have := ih (x - u.length) (y - u.length) (by omega)
      omega

/-- C18. `append(first, last)` with iterators at arbitrary octets `x ≤ y` of well-shaped text appends
whole codepoints only: those from the one containing `first` up to, excluding, the one containing
`last`. The previous content is untouched. -/
theorem C18_append_whole_units (out pre post : List UInt8) (z : UInt8) (hz : ¬ IsContinuation z)
    (us : List (List UInt8)) (hu : WellShaped us) (x y : Nat) (hxy : x ≤ y)
    (hy : y ≤ us.flatten.length) :
    appendRange out (pre ++ us.flatten ++ z :: post) (pre.length + x) (pre.length + y) =
      .ok (out ++ ((us.take (unitIndex us y)).drop (unitIndex us x)).flatten) := by
  have hm := holds_append pre us.flatten (z :: post)
  have hzz : (pre ++ us.flatten ++ z :: post)[pre.length + us.flatten.length]? = some z := by
    rw [List.getElem?_append_right (by simp)]; simp
  have h1 := rewind_text us hu pre.length hm z hzz hz x (by omega)
  have h2 := rewind_text us hu pre.length hm z hzz hz y hy
  have hmono := unitIndex_mono us x y hxy
  have htake : ∀ i j, i ≤ j → (us.take i).flatten.length ≤ (us.take j).flatten.length := by
    intro i j hij
    have : us.take j = us.take i ++ (us.take j).drop i := by
      conv => lhs; rw [← List.take_append_drop i (us.take j)]
      rw [List.take_take, Nat.min_eq_left hij]
    rw [this]; simp
  have hle : (us.take (unitIndex us y)).flatten.length ≤ us.flatten.length := by
    have : us.flatten = (us.take (unitIndex us y)).flatten ++ (us.drop (unitIndex us y)).flatten := by
      rw [← List.flatten_append, List.take_append_drop]
    rw [this]; simp
  simp only [appendRange, nativeConstIterator, h1, h2, Res.bind_ok, nativeAppend]
  rw [if_pos ⟨by have := htake _ _ hmono; omega, by
    rw [List.length_append, List.length_append, List.length_cons]; omega⟩]
  congr 2
  -- slicing
  have hsl : (pre ++ us.flatten ++ z :: post).take (pre.length + (us.take (unitIndex us y)).flatten.length)
      = pre ++ (us.take (unitIndex us y)).flatten := by
    rw [List.append_assoc, List.take_length_add_append, List.take_append_of_le_length hle]
    congr 1
    have : us.flatten = (us.take (unitIndex us y)).flatten ++ (us.drop (unitIndex us y)).flatten := by
      rw [← List.flatten_append, List.take_append_drop]
    rw [this, List.take_left']
    rfl
  rw [hsl, List.drop_length_add_append]
  have hdec : us.take (unitIndex us y) = us.take (unitIndex us x) ++
      (us.take (unitIndex us y)).drop (unitIndex us x) := by
    conv => lhs; rw [← List.take_append_drop (unitIndex us x) (us.take (unitIndex us y))]
    rw [List.take_take, Nat.min_eq_left hmono]
  conv => lhs; rw [hdec, List.flatten_append]
  rw [List.drop_left' rfl]

/-- Instance: from the second octet of `é` to the second octet of an overlong unit: `é` and `€` are
appended. -/
example : appendRange [0x3E] ([0x80] ++ [[0x61], [0xC3, 0xA9], [0xE2, 0x82, 0xAC], [0xC1, 0x81]].flatten ++
    0xC3 :: [0x80]) (1 + 2) (1 + 7) = .ok ([0x3E] ++ [0xC3, 0xA9, 0xE2, 0x82, 0xAC]) :=
  C18_append_whole_units [0x3E] [0x80] [0x80] 0xC3 (by decide)
    [[0x61], [0xC3, 0xA9], [0xE2, 0x82, 0xAC], [0xC1, 0x81]]
    (by simp [WellShaped, IsUnit, announced, IsContinuation]) 2 7 (by decide) (by decide)

/-- C18 for UTF-8 text: the appended octets are the encoding of a sub-sequence of the codepoints, so
the result is UTF-8 if the target was. -/
theorem C18_append_codepoints (ds : List Nat) (pre post : List UInt8) (z : UInt8)
    (hz : ¬ IsContinuation z) (cs : List Nat) (h : ∀ c ∈ cs, c < 2 ^ 31) (x y : Nat) (hxy : x ≤ y)
    (hy : y ≤ (encodeText cs).length) :
    appendRange (encodeText ds) (pre ++ encodeText cs ++ z :: post) (pre.length + x) (pre.length + y) =
      .ok (encodeText (ds ++ (cs.take (unitIndex (cs.map encode) y)).drop
        (unitIndex (cs.map encode) x))) := by
  rw [encodeText_flatten cs] at *
  rw [C18_append_whole_units (encodeText ds) pre post z hz _ (wellShaped_encode cs h) x y hxy hy]
  congr 1
  rw [encodeText_flatten, encodeText_flatten]
  simp [List.map_take, List.map_drop]

/-- Non-vacuity: "aé€b" truncated with `last` in the middle of "€". -/
example : appendRange [0x3E] ([] ++ encodeText [0x61, 0xE9, 0x20AC, 0x62] ++ 0 :: []) 0 5 =
    .ok ([0x3E] ++ encodeText [0x61, 0xE9]) := by decide +kernel
example : unitIndex ([0x61, 0xE9, 0x20AC, 0x62].map encode) 5 = 2 := by decide

/-- C18 for utf32ne: plain slice. -/
theorem C18_append_utf32 (out pre mid post : List Int) :
    appendRange32 out (pre ++ mid ++ post) pre.length (pre.length + mid.length) =
      .ok (out ++ mid) := by
  rw [appendRange32, if_pos (by simp)]
  congr 2
  rw [List.append_assoc, List.take_length_add_append, List.drop_left', List.take_left'] <;> simp

end U5e
