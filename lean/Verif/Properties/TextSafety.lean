import Verif.Proofs.TextSim
import Verif.Properties.Safety
import Verif.Properties.Normalize
import Verif.Properties.Grapheme
/-!
# C48: grapheme iteration and normalization of untrusted octets

`Tame`, `Separate`, `Rests`, `Stuck` are in Spec/Bounds.lean and speak about octets only.
`filterGraphemes … (collectGrapheme …)` is the loop over all graphemes of a string that reads all
codepoints of each; `normalizeText (F.run …)` is the loop over all graphemes with one of the four
normalization forms as operation and a utf32ne string as output.
-/
namespace U5e
open Spec

/-- What `check` accepts is tame if it has at least six octets and no 0xFE or 0xFF. -/
theorem tame_of_check {t : List UInt8} (hfe : ∀ o ∈ t, o.toNat < 0xFE) (hlen : 6 ≤ t.length)
    (hcheck : boundsCheck (t ++ [0]) 0 t.length = .ok true) : Tame t := by
  obtain ⟨h1, h2⟩ := C14_sound t hcheck
  refine ⟨h1, fun i o ho => h2 i o ho (hfe o (List.mem_of_getElem? ho)) (.inr hlen), ?_⟩
  rintro o ho rfl
  exact absurd (hfe _ ho) (by decide)

theorem modest_form (F : Form) {sort : SortFn} (hs : ConformingSort sort) :
    Modest (F.run sort append32) := by
  cases F
  · exact modest_D hs
  · exact modest_C hs
  · exact modest_KD hs
  · exact modest_KC hs

/-- C48, memory safety of normalization: normalizing ANY tame octets, however malformed, with any form,
any conforming `std::sort` and any number of loop rounds never runs into undefined behaviour (no octet
outside `[begin, end]` is read, no counter overflows). -/
theorem C48_normalization_safe (F : Form) (sort : SortFn) (hs : ConformingSort sort) (t : List UInt8)
    (T : Tame t) (hlen : 20 * t.length < 2 ^ 31) (fuel : Nat) :
    normalizeText (F.run sort append32) (utf8Iter (t ++ [0])) fuel 0 t.length [] ≠ .ub := by
  rcases normalizeText_out (modest_form F hs) T (by omega) fuel with ⟨a, h, _⟩ | ⟨h, _⟩ <;> rw [h] <;> simp

/-- C48, termination of normalization: exactly when the increment is never stuck, the same condition as
for plain iteration (C07); and then the returned number is the number of codepoints written. -/
theorem C48_normalization_terminates (F : Form) (sort : SortFn) (hs : ConformingSort sort)
    (t : List UInt8) (T : Tame t) (hlen : 20 * t.length < 2 ^ 31) :
    ((∀ s, Rests t s → ¬ Stuck t s) → ∀ fuel, t.length < fuel → ∃ out : List Int,
      normalizeText (F.run sort append32) (utf8Iter (t ++ [0])) fuel 0 t.length [] =
        .ok ((out.length : Int), out) ∧ out.length ≤ 20 * t.length) ∧
    ((∃ s, Rests t s ∧ Stuck t s) → ∀ fuel,
      normalizeText (F.run sort append32) (utf8Iter (t ++ [0])) fuel 0 t.length [] = .tmo) := by
  constructor
  · intro hn fuel hf
    rcases normalizeText_out (modest_form F hs) T (by omega) fuel with ⟨⟨k, o⟩, h, _, h1, h2⟩ | ⟨_, h⟩
    · simp only at h1 h2
      exact ⟨o, by rw [h, h1], h2⟩
    · exact absurd ⟨hn, hf⟩ h
  · rintro ⟨s, h1, h2⟩ fuel
    rcases normalizeText_out (modest_form F hs) T (by omega) fuel with ⟨a, h, hn, _⟩ | ⟨h, _⟩
    · exact absurd h2 (hn s h1)
    · exact h

/-- C48, grapheme iteration: memory-safe for any tame octets (as long as the number of rounds fits the
`int` the operation's results are added up in), … -/
theorem C48_graphemes_safe (t : List UInt8) (T : Tame t) (hlen : t.length < 2 ^ 31) (fuel : Nat)
    (hf : fuel < 2 ^ 31) :
    filterGraphemes (utf8Iter (t ++ [0])) fuel 0 t.length []
      (collectGrapheme (utf8Iter (t ++ [0])) fuel) ≠ .ub := by
  rcases collect_out T (by omega) fuel (by omega) with ⟨a, h, _⟩ | ⟨h, _⟩ <;> rw [h] <;> simp

/-- … and it terminates under the same condition. -/
theorem C48_graphemes_terminate (t : List UInt8) (T : Tame t) (hlen : t.length + 1 < 2 ^ 31) :
    ((∀ s, Rests t s → ¬ Stuck t s) → ∃ gs : List (List Int),
      filterGraphemes (utf8Iter (t ++ [0])) (t.length + 1) 0 t.length []
        (collectGrapheme (utf8Iter (t ++ [0])) (t.length + 1)) = .ok ((gs.length : Int), gs) ∧
      gs.flatten.length ≤ t.length) ∧
    ((∃ s, Rests t s ∧ Stuck t s) → ∀ fuel, fuel < 2 ^ 31 →
      filterGraphemes (utf8Iter (t ++ [0])) fuel 0 t.length []
        (collectGrapheme (utf8Iter (t ++ [0])) fuel) = .tmo) := by
  constructor
  · intro hn
    rcases collect_out T (by omega) (t.length + 1) (by omega) with ⟨⟨k, o⟩, h, _, h1, h2⟩ | ⟨_, h⟩
    · simp only at h1 h2
      exact ⟨o, by rw [h, h1], h2⟩
    · exact absurd ⟨hn, Nat.lt_succ_self _⟩ h
  · rintro ⟨s, h1, h2⟩ fuel hf
    rcases collect_out T (by omega) fuel (by omega) with ⟨a, h, hn, _⟩ | ⟨h, _⟩
    · exact absurd h2 (hn s h1)
    · exact h

/-- C48 for the documented use, octets accepted by `utf8_bounds::check`. -/
theorem C48_after_check (t : List UInt8) (hfe : ∀ o ∈ t, o.toNat < 0xFE) (h6 : 6 ≤ t.length)
    (hcheck : boundsCheck (t ++ [0]) 0 t.length = .ok true) (hlen : 20 * t.length < 2 ^ 31) (fuel : Nat)
    (hf : fuel < 2 ^ 31) :
    filterGraphemes (utf8Iter (t ++ [0])) fuel 0 t.length []
      (collectGrapheme (utf8Iter (t ++ [0])) fuel) ≠ .ub ∧
    ∀ (F : Form) (sort : SortFn), ConformingSort sort →
      normalizeText (F.run sort append32) (utf8Iter (t ++ [0])) fuel 0 t.length [] ≠ .ub :=
  ⟨C48_graphemes_safe t (tame_of_check hfe h6 hcheck) (by omega) fuel hf,
   fun F sort hs => C48_normalization_safe F sort hs t (tame_of_check hfe h6 hcheck) hlen fuel⟩

/-- Instance: a malformed text that `check` accepts. -/
example := C48_after_check [0x41, 0x80, 0x41, 0xC3, 0x42, 0x43] (by decide) (by decide) (by decide +kernel) (by decide) 9
  (by decide)

/-- C48, what comes out: if moreover each increment lands exactly on the next position of rest
(`Separate`; true of UTF-8 and of much malformed text), then graphemes and normalization forms are
those of the codepoints that plain iteration yields. -/
theorem C48_like_iteration (t : List UInt8) (T : Tame t) (hS : Separate t)
    (hlen : 20 * t.length < 2 ^ 31) (fuel : Nat) (hf : t.length < fuel) :
    ∃ cs : List Int, walk (t ++ [0]) t.length fuel 0 = .ok cs ∧
      (∃ gs, filterGraphemes (utf8Iter (t ++ [0])) fuel 0 t.length []
          (collectGrapheme (utf8Iter (t ++ [0])) fuel) = .ok ((gs.length : Int), gs) ∧
        IsSegmentation Breaks cs gs) ∧
      ∀ (F : Form) (sort : SortFn), ConformingSort sort →
        normalizeText (F.run sort append32) (utf8Iter (t ++ [0])) fuel 0 t.length [] =
          normalizeText (F.run sort append32) (utf32Iter (cs ++ [0])) fuel 0 cs.length [] := by
  obtain ⟨cs, h1, h2, h3, h4⟩ := separate_all T hS (by omega) fuel hf
  refine ⟨cs, h2, ⟨_, h3, segments_breaks cs⟩, ?_⟩
  intro F sort hs
  rw [h4 F sort hs]
  have hd := decompose_length_le F.good cs
  have := normalize32_eq F hs cs [] fuel (by omega) (by rw [decompose] at hd; omega)
  rw [normalize32] at this
  rw [this, List.nil_append]

/-- Without `Separate` codepoints can get lost, even in text accepted by `check`: plain iteration over
E0 E1 80 80 41 42 yields four codepoints, grapheme iteration only three, after an empty grapheme, and so
normalization drops U+0840. -/
theorem C48_lost_codepoint :
    boundsCheck ([0xE0, 0xE1, 0x80, 0x80, 0x41, 0x42] ++ [0]) 0 6 = .ok true ∧
    walk ([0xE0, 0xE1, 0x80, 0x80, 0x41, 0x42] ++ [0]) 6 9 0 = .ok [0x840, 0x1000, 0x41, 0x42] ∧
    filterGraphemes (utf8Iter ([0xE0, 0xE1, 0x80, 0x80, 0x41, 0x42] ++ [0])) 9 0 6 []
      (collectGrapheme (utf8Iter ([0xE0, 0xE1, 0x80, 0x80, 0x41, 0x42] ++ [0])) 9) =
        .ok (4, [[], [0x1000], [0x41], [0x42]]) ∧
    normalizeText (Form.C.run insSort append32) (utf8Iter ([0xE0, 0xE1, 0x80, 0x80, 0x41, 0x42] ++ [0]))
      9 0 6 [] = .ok (3, [0x1000, 0x41, 0x42]) := by decide +kernel

/-- Without `Tame` it is undefined, even though `check` accepts: a single lead octet E3 (less than six
octets), where `grapheme_end()` decodes the octets after the string. -/
theorem C48_limits :
    boundsCheck ([0xE3] ++ [0]) 0 1 = .ok true ∧
    filterGraphemes (utf8Iter ([0xE3] ++ [0])) 9 0 1 [] (collectGrapheme (utf8Iter ([0xE3] ++ [0])) 9) = .ub ∧
    normalizeText (Form.D.run insSort append32) (utf8Iter ([0xE3] ++ [0])) 9 0 1 [] = .ub := by
  decide +kernel

/-- A malformed text (a stray lead octet, an unfinished sequence, a stray continuation octet behind another octet) on
which the loops do not end. -/
theorem tame_stuck_example : Tame [0x41, 0x80, 0x41, 0xC3, 0x42, 0x43] ∧
    ∃ s, Rests [0x41, 0x80, 0x41, 0xC3, 0x42, 0x43] s ∧ Stuck [0x41, 0x80, 0x41, 0xC3, 0x42, 0x43] s :=
  ⟨tame_of_check (by decide) (by decide) (by decide +kernel), 0, .start, 0x41, rfl, by
    intro k h1 h2
    obtain rfl : k = 1 := by simp [claimed] at h2; omega
    exact ⟨0x80, rfl, by decide⟩⟩

example (F : Form) := C48_normalization_safe F insSort insSort_stable.1 _ tame_stuck_example.1 (by decide) 100
example (F : Form) := (C48_normalization_terminates F insSort insSort_stable.1 _ tame_stuck_example.1 (by decide)).2
  tame_stuck_example.2
example := C48_graphemes_safe _ tame_stuck_example.1 (by decide) 100 (by decide)
example := (C48_graphemes_terminate _ tame_stuck_example.1 (by decide)).2 tame_stuck_example.2

/-- Non-vacuity: a malformed text (a stray lead octet, an unfinished sequence) that is tame and
separate. -/
theorem tame_example : Tame [0x41, 0xE0, 0x42, 0xC3, 0x43, 0x44, 0xCC, 0x81] ∧
    Separate [0x41, 0xE0, 0x42, 0xC3, 0x43, 0x44, 0xCC, 0x81] := by
  have T : Tame [0x41, 0xE0, 0x42, 0xC3, 0x43, 0x44, 0xCC, 0x81] :=
    tame_of_check (by decide) (by decide) (by decide +kernel)
  refine ⟨T, ?_⟩
  intro s l o _ hl ho
  have hlt := (List.getElem?_eq_some_iff.mp ho).1
  have hs := (List.getElem?_eq_some_iff.mp hl).1
  have : s = 0 ∨ s = 1 ∨ s = 2 ∨ s = 3 ∨ s = 4 ∨ s = 5 ∨ s = 6 ∨ s = 7 := by
    simp at hs; omega
  rcases this with rfl | rfl | rfl | rfl | rfl | rfl | rfl | rfl <;>
    simp at hl <;> subst hl <;> simp [claimed, leadingOnes] at ho <;> subst ho <;> decide

example : filterGraphemes (utf8Iter ([0x41, 0xE0, 0x42, 0xC3, 0x43, 0x44, 0xCC, 0x81] ++ [0])) 9 0 8 []
      (collectGrapheme (utf8Iter ([0x41, 0xE0, 0x42, 0xC3, 0x43, 0x44, 0xCC, 0x81] ++ [0])) 9) =
    .ok (4, [[0x41], [0x83], [0x43], [0x44, 0x301]]) := by decide +kernel

/-- Non-vacuity of the spinning half: a tame text with a stuck position. -/
example : Rests [0x41, 0x80, 0x41, 0x41, 0x41, 0x41] 0 ∧ Stuck [0x41, 0x80, 0x41, 0x41, 0x41, 0x41] 0 :=
  ⟨.start, 0x41, rfl, by
    intro k h1 h2
    obtain rfl : k = 1 := by simp [claimed] at h2; omega
    exact ⟨0x80, rfl, by decide⟩⟩

end U5e
