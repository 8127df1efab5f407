import Verif.Spec.Filter
import Verif.Properties.Throw
/-! # C26 for operations that may throw -/
namespace U5e
open Spec

theorem sumsFit_nil : SumsFit [] := by
  intro m _; simp

theorem sumsFit_snoc {ns : List Int} {n : Int} (h : SumsFit ns) :
    SumsFit (ns ++ [n]) ↔ -2147483648 ≤ ns.sum + n ∧ ns.sum + n ≤ 2147483647 := by
  constructor
  · intro h1
    have := h1 (ns.length + 1) (by simp)
    rw [List.take_of_length_le (by simp)] at this
    simpa using this
  · intro h1 m hm
    by_cases hle : m ≤ ns.length
    · rw [List.take_append_of_le_length hle]; exact h m hle
    · rw [List.take_of_length_le (by simp; omega)]
      simpa using h1

theorem applies_snoc {op : α → β → Nat → Res (Call Int β)} {xs out k ns out1 k1 x n out2 k2}
    (h : Applies op xs out k ns out1 k1) (hop : op x out1 k1 = .ok (.ret n out2 k2)) :
    Applies op (xs ++ [x]) out k (ns ++ [n]) out2 k2 := by
  induction h with
  | nil => exact .cons hop (.nil _ _)
  | cons h _ ih => exact .cons h (ih hop)

/-- The loop, started in the middle. -/
theorem outcome_from (op : α → β → Nat → Res (Call Int β)) (xs : List α) (out : β) (k : Nat) (done : List α)
    (ns : List Int) (out1 : β) (k1 : Nat) (h : Applies op done out k ns out1 k1) (hfit : SumsFit ns) :
    Outcome op (done ++ xs) out k (foldMX op xs ns.sum out1 k1) := by
  induction xs generalizing done ns out1 k1 with
  | nil => rw [List.append_nil]; exact .returned h hfit
  | cons x xs ih =>
    rw [foldMX]
    cases hop : op x out1 k1 with
    | ub => exact .undefined rfl h hfit hop
    | tmo => exact .endless rfl h hfit hop
    | ok r =>
      cases r with
      | threw o => exact .thrown rfl h hfit hop
      | ret n o k2 =>
        simp only [Res.bind_ok]
        by_cases hf : SumsFit (ns ++ [n])
        · have hb := (sumsFit_snoc hfit).mp hf
          rw [addInt_ok hb.1 hb.2]
          have := ih (done ++ [x]) (ns ++ [n]) o k2 (applies_snoc h hop) hf
          simpa using this
        · have hb := mt (sumsFit_snoc hfit).mpr hf
          rw [show addInt ns.sum n = .ub from if_neg hb]
          exact .overflow rfl h hfit hop hf

theorem applies_unique {op : α → β → Nat → Res (Call Int β)} {xs out k ns o1 k1 ns' o2 k2}
    (h : Applies op xs out k ns o1 k1) (h' : Applies op xs out k ns' o2 k2) : ns = ns' ∧ o1 = o2 ∧ k1 = k2 := by
  induction h generalizing ns' o2 k2 with
  | nil => cases h'; exact ⟨rfl, rfl, rfl⟩
  | cons hop _ ih =>
    cases h' with
    | cons hop' h2 =>
      rw [hop] at hop'
      cases hop'
      obtain ⟨rfl, rfl, rfl⟩ := ih h2
      exact ⟨rfl, rfl, rfl⟩

/-- The loop computes the outcome of a list: started in the middle. -/
theorem fold_of_applies {op : α → β → Nat → Res (Call Int β)} {xs out k ns o1 k1} (h : Applies op xs out k ns o1 k1)
    (ys : List α) (acc : List Int) (hfit : SumsFit (acc ++ ns)) :
    foldMX op (xs ++ ys) acc.sum out k = foldMX op ys (acc ++ ns).sum o1 k1 := by
  induction h generalizing acc with
  | nil => simp
  | @cons x xs out k n out1 k1 ns _ _ hop _ ih =>
    have h0 : SumsFit (acc ++ [n]) := by
      intro m hm
      simp only [List.length_append, List.length_cons, List.length_nil] at hm
      have := hfit m (by simp; omega)
      rw [show acc ++ n :: ns = (acc ++ [n]) ++ ns by simp, List.take_append_of_le_length (by simpa using hm)] at this
      exact this
    have ha : SumsFit acc := by
      intro m hm
      have := hfit m (by simp; omega)
      rw [List.take_append_of_le_length hm] at this
      exact this
    have hb := (sumsFit_snoc ha).mp h0
    rw [List.cons_append, foldMX, hop]
    simp only [Res.bind_ok]
    rw [addInt_ok hb.1 hb.2]
    have := ih (acc ++ [n]) (by simpa using hfit)
    simpa using this

theorem outcome_iff (op : α → β → Nat → Res (Call Int β)) (xs : List α) (out : β) (k : Nat) (r : Res (Call Int β)) :
    foldMX op xs 0 out k = r ↔ Outcome op xs out k r := by
  constructor
  · rintro rfl
    exact outcome_from op xs out k [] [] out k (.nil _ _) sumsFit_nil
  · intro h
    cases h with
    | returned h hf =>
      have := fold_of_applies h [] [] (by simpa using hf)
      simpa [foldMX] using this
    | @thrown done x rest ns o1 k1 o' e h hf hop =>
      subst e
      have := fold_of_applies h (x :: rest) [] (by simpa using hf)
      rw [foldMX, hop] at this
      exact this
    | @undefined done x rest ns o1 k1 e h hf hop =>
      subst e
      have := fold_of_applies h (x :: rest) [] (by simpa using hf)
      rw [foldMX, hop] at this
      exact this
    | @overflow done x rest ns o1 k1 n o2 k2 e h hf hop hn =>
      subst e
      have := fold_of_applies h (x :: rest) [] (by simpa using hf)
      rw [foldMX, hop] at this
      refine this.trans ?_
      have hb := mt (sumsFit_snoc hf).mpr hn
      simp only [Res.bind_ok, List.nil_append]
      rw [show addInt _ _ = .ub from if_neg hb]
      rfl
    | @endless done x rest ns o1 k1 e h hf hop =>
      subst e
      have := fold_of_applies h (x :: rest) [] (by simpa using hf)
      rw [foldMX, hop] at this
      exact this

/-- C26 for any operation, also one that throws, over the codepoints of utf32ne memory: `filter` ends as the calls on
the elements, one after the other, end. -/
theorem C26_throwing_utf32 {β : Type} (pre cs post : List Int) (fuel : Nat) (hf : cs.length < fuel) (out : β)
    (op : Int → β → Nat → Res (Call Int β)) (k : Nat) (r : Res (Call Int β)) :
    filterX (utf32Iter (pre ++ cs ++ post)).input fuel pre.length (pre.length + cs.length) out op k = r ↔
      Outcome op cs out k r := by
  have := traverses_codepoints (sim_utf32 pre cs post) 0 cs.length (Nat.zero_le _) (Nat.le_refl _)
  simp only [List.take_length, List.drop_zero, Nat.add_zero] at this
  rw [filterX, filterLoopX_eq _ op this fuel hf, outcome_iff]

/-- C26 for any operation, also one that throws, over the codepoints of UTF-8 memory. -/
theorem C26_throwing_utf8 {β : Type} (cs : List Nat) (h : ∀ c ∈ cs, c < 2 ^ 31) (pre post : List UInt8) (z : Nat)
    (hz : z < 2 ^ 31) (fuel : Nat) (hf : cs.length < fuel) (out : β) (op : Int → β → Nat → Res (Call Int β)) (k : Nat)
    (r : Res (Call Int β)) :
    filterX (utf8Iter (pre ++ encodeText cs ++ (encode z ++ post))).input fuel pre.length
        (pre.length + (encodeText cs).length) out op k = r ↔
      Outcome op (ints cs) out k r := by
  obtain ⟨S, _⟩ := sim_encodeText cs h pre z hz post
  have := traverses_codepoints S 0 cs.length (Nat.zero_le _) (by simp)
  rw [upos_zero, upos_encode_end, List.take_of_length_le (by simp), List.drop_zero] at this
  rw [filterX, filterLoopX_eq _ op this fuel (by simpa), outcome_iff]

/-- C26 for any operation, also one that throws, over the graphemes of a utf32ne string. -/
theorem C26_throwing_graphemes {β : Type} (cs : List Int) (gs : List (List Int)) (hgs : IsSegmentation Breaks cs gs)
    (fuel : Nat) (hf : cs.length < fuel) (out : β) (op : Grapheme → β → Nat → Res (Call Int β)) (k : Nat)
    (r : Res (Call Int β)) :
    filterGraphemesX (utf32Iter (cs ++ [0])) fuel 0 cs.length out op k = r ↔
      Outcome op ((List.range gs.length).map fun i =>
        (⟨(gs.take i).flatten.length, (gs.take (i + 1)).flatten.length⟩ : Grapheme)) out k r := by
  obtain rfl := segments_unique hgs
  have S := sim_utf32 [] cs [0]
  have ht := traverses_graphemes S fuel hf 0 (Nat.zero_le _)
  simp only [List.drop_zero, Nat.zero_add] at ht
  have hb := graphemeBegin_sim S fuel hf
  have he := graphemeEnd_sim S fuel hf 0 (sim_utf32_end [] cs 0 []) (fun a _ => brk_zero a)
  simp only [List.length_nil, Nat.zero_add, List.nil_append] at hb he ht
  simp only [filterGraphemesX, hb, he, Res.bind_ok, filterX]
  rw [filterLoopX_eq _ op ht fuel (by
    rw [segPos_length]
    have := segments_length_le cs
    omega) out 0 k, outcome_iff, segPos_range]
  simp only [Nat.zero_add]

/-- Instance: an operation that throws at a 7 and otherwise appends; it leaves what was there when it threw. -/
def stopAtSeven : Int → List Int → Nat → Res (Call Int (List Int)) :=
  fun x o k => if x = 7 then .ok (.threw o) else .ok (.ret 1 (o ++ [x]) k)

example : filterX (utf32Iter [9, 1, 2, 7, 3, 9]).input 6 1 5 [] stopAtSeven 0 = .ok (.threw [1, 2]) :=
  (C26_throwing_utf32 [9] [1, 2, 7, 3] [9] 6 (by decide) [] stopAtSeven 0 _).mpr
    (.thrown (done := [1, 2]) (x := 7) (rest := [3]) (ns := [1, 1]) rfl
      (.cons rfl (.cons rfl (.nil _ _))) (by unfold SumsFit; decide) rfl)

example (k : Nat) (r) := C26_throwing_utf8 [0xE9, 7] (by decide) [0x80] [0xFF] 0x61 (by decide) 3 (by decide) []
  stopAtSeven k r

example (k : Nat) (r) (op : Grapheme → Nat → Nat → Res (Call Int Nat)) :=
  C26_throwing_graphemes [0x65, 0x301, 0x66] [[0x65, 0x301], [0x66]] (segmentation_of (by decide +kernel)) 4
    (by decide) 0 op k r

/-- C26 for an operation that never fails, over UTF-8 memory: the sum of the counts and the left fold of the outputs. -/
theorem C26_sum_utf8 {β : Type} (cs : List Nat) (h : ∀ c ∈ cs, c < 2 ^ 31) (pre post : List UInt8) (z : Nat)
    (hz : z < 2 ^ 31) (fuel : Nat) (hf : cs.length < fuel) (out : β) (cnt : Int → Int) (nxt : Int → β → β)
    (hb : ∀ n, n ≤ cs.length → -2147483648 ≤ (((ints cs).take n).map cnt).sum ∧
      (((ints cs).take n).map cnt).sum ≤ 2147483647) :
    filter (utf8Iter (pre ++ encodeText cs ++ (encode z ++ post))).input fuel pre.length
        (pre.length + (encodeText cs).length) out (fun x o => .ok (cnt x, nxt x o)) =
      .ok (((ints cs).map cnt).sum, (ints cs).foldl (fun o x => nxt x o) out) := by
  rw [C26_filter_codepoints_utf8 cs h pre post z hz fuel hf]
  have := foldlM_accum cnt nxt (fun x o => .ok (cnt x, nxt x o)) (ints cs) (by intros; rfl) 0 out
    (by simpa [ints] using hb)
  rw [Int.zero_add] at this
  exact this

/-- C26, the other side, over UTF-8 memory. -/
theorem C26_overflow_utf8 {β : Type} (cs : List Nat) (h : ∀ c ∈ cs, c < 2 ^ 31) (pre post : List UInt8) (z : Nat)
    (hz : z < 2 ^ 31) (fuel : Nat) (hf : cs.length < fuel) (out : β) (cnt : Int → Int) (nxt : Int → β → β)
    (hb : ∃ n, n ≤ cs.length ∧ ¬ (-2147483648 ≤ (((ints cs).take n).map cnt).sum ∧
      (((ints cs).take n).map cnt).sum ≤ 2147483647)) :
    filter (utf8Iter (pre ++ encodeText cs ++ (encode z ++ post))).input fuel pre.length
        (pre.length + (encodeText cs).length) out (fun x o => .ok (cnt x, nxt x o)) = .ub := by
  rw [C26_filter_codepoints_utf8 cs h pre post z hz fuel hf]
  exact foldlM_accum_overflow cnt nxt (fun x o => .ok (cnt x, nxt x o)) (ints cs) (by intros; rfl) 0 out
    (by omega) (by simpa [ints] using hb)

example := C26_sum_utf8 [0xE9, 0x62] (by decide) [0x80] [] 0 (by decide) 3 (by decide) ([] : List Int)
  (fun x => if x % 2 = 0 then 1 else 0) (fun x o => o ++ [x]) (by decide)

example := C26_overflow_utf8 [7, 0xE9] (by decide) [] [] 0 (by decide) 3 (by decide) () (fun _ => 2 ^ 30)
  (fun _ o => o) ⟨2, by decide, by decide⟩

end U5e
