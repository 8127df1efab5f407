import Verif.Proofs.SimInst
/-! Start of grapheme, collecting graphemes, NUL termination. -/
namespace U5e
open Spec

variable {I : CpIter} {pos : Nat → Nat} {cs : List Int}

local notation "brk" => isGraphemeBoundary

theorem Sim.pos_inj (S : Sim I pos cs) {i j : Nat} (hi : i ≤ cs.length) (hj : j ≤ cs.length)
    (h : pos i = pos j) : i = j := by
  have h1 := S.eq i j hi hj
  have h2 := S.eq j j hj hj
  rw [h, h2] at h1
  simpa using (Res.ok.inj h1).symm

/-- What the loop of `find_start_of_grapheme` computes on a list. -/
def scan (l : List Int) (a : Int) : Nat → Nat
  | 0 => 0
  | w + 1 => if brk a (l.getD (w + 1) 0) then w + 1 else scan l (l.getD (w + 1) 0) w

theorem scan_le (l : List Int) (a : Int) (w : Nat) : scan l a w ≤ w := by
  induction w generalizing a with
  | zero => simp [scan]
  | succ w ih => unfold scan; split; omega; exact Nat.le_succ_of_le (ih _)

/-- Where the scan stops: comparing each element with its successor, in swapped order. -/
theorem scan_eq_iff (l : List Int) (v s : Nat) :
    scan l (l.getD (v + 1) 0) v = s ↔ s ≤ v ∧ (s = 0 ∨ brk (l.getD (s + 1) 0) (l.getD s 0) = true) ∧
      ∀ u, s < u → u ≤ v → brk (l.getD (u + 1) 0) (l.getD u 0) = false := by
  induction v with
  | zero =>
    simp only [scan]
    constructor
    · rintro rfl; exact ⟨by omega, Or.inl rfl, by intros; omega⟩
    · rintro ⟨h, _⟩; omega
  | succ v ih =>
    unfold scan
    by_cases hb : brk (l.getD (v + 1 + 1) 0) (l.getD (v + 1) 0) = true
    · rw [if_pos hb]
      constructor
      · rintro rfl; exact ⟨by omega, Or.inr hb, by intros; omega⟩
      · rintro ⟨h1, h2, h3⟩
        rcases Nat.lt_or_eq_of_le h1 with h | h
        · rw [h3 (v + 1) h (Nat.le_refl _)] at hb; simp at hb
        · exact h.symm
    · rw [if_neg hb, ih]
      constructor
      · rintro ⟨h1, h2, h3⟩
        refine ⟨by omega, h2, fun u h4 h5 => ?_⟩
        rcases Nat.lt_or_eq_of_le h5 with h | h
        · exact h3 u h4 (by omega)
        · subst h; simpa using hb
      · rintro ⟨h1, h2, h3⟩
        have hsv : s ≤ v := by
          rcases Nat.lt_or_eq_of_le h1 with h | h
          · omega
          · subst h
            rcases h2 with h2 | h2
            · omega
            · exact absurd h2 hb
        exact ⟨hsv, h2, fun u h4 h5 => h3 u h4 (by omega)⟩

theorem getD_some {l : List Int} {i : Nat} (h : i < l.length) : l[i]? = some (l.getD i 0) := by
  rw [List.getD_eq_getElem?_getD, List.getElem?_eq_getElem h]; rfl

/-- `find_start_of_grapheme` at position `w` of the text (`z` is what dereferencing the end gives). -/
theorem findStart_sim (S : Sim I pos cs) (z : Int)
    (hz : I.deref (pos cs.length) = .ok (z, pos cs.length)) (fuel w : Nat) (hw : w ≤ cs.length)
    (hf : w < fuel) :
    findStart I fuel (pos 0) (pos w) =
      .ok (pos (if w = 0 then 0 else scan (cs ++ [z]) ((cs ++ [z]).getD (w - 1) 0) w)) := by
  have hd : ∀ i, i ≤ cs.length → I.deref (pos i) = .ok ((cs ++ [z]).getD i 0, pos i) := by
    intro i hi
    rcases Nat.lt_or_eq_of_le hi with h | h
    · have h1 : (cs ++ [z]).getD i 0 = cs.getD i 0 := by
        rw [List.getD_eq_getElem?_getD, List.getD_eq_getElem?_getD, List.getElem?_append_left h]
      rw [h1]; exact S.deref i _ (getD_some h)
    · subst h
      have h1 : (cs ++ [z]).getD cs.length 0 = z := by simp [List.getD_eq_getElem?_getD]
      rw [h1]; exact hz
  have loop : ∀ fuel a w, w ≤ cs.length → w < fuel →
      findStartLoop I (pos 0) fuel a (pos w) = .ok (pos (scan (cs ++ [z]) a w)) := by
    intro fuel
    induction fuel with
    | zero => intro a w _ h; omega
    | succ f ih =>
      intro a w hw hf
      simp only [findStartLoop, S.eq w 0 hw (Nat.zero_le _), Res.bind_ok, decide_eq_true_eq]
      cases w with
      | zero => simp [scan]
      | succ w =>
        simp only [Nat.add_eq_zero_iff, Nat.succ_ne_self, and_false, if_false, hd (w + 1) hw,
          Res.bind_ok, scan]
        by_cases hb : brk a ((cs ++ [z]).getD (w + 1) 0) = true
        · simp only [hb, if_true]; rfl
        · simp only [hb, if_false, S.dec w (by omega), Res.bind_ok, Bool.false_eq_true]
          simpa using ih _ w (by omega) (by omega)
  simp only [findStart, S.eq w 0 hw (Nat.zero_le _), Res.bind_ok, decide_eq_true_eq]
  by_cases h : w = 0
  · simp [h]
  · obtain ⟨v, rfl⟩ := Nat.exists_eq_succ_of_ne_zero h
    rw [if_neg h, if_neg h]
    simp only [Nat.succ_eq_add_one, S.dec v (by omega), hd v (by omega), Res.bind_ok]
    exact loop fuel _ (v + 1) hw hf

/-- Constructor "start at a specific point". -/
theorem gAt_sim (S : Sim I pos cs) (z : Int)
    (hz : I.deref (pos cs.length) = .ok (z, pos cs.length)) (fuel w : Nat) (hw : w ≤ cs.length)
    (hf : cs.length < fuel) :
    gAt I fuel (pos 0) (pos cs.length) (pos w) =
      .ok ⟨pos 0, pos cs.length,
        pos (if w = 0 then 0 else scan (cs ++ [z]) ((cs ++ [z]).getD (w - 1) 0) w),
        pos (w + firstLen (cs.drop w))⟩ := by
  simp only [gAt, findStart_sim S z hz fuel w hw (by omega), findEnd_sim S fuel w hw hf, Res.bind_ok,
    Res.pure_eq]

/-- Reading one grapheme by its codepoint iterators. -/
theorem collectGrapheme_sim (S : Sim I pos cs) (fuel : Nat) (hf : cs.length < fuel)
    (hn : cs.length ≤ 2147483647) (i j : Nat) (hij : i ≤ j) (hj : j ≤ cs.length)
    (out : List (List Int)) :
    collectGrapheme I fuel ⟨pos i, pos j⟩ out = .ok (1, out ++ [(cs.take j).drop i]) := by
  have ht := traverses_codepoints S i j hij hj
  have hl : ((cs.take j).drop i).length ≤ cs.length := by simp; omega
  have hsum : ∀ l : List Int, (l.map fun _ => (1 : Int)).sum = l.length := by
    intro l; induction l with
    | nil => rfl
    | cons a l ih => simp only [List.map_cons, List.sum_cons, ih, List.length_cons]; omega
  have hfold : ∀ (l acc : List Int), l.foldl (fun o x => o ++ [x]) acc = acc ++ l := by
    intro l; induction l with
    | nil => simp
    | cons a l ih => intro acc; simp [ih]
  simp only [collectGrapheme, filter_eq I.input _ ht fuel (by omega)]
  rw [foldlM_accum_inv (fun _ => True) (fun _ => 1) (fun x o => o ++ [x]) _ _
    (by intros; exact ⟨rfl, trivial⟩) (by simp) 0 [] trivial (by omega) (by rw [hsum]; omega)]
  simp [hfold]

theorem sum_ones (l : List α) : (l.map fun _ => (1 : Int)).sum = l.length := by
  induction l with
  | nil => rfl
  | cons a l ih => simp only [List.map_cons, List.sum_cons, ih, List.length_cons]; omega

/-- Collecting consecutive parts of the text. -/
theorem collect_fold (S : Sim I pos cs) (fuel : Nat) (hf : cs.length < fuel) (hn : cs.length ≤ 2147483647)
    (gs : List (List Int)) (i : Nat) (out : List (List Int)) (k : Int) (hfl : gs.flatten <+: cs.drop i)
    (hi : i ≤ cs.length) (hk : 0 ≤ k) (hkb : k + gs.length ≤ 2147483647) :
    (segPos pos i gs).foldlM (accum (collectGrapheme I fuel)) (k, out) = .ok (k + gs.length, out ++ gs) := by
  induction gs generalizing i out k with
  | nil => simp [segPos]
  | cons g gs ih =>
    obtain ⟨t, hfl⟩ := hfl
    simp only [List.flatten_cons, List.append_assoc] at hfl
    have hlen := congrArg List.length hfl
    simp only [List.length_append, List.length_drop] at hlen
    have hg : (cs.take (i + g.length)).drop i = g := by
      rw [List.drop_take, ← hfl]; simp
    simp only [List.length_cons] at hkb
    simp only [segPos, List.foldlM_cons, accum,
      collectGrapheme_sim S fuel hf hn i (i + g.length) (by omega) (by omega) out, Res.bind_ok,
      addInt_ok (a := k) (b := 1) (by omega) (by omega), Res.pure_eq, hg]
    rw [ih (i + g.length) (out ++ [g]) (k + 1) ⟨t, by rw [← List.drop_drop, ← hfl]; simp⟩ (by omega)
      (by omega) (by omega)]
    simp; omega

/-- Collecting all graphemes gives the list-level segmentation. -/
theorem collect_sim (S : Sim I pos cs) (fuel : Nat) (hf : cs.length < fuel)
    (hn : cs.length ≤ 2147483647) (z : Int)
    (hz : I.deref (pos cs.length) = .ok (z, pos cs.length))
    (hb : ∀ a, cs.getLast? = some a → brk a z = true) :
    filterGraphemes I fuel (pos 0) (pos cs.length) [] (collectGrapheme I fuel) =
      .ok ((segments brk cs).length, segments brk cs) := by
  rw [filterGraphemes_sim S fuel hf z hz hb, collect_fold S fuel hf hn (segments brk cs) 0 [] 0
    (by simp [segments_flatten]) (Nat.zero_le _) (Int.le_refl _)
    (by have := segments_length_le cs; omega)]
  simp

/-- NUL is a control character: there is always a boundary before it. -/
theorem gcb_zero : gcbResolve 0 = .CONTROL := by decide +kernel

theorem brk_zero (a : Int) : brk a 0 = true := by
  rw [isGraphemeBoundary, gcb_zero]
  generalize gcbResolve a = x
  cases x <;> rfl

theorem flatten_take_succ (gs : List (List Int)) (k : Nat) (h : k < gs.length) :
    (gs.take (k + 1)).flatten.length = (gs.take k).flatten.length + (gs[k]).length := by
  rw [List.take_add_one, List.flatten_append, List.length_append, List.getElem?_eq_getElem h]; simp

theorem segments_drop (cs : List Int) (k : Nat) :
    (segments brk cs).drop k = segments brk (cs.drop ((segments brk cs).take k).flatten.length) := by
  induction k generalizing cs with
  | zero => simp
  | succ k ih =>
    cases cs with
    | nil => simp [segments]
    | cons c r =>
      rw [segments_cons']
      have hl := firstLen_le (c :: r)
      simp only [List.drop_succ_cons, List.take_succ_cons, List.flatten_cons, List.length_append,
        List.length_take]
      rw [Nat.min_eq_left hl, ← List.drop_drop, ih]

/-- Start offset of the k-th part. -/
def segStart (cs : List Int) (k : Nat) : Nat := ((segments brk cs).take k).flatten.length

theorem segStart_le (cs : List Int) (k : Nat) : segStart cs k ≤ cs.length := by
  have h := congrArg List.length (segments_flatten brk cs)
  rw [← List.take_append_drop k (segments brk cs), List.flatten_append, List.length_append] at h
  unfold segStart; omega

theorem segStart_succ (cs : List Int) (k : Nat) :
    segStart cs (k + 1) = segStart cs k + firstLen (cs.drop (segStart cs k)) := by
  have hd := segments_drop cs k
  rw [show ((segments brk cs).take k).flatten.length = segStart cs k from rfl] at hd
  by_cases h : k < (segments brk cs).length
  · rw [segStart, flatten_take_succ _ k h]
    congr 1
    rw [List.drop_eq_getElem_cons h] at hd
    cases hc : cs.drop (segStart cs k) with
    | nil => rw [hc] at hd; simp [segments] at hd; omega
    | cons c r =>
      rw [hc, segments_cons'] at hd
      have := (List.cons.inj hd).1
      rw [this, List.length_take, Nat.min_eq_left (firstLen_le _)]
  · have h1 : (segments brk cs).take (k + 1) = segments brk cs := List.take_of_length_le (by omega)
    have h2 : (segments brk cs).take k = segments brk cs := List.take_of_length_le (by omega)
    have h3 : segStart cs k = cs.length := by rw [segStart, h2, segments_flatten]
    rw [h3, segStart, h1, segments_flatten]
    simp [firstLen]

theorem segStart_mono_lt (cs : List Int) {j k : Nat} (hjk : j < k) (hk : k ≤ (segments brk cs).length) :
    segStart cs (j + 1) ≤ segStart cs k ∧ segStart cs j < segStart cs (j + 1) := by
  constructor
  · have : ∀ d, segStart cs (j + 1) ≤ segStart cs (j + 1 + d) := by
      intro d; induction d with
      | zero => simp
      | succ d ih => rw [← Nat.add_assoc, segStart_succ cs (j + 1 + d)]; omega
    have := this (k - (j + 1))
    rwa [show j + 1 + (k - (j + 1)) = k by omega] at this
  · have hj : j < (segments brk cs).length := by omega
    rw [segStart, segStart, flatten_take_succ _ j hj]
    have := segments_nonempty brk cs _ (List.getElem_mem hj)
    have := List.length_pos_iff.mpr this
    omega

theorem segStart_all (cs : List Int) : segStart cs (segments brk cs).length = cs.length := by
  rw [segStart, List.take_length, segments_flatten]

theorem incN_sim (S : Sim I pos cs) (fuel : Nat) (hf : cs.length < fuel) (k j : Nat) :
    incN I fuel k ⟨pos 0, pos cs.length, pos (segStart cs j), pos (segStart cs (j + 1))⟩ =
      .ok ⟨pos 0, pos cs.length, pos (segStart cs (j + k)), pos (segStart cs (j + k + 1))⟩ := by
  induction k generalizing j with
  | zero => rfl
  | succ k ih =>
    have := findEnd_sim S fuel (segStart cs (j + 1)) (segStart_le cs _) hf
    rw [← segStart_succ] at this
    simp only [incN, GIter.inc, this, Res.bind_ok, Res.pure_eq]
    rw [ih (j + 1), show j + 1 + k = j + (k + 1) by omega]

theorem graphemeN_sim (S : Sim I pos cs) (fuel : Nat) (hf : cs.length < fuel) (k : Nat) :
    (graphemeBegin I fuel (pos 0) (pos cs.length) >>= incN I fuel k) =
      .ok ⟨pos 0, pos cs.length, pos (segStart cs k), pos (segStart cs (k + 1))⟩ := by
  rw [graphemeBegin_sim S fuel hf, Res.bind_ok]
  have h0 : segStart cs 0 = 0 := by simp [segStart]
  have h1 := segStart_succ cs 0
  rw [h0] at h1
  simp at h1
  have := incN_sim S fuel hf k 0
  rw [h0, h1] at this
  simpa using this

end U5e
