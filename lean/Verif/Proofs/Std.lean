import Verif.Model.Std
import Verif.Proofs.Grapheme
/-! # The standard algorithms over any iterator that simulates a list -/
namespace U5e

variable {I J : CpIter} {pos qos : Nat → Nat} {cs ds : List Int}

theorem stdNext_sim (S : Sim I pos cs) (n i : Nat) (h : i + n ≤ cs.length) :
    stdNext I n (pos i) = .ok (pos (i + n)) := by
  induction n generalizing i with
  | zero => rfl
  | succ n ih =>
    rw [stdNext, S.inc i (by omega), Res.bind_ok, ih (i + 1) (by omega)]
    congr 2; omega

theorem stdDistance_sim (S : Sim I pos cs) (fuel i j : Nat) (hij : i ≤ j) (hj : j ≤ cs.length)
    (hf : j - i < fuel) (n : Int) (hn0 : -2147483648 ≤ n) (hn : n + (j - i : Nat) ≤ 2147483647) :
    stdDistance I (pos j) fuel (pos i) n = .ok (n + (j - i : Nat)) := by
  induction fuel generalizing i n with
  | zero => omega
  | succ fuel ih =>
    rw [stdDistance, S.eq i j (by omega) hj, Res.bind_ok]
    by_cases h : i = j
    · subst h; simp
    · simp only [h, decide_false, Bool.false_eq_true, if_false]
      rw [S.inc i (by omega), Res.bind_ok, addInt, if_pos (by omega), Res.bind_ok,
        ih (i + 1) (by omega) (by omega) (n + 1) (by omega) (by omega)]
      congr 1; omega

theorem stdDistance_overflow (S : Sim I pos cs) (fuel i j : Nat) (hij : i ≤ j) (hj : j ≤ cs.length)
    (hf : j - i < fuel) (n : Int) (hn0 : -2147483648 ≤ n) (hn1 : n ≤ 2147483647)
    (hn : 2147483647 < n + (j - i : Nat)) :
    stdDistance I (pos j) fuel (pos i) n = .ub := by
  induction fuel generalizing i n with
  | zero => omega
  | succ fuel ih =>
    rw [stdDistance, S.eq i j (by omega) hj, Res.bind_ok]
    by_cases h : i = j
    · subst h; omega
    · simp only [h, decide_false, Bool.false_eq_true, if_false]
      rw [S.inc i (by omega), Res.bind_ok, addInt]
      by_cases h2 : n + 1 ≤ 2147483647
      · rw [if_pos (by omega), Res.bind_ok, ih (i + 1) (by omega) (by omega) (n + 1) (by omega) (by omega) (by omega)]
      · rw [if_neg (by omega)]; rfl

theorem stdFindIf_sim (S : Sim I pos cs) (pred : Int → Bool) (fuel i : Nat) (hi : i ≤ cs.length)
    (hf : cs.length - i < fuel) :
    stdFindIf I pred (pos cs.length) fuel (pos i) = .ok (pos (i + (cs.drop i).findIdx pred)) := by
  induction fuel generalizing i with
  | zero => omega
  | succ fuel ih =>
    rw [stdFindIf, S.eq i _ hi (Nat.le_refl _), Res.bind_ok]
    by_cases h : i = cs.length
    · subst h; simp
    · obtain ⟨c, hc, hd⟩ := drop_cons_of_lt (l := cs) (i := i) (by omega)
      simp only [h, decide_false, Bool.false_eq_true, if_false, S.deref i c hc, Res.bind_ok]
      rw [hd, List.findIdx_cons]
      cases hp : pred c with
      | true => simp
      | false =>
        simp only [Bool.false_eq_true, if_false, cond_false]
        rw [S.inc i (by omega), Res.bind_ok, ih (i + 1) (by omega) (by omega)]
        congr 2; omega

theorem stdCountIf_sim (S : Sim I pos cs) (pred : Int → Bool) (fuel i : Nat) (hi : i ≤ cs.length)
    (hf : cs.length - i < fuel) (n : Int) (hn0 : 0 ≤ n) (hn : n + cs.length ≤ 2147483647 + i) :
    stdCountIf I pred (pos cs.length) fuel (pos i) n = .ok (n + ((cs.drop i).countP pred : Nat)) := by
  induction fuel generalizing i n with
  | zero => omega
  | succ fuel ih =>
    rw [stdCountIf, S.eq i _ hi (Nat.le_refl _), Res.bind_ok]
    by_cases h : i = cs.length
    · subst h; simp
    · obtain ⟨c, hc, hd⟩ := drop_cons_of_lt (l := cs) (i := i) (by omega)
      simp only [h, decide_false, Bool.false_eq_true, if_false, S.deref i c hc, Res.bind_ok]
      rw [hd, List.countP_cons]
      cases hp : pred c with
      | true =>
        simp only [if_true]
        rw [addInt, if_pos (by omega), Res.bind_ok, S.inc i (by omega), Res.bind_ok,
          ih (i + 1) (by omega) (by omega) (n + 1) (by omega) (by omega)]
        congr 1; omega
      | false =>
        simp only [Bool.false_eq_true, if_false]
        rw [S.inc i (by omega), Res.bind_ok, ih (i + 1) (by omega) (by omega) n (by omega) (by omega)]
        rfl

theorem stdEqual_sim (S : Sim I pos cs) (T : Sim J qos ds) (fuel i j : Nat) (hi : i ≤ cs.length)
    (hj : j ≤ ds.length) (hf : cs.length - i < fuel) :
    stdEqual I J (pos cs.length) (qos ds.length) fuel (pos i) (qos j) =
      .ok (decide (cs.drop i = ds.drop j)) := by
  induction fuel generalizing i j with
  | zero => omega
  | succ fuel ih =>
    have e1 := S.eq i cs.length hi (Nat.le_refl _)
    have e2 := T.eq j ds.length hj (Nat.le_refl _)
    rw [stdEqual, e1, Res.bind_ok]
    by_cases h1 : i = cs.length
    · subst h1
      simp only [decide_true, if_true, Res.pure_eq, Res.bind_ok, e2, List.drop_length]
      congr 1
      apply decide_eq_decide.mpr
      rw [eq_comm (a := ([] : List Int)), List.drop_eq_nil_iff]; omega
    · obtain ⟨c, hc, hd⟩ := drop_cons_of_lt (l := cs) (i := i) (by omega)
      simp only [h1, decide_false, Bool.false_eq_true, if_false, e2, Res.bind_ok]
      by_cases h2 : j = ds.length
      · subst h2
        simp [hd]
      · obtain ⟨d, hd', hdd⟩ := drop_cons_of_lt (l := ds) (i := j) (by omega)
        simp only [h2, decide_false, Bool.false_eq_true, if_false, S.deref i c hc, T.deref j d hd', Res.bind_ok]
        rw [hd, hdd]
        by_cases h3 : c = d
        · subst h3
          simp only [if_true, S.inc i (by omega), T.inc j (by omega), Res.bind_ok]
          rw [ih (i + 1) (j + 1) (by omega) (by omega) (by omega)]
          simp
        · simp [h3]

theorem stdLess_sim (S : Sim I pos cs) (T : Sim J qos ds) (fuel i j : Nat) (hi : i ≤ cs.length)
    (hj : j ≤ ds.length) (hf : cs.length - i < fuel) :
    stdLess I J (pos cs.length) (qos ds.length) fuel (pos i) (qos j) =
      .ok (decide (cs.drop i < ds.drop j)) := by
  induction fuel generalizing i j with
  | zero => omega
  | succ fuel ih =>
    have e1 := S.eq i cs.length hi (Nat.le_refl _)
    have e2 := T.eq j ds.length hj (Nat.le_refl _)
    rw [stdLess, e1, Res.bind_ok]
    by_cases h1 : i = cs.length
    · subst h1
      simp only [decide_true, if_true, Res.pure_eq, Res.bind_ok, e2, List.drop_length]
      by_cases h2 : j = ds.length
      · subst h2; simp
      · obtain ⟨d, _, hdd⟩ := drop_cons_of_lt (l := ds) (i := j) (by omega)
        simp [h2, hdd]
    · obtain ⟨c, hc, hd⟩ := drop_cons_of_lt (l := cs) (i := i) (by omega)
      simp only [h1, decide_false, Bool.false_eq_true, if_false, e2, Res.bind_ok]
      by_cases h2 : j = ds.length
      · subst h2
        simp [hd]
      · obtain ⟨d, hd', hdd⟩ := drop_cons_of_lt (l := ds) (i := j) (by omega)
        simp only [h2, decide_false, Bool.false_eq_true, if_false, S.deref i c hc, T.deref j d hd', Res.bind_ok]
        rw [hd, hdd]
        by_cases h3 : c < d
        · simp [h3, List.cons_lt_cons_iff]
        · by_cases h4 : d < c
          · have : c ≠ d := by omega
            simp [h3, h4, List.cons_lt_cons_iff, this]
          · have : c = d := by omega
            subst this
            simp only [h3, if_false, S.inc i (by omega), T.inc j (by omega), Res.bind_ok]
            rw [ih (i + 1) (j + 1) (by omega) (by omega) (by omega)]
            simp [List.cons_lt_cons_iff]

theorem stdMaxLoop_sim (S : Sim I pos cs) (fuel i r : Nat) (hi : i < cs.length) (hr : r ≤ i)
    (hf : cs.length - i ≤ fuel) (hp : ∀ c, cs[r]? = some c → ∀ j d, j ≤ i → cs[j]? = some d → d ≤ c ∧ (j < r → d < c)) :
    ∃ k c, stdMaxLoop I (pos cs.length) fuel (pos i) (pos r) = .ok (pos k) ∧ cs[k]? = some c ∧
      ∀ j d, cs[j]? = some d → d ≤ c ∧ (j < k → d < c) := by
  induction fuel generalizing i r with
  | zero => omega
  | succ fuel ih =>
    obtain ⟨a, ha, _⟩ := drop_cons_of_lt (l := cs) (i := r) (by omega)
    rw [stdMaxLoop, S.inc i hi, Res.bind_ok, S.eq (i + 1) _ (by omega) (Nat.le_refl _), Res.bind_ok]
    by_cases h : i + 1 = cs.length
    · refine ⟨r, a, by simp [h], ha, fun j d hd => hp a ha j d ?_ hd⟩
      have := (List.getElem?_eq_some_iff.mp hd).1; omega
    · obtain ⟨b, hb, _⟩ := drop_cons_of_lt (l := cs) (i := i + 1) (by omega)
      simp only [h, decide_false, Bool.false_eq_true, if_false, S.deref r a ha, S.deref (i + 1) b hb, Res.bind_ok]
      by_cases hab : a < b
      · rw [if_pos hab]
        refine ih (i + 1) (i + 1) (by omega) (Nat.le_refl _) (by omega) ?_
        intro c hc j d hj hd
        obtain rfl : b = c := by rw [hb] at hc; exact Option.some.inj hc
        by_cases hj' : j = i + 1
        · subst hj'
          obtain rfl : b = d := by rw [hb] at hd; exact Option.some.inj hd
          exact ⟨Int.le_refl _, fun h => absurd h (Nat.lt_irrefl _)⟩
        · have := (hp a ha j d (by omega) hd).1
          exact ⟨by omega, fun _ => by omega⟩
      · rw [if_neg hab]
        refine ih (i + 1) r (by omega) (by omega) (by omega) ?_
        intro c hc j d hj hd
        obtain rfl : a = c := by rw [ha] at hc; exact Option.some.inj hc
        by_cases hj' : j = i + 1
        · subst hj'
          obtain rfl : b = d := by rw [hb] at hd; exact Option.some.inj hd
          exact ⟨by omega, fun h => by omega⟩
        · exact hp a ha j d (by omega) hd

theorem stdMaxElement_sim (S : Sim I pos cs) (fuel : Nat) (hf : cs.length ≤ fuel) (hne : cs ≠ []) :
    ∃ k c, stdMaxElement I (pos cs.length) fuel (pos 0) = .ok (pos k) ∧ cs[k]? = some c ∧
      ∀ j d, cs[j]? = some d → d ≤ c ∧ (j < k → d < c) := by
  have hl : cs.length ≠ 0 := by simpa using hne
  rw [stdMaxElement, S.eq 0 _ (Nat.zero_le _) (Nat.le_refl _), Res.bind_ok]
  have : decide (0 = cs.length) = false := by simp; omega
  rw [this]
  simp only [Bool.false_eq_true, if_false]
  refine stdMaxLoop_sim S fuel 0 0 (by omega) (Nat.le_refl _) (by omega) ?_
  intro c hc j d hj hd
  obtain rfl : j = 0 := by omega
  rw [hc] at hd
  obtain rfl := Option.some.inj hd
  exact ⟨Int.le_refl _, fun h => absurd h (Nat.lt_irrefl _)⟩

theorem revDistance_sim (S : Sim I pos cs) (dang : Bool) (fuel i : Nat) (hi : i ≤ cs.length)
    (hf : i < fuel) (n : Int) (hn0 : 0 ≤ n) (hn : n + i ≤ 2147483647) :
    revDistance ⟨I, dang⟩ (pos 0) fuel (pos i) n = .ok (n + i) := by
  induction fuel generalizing i n with
  | zero => omega
  | succ fuel ih =>
    rw [revDistance, RevBase.eq, S.eq i 0 hi (Nat.zero_le _), Res.bind_ok]
    cases i with
    | zero => simp
    | succ i =>
      simp only [Nat.add_one_ne_zero, decide_false, Bool.false_eq_true, if_false, RevBase.inc]
      rw [S.dec i (by omega), Res.bind_ok, addInt, if_pos (by omega), Res.bind_ok,
        ih i (by omega) (by omega) (n + 1) (by omega) (by omega)]
      congr 1; omega

theorem revWalk_sim (S : Sim I pos cs) (fuel i : Nat) (hi : i ≤ cs.length) (hf : i < fuel) :
    revWalk ⟨I, false⟩ (pos 0) fuel (pos i) = .ok (cs.take i).reverse := by
  induction fuel generalizing i with
  | zero => omega
  | succ fuel ih =>
    rw [revWalk, RevBase.eq, S.eq i 0 hi (Nat.zero_le _), Res.bind_ok]
    cases i with
    | zero => simp
    | succ i =>
      obtain ⟨c, hc, _⟩ := drop_cons_of_lt (l := cs) (i := i) (by omega)
      simp only [Nat.add_one_ne_zero, decide_false, Bool.false_eq_true, if_false, RevBase.inc, RevBase.deref]
      rw [S.dec i (by omega)]
      simp only [Res.bind_ok, S.deref i c hc, Bool.false_eq_true, if_false, Res.pure_eq]
      rw [ih i (by omega) (by omega), List.take_add_one, hc]
      simp

theorem revWalk_dangling (S : Sim I pos cs) (fuel i : Nat) (hi : i ≤ cs.length) (hf : i < fuel) (h0 : i ≠ 0) :
    revWalk ⟨I, true⟩ (pos 0) fuel (pos i) = .ub := by
  cases fuel with
  | zero => omega
  | succ fuel =>
    rw [revWalk, RevBase.eq, S.eq i 0 hi (Nat.zero_le _), Res.bind_ok]
    cases i with
    | zero => exact absurd rfl h0
    | succ i =>
      obtain ⟨c, hc, _⟩ := drop_cons_of_lt (l := cs) (i := i) (by omega)
      simp only [Nat.add_one_ne_zero, decide_false, Bool.false_eq_true, if_false, RevBase.deref]
      rw [S.dec i (by omega)]
      simp only [Res.bind_ok, S.deref i c hc, if_true]
      rfl

end U5e
