import Verif.Model.StdSort
import Verif.Spec.Normal
/-! Lemmas about libstdc++'s `std::sort`: it stays inside its range, ends, permutes and orders. -/
namespace U5e.StdSort
open U5e Spec

/-- The element at a position (0 outside). -/
def val (l : List Int) (i : Nat) : Int := l.getD i 0

theorem rd_val {l : List Int} {i : Nat} (h : i < l.length) : rd32 l i = .ok (val l i) := by
  simp [rd32, val, List.getD, h]

theorem wr_ok {l : List Int} {i : Nat} (h : i < l.length) (v : Int) : wr32 l i v = .ok (l.set i v) := by
  simp [wr32, h]

theorem val_set {l : List Int} {i j : Nat} {v : Int} (h : i < l.length) :
    val (l.set i v) j = if i = j then v else val l j := by
  simp only [val, List.getD, List.getElem?_set]
  by_cases hij : i = j
  · subst hij; simp [h]
  · simp [hij]

theorem lessAt_val {lt : Int → Int → Bool} {l : List Int} {i j : Nat} (hi : i < l.length) (hj : j < l.length) :
    lessAt lt l i j = .ok (lt (val l i) (val l j)) := by
  simp [lessAt, rd_val hi, rd_val hj]

theorem swapAt_val {l : List Int} {i j : Nat} (hi : i < l.length) (hj : j < l.length) :
    swapAt l i j = .ok ((l.set i (val l j)).set j (val l i)) := by
  simp [swapAt, rd_val hi, rd_val hj, wr_ok hi, wr_ok (l := l.set i (val l j)) (i := j) (by simpa using hj)]

/-- Exchanging two elements. -/
def swapped (l : List Int) (i j : Nat) : List Int := (l.set i (val l j)).set j (val l i)

theorem swapped_length {l : List Int} {i j : Nat} : (swapped l i j).length = l.length := by simp [swapped]

theorem val_swapped {l : List Int} {i j k : Nat} (hi : i < l.length) (hj : j < l.length) :
    val (swapped l i j) k = if j = k then val l i else if i = k then val l j else val l k := by
  rw [swapped, val_set (by simpa using hj), val_set hi]

/-- `l'` is `l` with the elements at the positions `f ≤ i < e` in another order. -/
structure Shuffle (f e : Nat) (l l' : List Int) : Prop where
  len : l'.length = l.length
  perm : l'.Perm l
  out : ∀ i, ¬ (f ≤ i ∧ i < e) → val l' i = val l i
  inn : ∀ i, f ≤ i → i < e → ∃ j, f ≤ j ∧ j < e ∧ val l' i = val l j
  onto : ∀ j, f ≤ j → j < e → ∃ i, f ≤ i ∧ i < e ∧ val l' i = val l j

theorem Shuffle.refl (f e : Nat) (l : List Int) : Shuffle f e l l :=
  ⟨rfl, .refl _, fun _ _ => rfl, fun i h1 h2 => ⟨i, h1, h2, rfl⟩, fun i h1 h2 => ⟨i, h1, h2, rfl⟩⟩

theorem Shuffle.trans {f e : Nat} {a b c : List Int} (h1 : Shuffle f e a b) (h2 : Shuffle f e b c) :
    Shuffle f e a c :=
  ⟨h2.len.trans h1.len, h2.perm.trans h1.perm, fun i hi => (h2.out i hi).trans (h1.out i hi), fun i g1 g2 => by
    obtain ⟨j, j1, j2, j3⟩ := h2.inn i g1 g2
    obtain ⟨k, k1, k2, k3⟩ := h1.inn j j1 j2
    exact ⟨k, k1, k2, j3.trans k3⟩, fun j g1 g2 => by
    obtain ⟨i, i1, i2, i3⟩ := h1.onto j g1 g2
    obtain ⟨k, k1, k2, k3⟩ := h2.onto i i1 i2
    exact ⟨k, k1, k2, k3.trans i3⟩⟩

theorem Shuffle.mono {f e f' e' : Nat} {a b : List Int} (h : Shuffle f e a b) (hf : f' ≤ f) (he : e ≤ e') :
    Shuffle f' e' a b :=
  ⟨h.len, h.perm, fun i hi => h.out i (by omega), fun i g1 g2 => by
    by_cases hi : f ≤ i ∧ i < e
    · obtain ⟨j, j1, j2, j3⟩ := h.inn i hi.1 hi.2
      exact ⟨j, by omega, by omega, j3⟩
    · exact ⟨i, g1, g2, h.out i hi⟩, fun j g1 g2 => by
    by_cases hi : f ≤ j ∧ j < e
    · obtain ⟨i, j1, j2, j3⟩ := h.onto j hi.1 hi.2
      exact ⟨i, by omega, by omega, j3⟩
    · exact ⟨j, g1, g2, h.out j hi⟩⟩

theorem Shuffle.swapped {f e i j : Nat} {l : List Int} (hi : f ≤ i ∧ i < e) (hj : f ≤ j ∧ j < e)
    (he : e ≤ l.length) : Shuffle f e l (swapped l i j) := by
  have hi' : i < l.length := by omega
  have hj' : j < l.length := by omega
  refine ⟨swapped_length, ?_, fun k hk => ?_, fun k k1 k2 => ?_, fun k k1 k2 => ?_⟩
  · have := List.set_set_perm hi' hj'
    rw [StdSort.swapped, val, val]
    simpa [List.getD, hi', hj'] using this
  · rw [val_swapped hi' hj', if_neg (by omega), if_neg (by omega)]
  · rw [val_swapped hi' hj']
    split
    · exact ⟨i, hi.1, hi.2, rfl⟩
    · split
      · exact ⟨j, hj.1, hj.2, rfl⟩
      · exact ⟨k, k1, k2, rfl⟩
  · by_cases e1 : k = i
    · exact ⟨j, hj.1, hj.2, by rw [val_swapped hi' hj', if_pos rfl, e1]⟩
    · by_cases e2 : k = j
      · refine ⟨i, hi.1, hi.2, ?_⟩
        rw [val_swapped hi' hj']
        by_cases e3 : j = i
        · rw [if_pos e3, e2, e3]
        · rw [if_neg e3, if_pos rfl, e2]
      · exact ⟨k, k1, k2, by rw [val_swapped hi' hj', if_neg (Ne.symm e2), if_neg (Ne.symm e1)]⟩

/-! ### Strict weak orderings -/

section
variable {lt : Int → Int → Bool} (hlt : StrictWeak lt)
include hlt

theorem asymm {a b : Int} (h : lt a b = true) : lt b a = false := by
  cases hb : lt b a with
  | false => rfl
  | true => have := hlt.trans a b a h hb; rw [hlt.irrefl] at this; cases this

/-- "Not greater" is transitive. -/
theorem le_trans {a b c : Int} (h1 : lt b a = false) (h2 : lt c b = false) : lt c a = false := by
  cases hca : lt c a with
  | false => rfl
  | true =>
    cases hab : lt a b with
    | true => rw [hlt.trans c a b hca hab] at h2; cases h2
    | false =>
      cases hbc : lt b c with
      | true => rw [hlt.trans b c a hbc hca] at h1; cases h1
      | false => rw [(hlt.incomp a b c hab h1 hbc h2).2] at hca; cases hca

theorem lt_of_lt_of_le {a b c : Int} (h1 : lt a b = true) (h2 : lt c b = false) : lt a c = true := by
  cases hac : lt a c with
  | true => rfl
  | false => rw [le_trans hlt h2 hac] at h1; cases h1

theorem lt_of_le_of_lt {a b c : Int} (h1 : lt b a = false) (h2 : lt b c = true) : lt a c = true := by
  cases hac : lt a c with
  | true => rfl
  | false => rw [le_trans hlt hac h1] at h2; cases h2

end

/-! ### Insertion -/

theorem val_append_left {p q : List Int} {i : Nat} (h : i < p.length) : val (p ++ q) i = val p i := by
  simp only [val, List.getD, List.getElem?_append_left h]

theorem val_append_mid {p q : List Int} {x : Int} {i : Nat} (h : i = p.length) : val (p ++ x :: q) i = x := by
  subst h; simp [val, List.getD]

theorem set_append_mid {p q : List Int} {x y : Int} {i : Nat} (h : i = p.length) :
    (p ++ x :: q).set i y = p ++ y :: q := by
  subst h; simp

/-- Everything greater moves one to the right and the value takes its place. -/
theorem linearInsert_eq {lt : Int → Int → Bool} (v : Int) (q : List Int) (z : Int) (hz : lt v z = false) :
    ∀ (r : List Int) (x : Int) (rest : List Int), (∀ y ∈ r, lt v y = true) →
    linearInsert lt v (q ++ z :: (r ++ x :: rest)) (q.length + r.length + 1) = .ok (q ++ z :: v :: (r ++ rest)) := by
  intro r
  induction hn : r.length generalizing r with
  | zero =>
    intro x rest _
    obtain rfl := List.length_eq_zero_iff.mp hn
    simp only [Nat.add_zero, List.nil_append]
    rw [linearInsert, rd_val (by simp), val_append_mid rfl, Res.bind_ok, hz]
    simp only [Bool.false_eq_true, if_false]
    rw [wr_ok (by simp), show q ++ z :: x :: rest = (q ++ [z]) ++ x :: rest by simp, set_append_mid (by simp)]
    simp
  | succ n ih =>
    intro x rest hr
    obtain ⟨s, y, rfl⟩ : ∃ s y, r = s ++ [y] := ⟨r.dropLast, r.getLast (by intro h; simp [h] at hn), (List.dropLast_concat_getLast _).symm⟩
    have hs : s.length = n := by simpa using hn
    have e1 : q ++ z :: ((s ++ [y]) ++ x :: rest) = (q ++ z :: s) ++ y :: (x :: rest) := by simp
    rw [linearInsert, rd_val (by simp; omega), e1, val_append_mid (by simp; omega), Res.bind_ok,
      hr y (by simp), if_pos rfl, wr_ok (by simp; omega), Res.bind_ok,
      show (q ++ z :: s) ++ y :: (x :: rest) = (q ++ z :: (s ++ [y])) ++ x :: rest by simp,
      set_append_mid (by simp; omega)]
    have := ih s hs y (y :: rest) (fun w hw => hr w (by simp [hw]))
    rw [show (q ++ z :: (s ++ [y])) ++ y :: rest = q ++ z :: (s ++ y :: (y :: rest)) by simp,
      show q.length + (n + 1) = q.length + n + 1 by omega, this]
    simp

theorem moveBackward_eq : ∀ (p : List Int) (x : Int) (rest : List Int),
    ∃ y, moveBackward (p ++ x :: rest) p.length = .ok (y :: (p ++ rest)) := by
  intro p
  induction hn : p.length generalizing p with
  | zero =>
    intro x rest
    obtain rfl := List.length_eq_zero_iff.mp hn
    exact ⟨x, rfl⟩
  | succ n ih =>
    intro x rest
    obtain ⟨s, y, rfl⟩ : ∃ s y, p = s ++ [y] := ⟨p.dropLast, p.getLast (by intro h; simp [h] at hn), (List.dropLast_concat_getLast _).symm⟩
    have hs : s.length = n := by simpa using hn
    obtain ⟨w, hw⟩ := ih s hs y (y :: rest)
    refine ⟨w, ?_⟩
    rw [moveBackward, rd_val (by simp; omega), show (s ++ [y]) ++ x :: rest = s ++ y :: (x :: rest) by simp,
      val_append_mid hs.symm, Res.bind_ok, wr_ok (by simp; omega), Res.bind_ok,
      show s ++ y :: (x :: rest) = (s ++ [y]) ++ x :: rest by simp, set_append_mid (by simp; omega),
      show (s ++ [y]) ++ y :: rest = s ++ y :: (y :: rest) by simp, hw]
    simp

/-- Ordered: no element is less than an earlier one. -/
def Ordered (lt : Int → Int → Bool) (l : List Int) : Prop := l.Pairwise (fun a b => lt b a = false)

/-- `l'` is `l` with equivalent elements in the same order. -/
def Stably (lt : Int → Int → Bool) (l l' : List Int) : Prop :=
  l'.Perm l ∧ ∀ x, l'.filter (fun y => !lt x y && !lt y x) = l.filter (fun y => !lt x y && !lt y x)

theorem Stably.refl (lt : Int → Int → Bool) (l : List Int) : Stably lt l l := ⟨.refl _, fun _ => rfl⟩
theorem Stably.trans {lt : Int → Int → Bool} {a b c : List Int} (h : Stably lt a b) (h' : Stably lt b c) : Stably lt a c :=
  ⟨h'.1.trans h.1, fun x => (h'.2 x).trans (h.2 x)⟩

/-- An ordered list splits at a value: first what is not greater, then what is. -/
theorem split_at {lt : Int → Int → Bool} (hlt : StrictWeak lt) (v : Int) {p : List Int} (hp : Ordered lt p) :
    ∃ q r, p = q ++ r ∧ (∀ y ∈ q, lt v y = false) ∧ ∀ y ∈ r, lt v y = true := by
  induction p with
  | nil => exact ⟨[], [], rfl, by simp, by simp⟩
  | cons a p ih =>
    have hp' := List.pairwise_cons.mp hp
    cases ha : lt v a with
    | true =>
      refine ⟨[], a :: p, rfl, by simp, fun y hy => ?_⟩
      rcases List.mem_cons.mp hy with rfl | hy
      · exact ha
      · exact lt_of_lt_of_le hlt ha (hp'.1 y hy)
    | false =>
      obtain ⟨q, r, rfl, h1, h2⟩ := ih hp'.2
      refine ⟨a :: q, r, rfl, fun y hy => ?_, h2⟩
      rcases List.mem_cons.mp hy with rfl | hy
      · exact ha
      · exact h1 y hy

/-- Putting a value between what is not greater and what is. -/
theorem insert_ordered {lt : Int → Int → Bool} (hlt : StrictWeak lt) {q r : List Int} {v : Int}
    (hp : Ordered lt (q ++ r)) (hq : ∀ y ∈ q, lt v y = false) (hr : ∀ y ∈ r, lt v y = true) :
    Ordered lt (q ++ v :: r) := by
  obtain ⟨h1, h2, h3⟩ := List.pairwise_append.mp hp
  refine List.pairwise_append.mpr ⟨h1, List.pairwise_cons.mpr ⟨fun y hy => asymm hlt (hr y hy), h2⟩, ?_⟩
  intro a ha b hb
  rcases List.mem_cons.mp hb with rfl | hb
  · exact hq a ha
  · exact h3 a ha b hb

theorem insert_stably {lt : Int → Int → Bool} (hlt : StrictWeak lt) {q r rest : List Int} {v : Int}
    (hr : ∀ y ∈ r, lt v y = true) : Stably lt (q ++ r ++ v :: rest) (q ++ v :: r ++ rest) := by
  refine ⟨?_, fun x => ?_⟩
  · rw [List.append_assoc, List.append_assoc]
    exact List.Perm.append_left q (List.perm_middle.symm)
  · simp only [List.filter_append, List.filter_cons, List.append_assoc]
    cases hx : (!lt x v && !lt v x) with
    | false => simp
    | true =>
      have hnil : r.filter (fun y => !lt x y && !lt y x) = [] := by
        rw [List.filter_eq_nil_iff]
        intro y hy h
        simp only [Bool.and_eq_true, Bool.not_eq_true'] at h hx
        have := hlt.incomp v x y hx.2 hx.1 h.1 h.2
        rw [hr y hy] at this
        exact absurd this.1 (by simp)
      simp [hnil]

/-- One round of insertion. `p` is ordered; `v` is inserted. -/
theorem unguardedLinearInsert_eq {lt : Int → Int → Bool} (hlt : StrictWeak lt) {p : List Int} {v : Int} {rest : List Int}
    (hp : Ordered lt p) (hsent : ∃ y ∈ p, lt v y = false) :
    ∃ p', unguardedLinearInsert lt (p ++ v :: rest) p.length = .ok (p' ++ rest) ∧ p'.length = p.length + 1 ∧
      Ordered lt p' ∧ Stably lt (p ++ v :: rest) (p' ++ rest) := by
  obtain ⟨q, r, rfl, hq, hr⟩ := split_at hlt v hp
  have hne : q ≠ [] := by
    rintro rfl
    obtain ⟨y, hy, hv⟩ := hsent
    rw [hr y (by simpa using hy)] at hv
    cases hv
  obtain ⟨q', z, rfl⟩ : ∃ q' z, q = q' ++ [z] := ⟨q.dropLast, q.getLast hne, (List.dropLast_concat_getLast _).symm⟩
  refine ⟨(q' ++ [z]) ++ v :: r, ?_, by simp; omega, insert_ordered hlt hp hq hr, insert_stably hlt hr⟩
  rw [unguardedLinearInsert, rd_val (by simp), val_append_mid rfl, Res.bind_ok]
  have := linearInsert_eq (lt := lt) v q' z (hq z (by simp)) r v rest hr
  rw [show (q' ++ [z] ++ r) ++ v :: rest = q' ++ z :: (r ++ v :: rest) by simp,
    show (q' ++ [z] ++ r).length = q'.length + r.length + 1 by simp; omega, this]
  simp

theorem insertionLoop_eq {lt : Int → Int → Bool} (hlt : StrictWeak lt) : ∀ (s p rest : List Int), p ≠ [] → Ordered lt p →
    ∃ p', insertionLoop lt s.length (p ++ s ++ rest) p.length = .ok (p' ++ rest) ∧ p'.length = p.length + s.length ∧
      Ordered lt p' ∧ Stably lt (p ++ s ++ rest) (p' ++ rest) := by
  intro s
  induction s with
  | nil => intro p rest _ hp; exact ⟨p, by simp [insertionLoop], by simp, hp, by simpa using Stably.refl lt _⟩
  | cons v s ih =>
    intro p rest hne hp
    have hpos : 0 < p.length := List.length_pos_iff.mpr hne
    have key : ∃ p', insertionRound lt (p ++ v :: s ++ rest) p.length = .ok (p' ++ (s ++ rest)) ∧
        p'.length = p.length + 1 ∧ Ordered lt p' ∧ Stably lt (p ++ v :: (s ++ rest)) (p' ++ (s ++ rest)) := by
      have e : p ++ v :: s ++ rest = p ++ v :: (s ++ rest) := by simp
      rw [insertionRound, e, lessAt_val (by simp) (by simp; omega), val_append_mid rfl, val_append_left hpos, Res.bind_ok]
      obtain ⟨a, t, rfl⟩ := List.exists_cons_of_ne_nil hne
      have ha : val (a :: t) 0 = a := rfl
      rw [ha]
      cases hc : lt v a with
      | false =>
        obtain ⟨p', h1, h2, h3, h4⟩ := unguardedLinearInsert_eq hlt (rest := s ++ rest) hp ⟨a, by simp, hc⟩
        refine ⟨p', ?_, h2, h3, h4⟩
        simp only [Bool.false_eq_true, if_false]
        exact h1
      | true =>
        obtain ⟨w, hw⟩ := moveBackward_eq (a :: t) v (s ++ rest)
        have hall : ∀ y ∈ a :: t, lt v y = true := by
          intro y hy
          rcases List.mem_cons.mp hy with rfl | hy
          · exact hc
          · exact lt_of_lt_of_le hlt hc ((List.pairwise_cons.mp hp).1 y hy)
        refine ⟨v :: a :: t, ?_, by simp, insert_ordered (q := []) hlt hp (by simp) hall,
          insert_stably (q := []) hlt hall⟩
        simp only [if_true]
        rw [rd_val (by simp), val_append_mid rfl, Res.bind_ok, hw, Res.bind_ok, wr_ok (by simp)]
        rfl
    obtain ⟨p1, h1, h2, h3, h4⟩ := key
    obtain ⟨p', g1, g2, g3, g4⟩ := ih p1 rest (by rintro rfl; simp at h2) h3
    refine ⟨p', ?_, by simp; omega, g3, ?_⟩
    · rw [List.length_cons, insertionLoop]
      rw [List.append_assoc] at g1
      rw [h2] at g1
      rw [h1, Res.bind_ok]; exact g1
    · rw [List.append_assoc] at g4
      rw [show p ++ v :: s ++ rest = p ++ v :: (s ++ rest) by simp]
      exact h4.trans g4

/-- `__insertion_sort` of the first elements. -/
theorem insertionSort_eq {lt : Int → Int → Bool} (hlt : StrictWeak lt) (p rest : List Int) :
    ∃ p', insertionSort lt (p ++ rest) p.length = .ok (p' ++ rest) ∧ p'.length = p.length ∧
      Ordered lt p' ∧ Stably lt (p ++ rest) (p' ++ rest) := by
  cases p with
  | nil => exact ⟨[], by simp [insertionSort], rfl, .nil, Stably.refl lt _⟩
  | cons a s =>
    obtain ⟨p', h1, h2, h3, h4⟩ := insertionLoop_eq hlt s [a] rest (by simp) (List.pairwise_singleton _ _)
    refine ⟨p', ?_, by simpa [Nat.add_comm] using h2, h3, by simpa using h4⟩
    rw [insertionSort, if_neg (by simp)]
    simpa using h1

theorem unguardedInsertionSort_eq {lt : Int → Int → Bool} (hlt : StrictWeak lt) : ∀ (s p : List Int), Ordered lt p →
    (∃ y ∈ p, ∀ v ∈ s, lt v y = false) →
    ∃ p', unguardedInsertionSort lt s.length (p ++ s) p.length = .ok p' ∧ Ordered lt p' ∧ Stably lt (p ++ s) p' := by
  intro s
  induction s with
  | nil => intro p hp _; exact ⟨p, by simp [unguardedInsertionSort], hp, by simpa using Stably.refl lt _⟩
  | cons v s ih =>
    intro p hp ⟨y, hy, hmin⟩
    obtain ⟨p1, h1, h2, h3, h4⟩ := unguardedLinearInsert_eq hlt (rest := s) hp ⟨y, hy, hmin v (by simp)⟩
    have hmem : y ∈ p1 := by
      have := h4.1.length_eq
      have hy' : y ∈ p1 ++ s := h4.1.symm.subset (by simp [hy])
      -- `p1` is `p` with `v` inserted
      have hperm : (p1 ++ s).Perm ((p ++ [v]) ++ s) := by simpa using h4.1
      have := (List.perm_append_right_iff s).mp hperm
      exact this.symm.subset (by simp [hy])
    obtain ⟨p', g1, g2, g3⟩ := ih p1 h3 ⟨y, hmem, fun w hw => hmin w (by simp [hw])⟩
    refine ⟨p', ?_, g2, h4.trans g3⟩
    rw [List.length_cons, unguardedInsertionSort, h1, Res.bind_ok, ← h2]
    exact g1

/-- `__final_insertion_sort` orders a range whose least element is among the first 16. -/
theorem finalInsertionSort_eq {lt : Int → Int → Bool} (hlt : StrictWeak lt) (l : List Int)
    (hmin : 16 < l.length → ∃ k, k < 16 ∧ ∀ j, j < l.length → lt (val l j) (val l k) = false) :
    ∃ r, finalInsertionSort lt l = .ok r ∧ Ordered lt r ∧ Stably lt l r := by
  rw [finalInsertionSort]
  by_cases h16 : l.length > 16
  · rw [if_pos h16]
    obtain ⟨k, hk, hkm⟩ := hmin h16
    have hl : l.take 16 ++ l.drop 16 = l := List.take_append_drop 16 l
    have ht : (l.take 16).length = 16 := by simp; omega
    obtain ⟨p', h1, h2, h3, h4⟩ := insertionSort_eq hlt (l.take 16) (l.drop 16)
    rw [hl, ht] at h1
    rw [ht] at h2
    rw [h1, Res.bind_ok]
    have hmem : val l k ∈ l.take 16 := by
      have : val (l.take 16 ++ l.drop 16) k = val (l.take 16) k := val_append_left (by omega)
      rw [hl] at this
      rw [this, val, List.getD, List.getElem?_eq_getElem (by omega)]
      exact List.getElem_mem _
    have hperm : p'.Perm (l.take 16) := (List.perm_append_right_iff (l.drop 16)).mp h4.1
    obtain ⟨r, g1, g2, g3⟩ := unguardedInsertionSort_eq hlt (l.drop 16) p' h3 ⟨val l k, hperm.symm.subset hmem, fun v hv => by
      obtain ⟨j, hj, rfl⟩ := List.mem_iff_getElem.mp hv
      have hj' : 16 + j < l.length := by simp at hj; omega
      have := hkm (16 + j) hj'
      rw [show val l (16 + j) = (l.drop 16)[j] by simp [val, List.getD, hj']] at this
      exact this⟩
    rw [h2, List.length_drop] at g1
    rw [hl] at h4
    exact ⟨r, g1, g2, h4.trans g3⟩
  · rw [if_neg h16]
    obtain ⟨p', h1, h2, h3, h4⟩ := insertionSort_eq hlt l []
    simp only [List.append_nil] at h1 h4
    exact ⟨p', h1, h3, h4⟩

/-! ### Partition -/

theorem scanUp_eq {lt : Int → Int → Bool} {l : List Int} {P u : Nat} (hP : P < l.length) (hu : u < l.length)
    (hs : lt (val l u) (val l P) = false) : ∀ (fuel first : Nat), first ≤ u → u - first < fuel →
    ∃ F, scanUp lt l P fuel first = .ok F ∧ first ≤ F ∧ F ≤ u ∧ lt (val l F) (val l P) = false ∧
      ∀ j, first ≤ j → j < F → lt (val l j) (val l P) = true := by
  intro fuel
  induction fuel with
  | zero => intro first _ h; omega
  | succ fuel ih =>
    intro first h1 h2
    rw [scanUp, lessAt_val (by omega) hP, Res.bind_ok]
    cases hc : lt (val l first) (val l P) with
    | false => exact ⟨first, rfl, Nat.le_refl _, h1, hc, fun j _ _ => by omega⟩
    | true =>
      have hne : first ≠ u := by rintro rfl; rw [hs] at hc; cases hc
      obtain ⟨F, g1, g2, g3, g4, g5⟩ := ih (first + 1) (by omega) (by omega)
      refine ⟨F, by simpa using g1, by omega, g3, g4, fun j j1 j2 => ?_⟩
      by_cases hj : j = first
      · subst hj; exact hc
      · exact g5 j (by omega) j2

theorem scanDown_eq {lt : Int → Int → Bool} (hlt : StrictWeak lt) {l : List Int} {P : Nat} : ∀ last, P ≤ last → last < l.length →
    ∃ E, scanDown lt l P last = .ok E ∧ P ≤ E ∧ E ≤ last ∧ (∀ j, E < j → j ≤ last → lt (val l P) (val l j) = true) ∧
      lt (val l P) (val l E) = false := by
  intro last
  induction last with
  | zero =>
    intro h1 h2
    obtain rfl : P = 0 := by omega
    rw [scanDown, lessAt_val h2 h2, Res.bind_ok, hlt.irrefl]
    exact ⟨0, rfl, Nat.le_refl _, Nat.le_refl _, fun j _ _ => by omega, hlt.irrefl _⟩
  | succ last ih =>
    intro h1 h2
    rw [scanDown, lessAt_val (by omega) h2, Res.bind_ok]
    cases hc : lt (val l P) (val l (last + 1)) with
    | false => exact ⟨last + 1, rfl, h1, Nat.le_refl _, fun j _ _ => by omega, hc⟩
    | true =>
      have hne : P ≠ last + 1 := by rintro rfl; rw [hlt.irrefl] at hc; cases hc
      obtain ⟨E, g1, g2, g3, g4, g5⟩ := ih (by omega) (by omega)
      refine ⟨E, by simpa using g1, g2, by omega, fun j j1 j2 => ?_, g5⟩
      rcases Nat.lt_or_ge last j with h | h
      · rw [show j = last + 1 by omega]; exact hc
      · exact g4 j j1 h

theorem unguardedPartition_eq {lt : Int → Int → Bool} (hlt : StrictWeak lt) {P e : Nat} :
    ∀ (fuel : Nat) (l : List Int) (first last u : Nat), e ≤ l.length → P < first → first ≤ last → last ≤ e →
    (∀ j, last ≤ j → j < e → lt (val l j) (val l P) = false) →
    (∀ j, P < j → j < first → lt (val l P) (val l j) = false) → first ≤ u → u < e → lt (val l u) (val l P) = false → e - first < fuel →
    ∃ l' cut, unguardedPartition lt P fuel l first last = .ok (l', cut) ∧ Shuffle (P + 1) e l l' ∧ P < cut ∧ cut < e ∧
      (∀ j, cut ≤ j → j < e → lt (val l' j) (val l' P) = false) ∧
      ∀ j, P < j → j < cut → lt (val l' P) (val l' j) = false := by
  intro fuel
  induction fuel with
  | zero => intros; omega
  | succ fuel ih =>
    intro l first last u he hP hfl hle hB hA hu1 hu2 hus hf
    obtain ⟨F, s1, s2, s3, s4, s5⟩ := scanUp_eq (lt := lt) (P := P) (u := u) (by omega) (by omega) hus (l.length + 1) first hu1
      (by omega)
    obtain ⟨last, rfl⟩ : ∃ k, last = k + 1 := ⟨last - 1, by omega⟩
    obtain ⟨E, d1, d2, d3, d4, d5⟩ := scanDown_eq hlt (P := P) last (by omega) (by omega : last < l.length)
    rw [unguardedPartition, s1, Res.bind_ok]
    simp only [retreat, Res.bind_ok, d1]
    by_cases hFE : F < E
    · rw [if_pos hFE, swapAt_val (by omega) (by omega), Res.bind_ok]
      change ∃ l' cut, unguardedPartition lt P fuel (swapped l F E) (F + 1) E = _ ∧ _
      have hlen : (swapped l F E).length = l.length := swapped_length
      have hvP : val (swapped l F E) P = val l P := by
        rw [val_swapped (by omega) (by omega), if_neg (by omega), if_neg (by omega)]
      have hvE : val (swapped l F E) E = val l F := by
        rw [val_swapped (by omega) (by omega), if_pos rfl]
      obtain ⟨l', cut, r1, r2, r3, r4, r5⟩ := ih (swapped l F E) (F + 1) E E (by omega) (by omega) (by omega) (by omega)
        (fun j j1 j2 => by
          rw [hvP]
          by_cases hj : j = E
          · subst hj; rw [hvE]; exact s4
          · rw [val_swapped (by omega) (by omega), if_neg (by omega), if_neg (by omega)]
            rcases Nat.lt_or_ge last j with h | h
            · exact hB j (by omega) j2
            · exact asymm hlt (d4 j (by omega) h))
        (fun j j1 j2 => by
          rw [hvP]
          by_cases hj : j = F
          · subst hj; rw [val_swapped (by omega) (by omega), if_neg (by omega), if_pos rfl]; exact d5
          · rw [val_swapped (by omega) (by omega), if_neg (by omega), if_neg (by omega)]
            rcases Nat.lt_or_ge j first with h | h
            · exact hA j j1 h
            · exact asymm hlt (s5 j h (by omega)))
        (by omega) (by omega) (by rw [hvP, hvE]; exact s4) (by omega)
      exact ⟨l', cut, r1, (Shuffle.swapped (by omega) (by omega) he).trans r2, r3, r4, r5⟩
    · rw [if_neg hFE]
      refine ⟨l, F, rfl, Shuffle.refl _ _ _, by omega, by omega, fun j j1 j2 => ?_, fun j j1 j2 => ?_⟩
      · by_cases hj : j = F
        · subst hj; exact s4
        · rcases Nat.lt_or_ge last j with h | h
          · exact hB j (by omega) j2
          · exact asymm hlt (d4 j (by omega) h)
      · rcases Nat.lt_or_ge j first with h | h
        · exact hA j j1 h
        · exact asymm hlt (s5 j h j2)

theorem moveMedian_eq {lt : Int → Int → Bool} (hlt : StrictWeak lt) {l : List Int} {f a b c e : Nat}
    (ha : f < a ∧ a < e) (hb : f < b ∧ b < e) (hc : f < c ∧ c < e) (hab : a ≠ b) (hac : a ≠ c) (hbc : b ≠ c)
    (he : e ≤ l.length) :
    ∃ l', moveMedianToFirst lt l f a b c = .ok l' ∧ Shuffle f e l l' ∧
      ∃ u, f < u ∧ u < e ∧ lt (val l' u) (val l' f) = false := by
  have step : ∀ m u, f < m → m < e → f < u → u < e → u ≠ m → lt (val l u) (val l m) = false →
      ∃ l', swapAt l f m = .ok l' ∧ Shuffle f e l l' ∧ ∃ u, f < u ∧ u < e ∧ lt (val l' u) (val l' f) = false := by
    intro m u m1 m2 u1 u2 hne h
    refine ⟨swapped l f m, swapAt_val (by omega) (by omega), Shuffle.swapped (by omega) (by omega) he, u, u1, u2, ?_⟩
    rw [val_swapped (by omega) (by omega), val_swapped (by omega) (by omega), if_neg (Ne.symm hne), if_neg (by omega),
      if_neg (by omega), if_pos rfl]
    exact h
  rw [moveMedianToFirst, lessAt_val (by omega) (by omega), Res.bind_ok]
  cases h1 : lt (val l a) (val l b) with
  | true =>
    rw [if_pos rfl, lessAt_val (by omega) (by omega), Res.bind_ok]
    cases h2 : lt (val l b) (val l c) with
    | true => rw [if_pos rfl]; exact step b c hb.1 hb.2 hc.1 hc.2 (Ne.symm hbc) (asymm hlt h2)
    | false =>
      rw [if_neg (by simp), lessAt_val (by omega) (by omega), Res.bind_ok]
      cases h3 : lt (val l a) (val l c) with
      | true => rw [if_pos rfl]; exact step c b hc.1 hc.2 hb.1 hb.2 hbc h2
      | false => rw [if_neg (by simp)]; exact step a b ha.1 ha.2 hb.1 hb.2 (Ne.symm hab) (asymm hlt h1)
  | false =>
    rw [if_neg (by simp), lessAt_val (by omega) (by omega), Res.bind_ok]
    cases h2 : lt (val l a) (val l c) with
    | true => rw [if_pos rfl]; exact step a c ha.1 ha.2 hc.1 hc.2 (Ne.symm hac) (asymm hlt h2)
    | false =>
      rw [if_neg (by simp), lessAt_val (by omega) (by omega), Res.bind_ok]
      cases h3 : lt (val l b) (val l c) with
      | true => rw [if_pos rfl]; exact step c a hc.1 hc.2 ha.1 ha.2 hac h2
      | false => rw [if_neg (by simp)]; exact step b a hb.1 hb.2 ha.1 ha.2 hab h1

theorem partitionPivot_eq {lt : Int → Int → Bool} (hlt : StrictWeak lt) {l : List Int} {f e : Nat}
    (he : e ≤ l.length) (hfe : f + 4 < e) :
    ∃ l' cut, partitionPivot lt l f e = .ok (l', cut) ∧ Shuffle f e l l' ∧ f < cut ∧ cut < e ∧
      (∀ j, cut ≤ j → j < e → lt (val l' j) (val l' f) = false) ∧
      ∀ j, f ≤ j → j < cut → lt (val l' f) (val l' j) = false := by
  obtain ⟨l1, h1, h2, u, h3, h4, h5⟩ := moveMedian_eq hlt (l := l) (f := f) (a := f + 1) (b := f + (e - f) / 2) (c := e - 1)
    (e := e) (by omega) (by omega) (by omega) (by omega) (by omega) (by omega) he
  have hl := h2.len
  obtain ⟨l', cut, g1, g2, g3, g4, g5, g6⟩ := unguardedPartition_eq hlt (P := f) (e := e) (l.length + 1) l1 (f + 1) e u
    (by omega) (by omega) (by omega) (by omega) (fun j _ _ => by omega) (fun j _ _ => by omega) (by omega) h4 h5 (by omega)
  exact ⟨l', cut, by rw [partitionPivot, h1, Res.bind_ok, g1], h2.trans (g2.mono (by omega) (Nat.le_refl _)), g3, g4, g5,
    fun j j1 j2 => if hj : j = f then hj ▸ hlt.irrefl _ else g6 j (by omega) j2⟩

/-! ### Heaps -/

/-- Every element of the range of `len` from `f` whose parent is at `top` or later is not greater than its parent. -/
def Heap (lt : Int → Int → Bool) (f len top : Nat) (w : List Int) : Prop :=
  ∀ i, 0 < i → i < len → top ≤ (i - 1) / 2 → lt (val w (f + (i - 1) / 2)) (val w (f + i)) = false

/-- A descendant in the implicit binary tree. -/
inductive Desc (top : Nat) : Nat → Prop
  | refl : Desc top top
  | left {h : Nat} : Desc top h → Desc top (2 * h + 1)
  | right {h : Nat} : Desc top h → Desc top (2 * h + 2)

theorem Desc.le {top h : Nat} (d : Desc top h) : top ≤ h := by
  induction d with
  | refl => exact Nat.le_refl _
  | left _ ih => omega
  | right _ ih => omega

theorem Desc.parent {top h : Nat} (d : Desc top h) (hne : h ≠ top) : Desc top ((h - 1) / 2) := by
  cases d with
  | refl => exact absurd rfl hne
  | @left k d => rwa [show (2 * k + 1 - 1) / 2 = k by omega]
  | @right k d => rwa [show (2 * k + 2 - 1) / 2 = k by omega]

/-- The heap except around the hole, while the hole moves down. -/
structure Sift (lt : Int → Int → Bool) (f len top : Nat) (w : List Int) (h : Nat) : Prop where
  desc : Desc top h
  bound : h < len
  away : ∀ i, 0 < i → i < len → top ≤ (i - 1) / 2 → i ≠ h → (i - 1) / 2 ≠ h →
    lt (val w (f + (i - 1) / 2)) (val w (f + i)) = false
  over : h ≠ top → ∀ i, 0 < i → i < len → (i - 1) / 2 = h → lt (val w (f + (h - 1) / 2)) (val w (f + i)) = false

theorem hole_swap {l : List Int} {a b : Nat} {v : Int} (ha : a < l.length) (hab : a ≠ b) :
    (l.set a (val l b)).set b v = swapped (l.set a v) a b := by
  rw [swapped, val_set ha, val_set ha, if_neg hab, if_pos rfl, List.set_set]

/-- Moving the hole to its greatest child. -/
theorem Sift.down {lt : Int → Int → Bool} {f len top : Nat} {w : List Int} {h c : Nat}
    (s : Sift lt f len top w h) (hw : f + len ≤ w.length) (hc0 : 0 < c) (hc : c < len) (hp : (c - 1) / 2 = h)
    (hbig : ∀ i, 0 < i → i < len → (i - 1) / 2 = h → i ≠ c → lt (val w (f + c)) (val w (f + i)) = false) :
    Sift lt f len top (swapped w (f + h) (f + c)) c := by
  have hle := s.desc.le
  have hlt := s.bound
  have hv : ∀ k, val (swapped w (f + h) (f + c)) (f + k) =
      if c = k then val w (f + h) else if h = k then val w (f + c) else val w (f + k) := by
    intro k
    rw [val_swapped (by omega) (by omega)]
    by_cases e1 : c = k
    · rw [if_pos (by omega), if_pos e1]
    · rw [if_neg (by omega), if_neg e1]
      by_cases e2 : h = k
      · rw [if_pos (by omega), if_pos e2]
      · rw [if_neg (by omega), if_neg e2]
  refine ⟨?_, hc, fun i i0 i1 i2 i3 i4 => ?_, fun _ i i0 i1 i2 => ?_⟩
  · rcases (by omega : c = 2 * h + 1 ∨ c = 2 * h + 2) with e | e
    · rw [e]; exact s.desc.left
    · rw [e]; exact s.desc.right
  · rw [hv, hv, if_neg (Ne.symm i4), if_neg (Ne.symm i3)]
    by_cases e1 : h = (i - 1) / 2
    · rw [if_pos e1, if_neg (by omega)]
      exact hbig i i0 i1 e1.symm i3
    · rw [if_neg e1]
      by_cases e2 : h = i
      · rw [if_pos e2]
        have := s.over (by omega) c hc0 hc hp
        rw [← e2]; exact this
      · rw [if_neg e2]
        exact s.away i i0 i1 i2 (Ne.symm e2) (Ne.symm e1)
  · rw [hv, hv, if_neg (by omega), if_pos (by omega), if_neg (by omega), if_neg (by omega)]
    have := s.away i i0 i1 (by omega) (by omega) (by omega)
    rw [i2] at this
    exact this

theorem siftDown_eq {lt : Int → Int → Bool} (hlt : StrictWeak lt) {f len top : Nat} {v : Int} :
    ∀ (fuel : Nat) (l : List Int) (h : Nat), f + len ≤ l.length → len - h < fuel →
    Sift lt f len top (l.set (f + h) v) h →
    ∃ l' h', siftDown lt f len fuel l h = .ok (l', h') ∧ l'.length = l.length ∧
      Shuffle f (f + len) (l.set (f + h) v) (l'.set (f + h') v) ∧ Sift lt f len top (l'.set (f + h') v) h' ∧
      len ≤ 2 * h' + 1 := by
  intro fuel
  induction fuel with
  | zero => intros; omega
  | succ fuel ih =>
    intro l h hl hf s
    have hlen := s.bound
    have step : ∀ c, c < len → (c - 1) / 2 = h → 0 < c →
        (∀ i, 0 < i → i < len → (i - 1) / 2 = h → i ≠ c → lt (val l (f + c)) (val l (f + i)) = false) →
        Sift lt f len top ((l.set (f + h) (val l (f + c))).set (f + c) v) c ∧
        Shuffle f (f + len) (l.set (f + h) v) ((l.set (f + h) (val l (f + c))).set (f + c) v) := by
      intro c c1 c2 c3 hb
      rw [hole_swap (by omega) (by omega)]
      refine ⟨s.down (by simpa using hl) c3 c1 c2 (fun i i0 i1 i2 i3 => ?_),
        Shuffle.swapped (by omega) (by omega) (by simpa using hl)⟩
      rw [val_set (by omega), val_set (by omega), if_neg (by omega), if_neg (by omega)]
      exact hb i i0 i1 i2 i3
    rw [siftDown]
    by_cases h1 : h < (len - 1) / 2
    · rw [if_pos h1, lessAt_val (by omega) (by omega), Res.bind_ok]
      obtain ⟨c, hc, hcases⟩ : ∃ c, (if lt (val l (f + 2 * (h + 1))) (val l (f + (2 * (h + 1) - 1))) = true then 2 * (h + 1) - 1
          else 2 * (h + 1)) = c ∧ ((c = 2 * (h + 1) - 1 ∧ lt (val l (f + 2 * (h + 1))) (val l (f + (2 * (h + 1) - 1))) = true) ∨
            (c = 2 * (h + 1) ∧ lt (val l (f + 2 * (h + 1))) (val l (f + (2 * (h + 1) - 1))) = false)) := by
        refine ⟨_, rfl, ?_⟩
        cases lt (val l (f + 2 * (h + 1))) (val l (f + (2 * (h + 1) - 1))) <;> simp
      simp only [hc]
      have hcb : c = 2 * (h + 1) - 1 ∨ c = 2 * (h + 1) := by rcases hcases with ⟨a, _⟩ | ⟨a, _⟩ <;> simp [a]
      rw [rd_val (by omega), Res.bind_ok, wr_ok (by omega), Res.bind_ok]
      obtain ⟨g1, g2⟩ := step c (by omega) (by omega) (by omega) (fun i i0 i1 i2 i3 => by
        rcases hcases with ⟨a, b⟩ | ⟨a, b⟩
        · have : i = 2 * (h + 1) := by omega
          rw [this, a]; exact asymm hlt b
        · have : i = 2 * (h + 1) - 1 := by omega
          rw [this, a]; exact b)
      obtain ⟨l', h', r1, r2, r3, r4, r5⟩ := ih (l.set (f + h) (val l (f + c))) c (by simpa using hl) (by omega) g1
      exact ⟨l', h', r1, by simpa using r2, g2.trans r3, r4, r5⟩
    · rw [if_neg h1]
      by_cases h2 : len % 2 = 0 ∧ h = (len - 2) / 2
      · rw [if_pos h2, rd_val (by omega), Res.bind_ok, wr_ok (by omega), Res.bind_ok]
        obtain ⟨g1, g2⟩ := step (2 * (h + 1) - 1) (by omega) (by omega) (by omega) (fun i i0 i1 i2 i3 => by omega)
        exact ⟨_, _, rfl, by simp, g2, g1, by omega⟩
      · rw [if_neg h2]
        exact ⟨l, h, rfl, rfl, Shuffle.refl _ _ _, s, by omega⟩

theorem pushHeap_eq {lt : Int → Int → Bool} (hlt : StrictWeak lt) {f len top : Nat} {v : Int} :
    ∀ (fuel : Nat) (l : List Int) (h : Nat), f + len ≤ l.length → h < fuel →
    Sift lt f len top (l.set (f + h) v) h →
    (∀ i, 0 < i → i < len → (i - 1) / 2 = h → lt v (val l (f + i)) = false) →
    ∃ l', pushHeap lt f top v fuel l h = .ok l' ∧ Shuffle f (f + len) (l.set (f + h) v) l' ∧ Heap lt f len top l' := by
  intro fuel
  induction fuel with
  | zero => intros; omega
  | succ fuel ih =>
    intro l h hl hf s h4
    have hlen := s.bound
    have hle := s.desc.le
    have hval : ∀ k, val (l.set (f + h) v) (f + k) = if h = k then v else val l (f + k) := by
      intro k
      rw [val_set (by omega)]
      by_cases e : h = k
      · rw [if_pos (by omega), if_pos e]
      · rw [if_neg (by omega), if_neg e]
    have stop : (h ≠ top → lt (val l (f + (h - 1) / 2)) v = false) → Heap lt f len top (l.set (f + h) v) := by
      intro hs i i0 i1 i2
      by_cases e1 : h = i
      · subst e1
        rw [hval, hval, if_pos rfl, if_neg (by omega)]
        exact hs (by omega)
      · by_cases e2 : h = (i - 1) / 2
        · rw [hval, hval, if_pos e2, if_neg e1]
          exact h4 i i0 i1 e2.symm
        · exact s.away i i0 i1 i2 (Ne.symm e1) (Ne.symm e2)
    rw [pushHeap]
    by_cases h1 : h > top
    · rw [if_pos h1, rd_val (by omega), Res.bind_ok]
      cases hx : lt (val l (f + (h - 1) / 2)) v with
      | false =>
        rw [if_neg (by simp), wr_ok (by omega)]
        exact ⟨_, rfl, Shuffle.refl _ _ _, stop (fun _ => hx)⟩
      | true =>
        rw [if_pos rfl, wr_ok (by omega), Res.bind_ok]
        obtain ⟨p, hp⟩ : ∃ p, (h - 1) / 2 = p := ⟨_, rfl⟩
        rw [hp] at hx ⊢
        have hd : Desc top p := hp ▸ s.desc.parent (by omega)
        have hdle := hd.le
        have hsw : (l.set (f + h) (val l (f + p))).set (f + p) v = swapped (l.set (f + h) v) (f + h) (f + p) :=
          hole_swap (by omega) (by omega)
        have hv : ∀ k, val ((l.set (f + h) (val l (f + p))).set (f + p) v) (f + k) =
            if p = k then v else if h = k then val l (f + p) else val l (f + k) := by
          intro k
          rw [val_set (by simp; omega), val_set (by omega)]
          by_cases e1 : p = k
          · rw [if_pos (by omega), if_pos e1]
          · rw [if_neg (by omega), if_neg e1]
            by_cases e2 : h = k
            · rw [if_pos (by omega), if_pos e2]
            · rw [if_neg (by omega), if_neg e2]
        have away' : ∀ i, 0 < i → i < len → top ≤ (i - 1) / 2 → i ≠ h → (i - 1) / 2 ≠ h →
            lt (val l (f + (i - 1) / 2)) (val l (f + i)) = false := by
          intro i i0 i1 i2 i3 i4
          have := s.away i i0 i1 i2 i3 i4
          rw [hval, hval, if_neg (Ne.symm i4), if_neg (Ne.symm i3)] at this
          exact this
        have hbelow : ∀ i, 0 < i → i < len → (i - 1) / 2 = p → i ≠ h → lt (val l (f + p)) (val l (f + i)) = false := by
          intro i i0 i1 i2 i3
          have := away' i i0 i1 (by omega) i3 (by omega)
          rw [i2] at this
          exact this
        have s' : Sift lt f len top ((l.set (f + h) (val l (f + p))).set (f + p) v) p := by
          refine ⟨hd, by omega, fun i i0 i1 i2 i3 i4 => ?_, fun hne i i0 i1 i2 => ?_⟩
          · rw [hv, hv, if_neg (Ne.symm i4), if_neg (Ne.symm i3)]
            have hih : i ≠ h := by rintro rfl; exact i4 hp
            rw [if_neg (Ne.symm hih)]
            by_cases e1 : h = (i - 1) / 2
            · rw [if_pos e1]
              have := s.over (by omega) i i0 i1 e1.symm
              rw [hval, hval, if_neg (by omega), if_neg (Ne.symm hih), hp] at this
              exact this
            · rw [if_neg e1]
              exact away' i i0 i1 i2 hih (Ne.symm e1)
          · rw [hv, hv, if_neg (by omega), if_neg (by omega), if_neg (by omega)]
            have hdp := (hd.parent hne).le
            have up := away' p (by omega) (by omega) hdp (by omega) (by omega)
            by_cases e1 : h = i
            · rw [if_pos e1]; exact up
            · rw [if_neg e1]
              exact le_trans hlt (hbelow i i0 i1 i2 (Ne.symm e1)) up
        obtain ⟨l', r1, r2, r3⟩ := ih (l.set (f + h) (val l (f + p))) p (by simpa using hl) (by omega) s'
          (fun i i0 i1 i2 => by
            rw [val_set (by omega)]
            by_cases e1 : h = i
            · rw [if_pos (by omega)]; exact asymm hlt hx
            · rw [if_neg (by omega)]
              cases hvi : lt v (val l (f + i)) with
              | false => rfl
              | true =>
                have := hlt.trans _ _ _ hx hvi
                rw [hbelow i i0 i1 i2 (Ne.symm e1)] at this
                cases this)
        refine ⟨l', r1, Shuffle.trans ?_ r2, r3⟩
        rw [hsw]
        exact Shuffle.swapped (by omega) (by omega) (by simpa using hl)
    · rw [if_neg h1, wr_ok (by omega)]
      exact ⟨_, rfl, Shuffle.refl _ _ _, stop (fun hne => by omega)⟩

theorem adjustHeap_eq {lt : Int → Int → Bool} (hlt : StrictWeak lt) {f len top : Nat} {v : Int} {l : List Int}
    (hl : f + len ≤ l.length) (ht : top < len) (hh : Heap lt f len (top + 1) (l.set (f + top) v)) :
    ∃ l', adjustHeap lt f top len v l = .ok l' ∧ Shuffle f (f + len) (l.set (f + top) v) l' ∧ Heap lt f len top l' := by
  obtain ⟨l1, h, r1, r2, r3, r4, r5⟩ := siftDown_eq hlt (top := top) (v := v) (len + 1) l top hl (by omega)
    ⟨.refl, ht, fun i i0 i1 i2 i3 i4 => hh i i0 i1 (by omega), fun h => absurd rfl h⟩
  have hlt' := r4.bound
  obtain ⟨l', g1, g2, g3⟩ := pushHeap_eq hlt (len + 1) l1 h (by omega) (by omega) r4 (fun i i0 i1 i2 => by omega)
  exact ⟨l', by rw [adjustHeap, r1, Res.bind_ok]; exact g1, r3.trans g2, g3⟩

theorem set_val_self {l : List Int} {i : Nat} (h : i < l.length) : l.set i (val l i) = l := by
  apply List.ext_getElem? ; intro j
  rw [List.getElem?_set]
  by_cases e : i = j
  · subst e; simp [val, List.getD, h]
  · rw [if_neg e]

theorem makeHeapLoop_eq {lt : Int → Int → Bool} (hlt : StrictWeak lt) {f len : Nat} : ∀ (p : Nat) (l : List Int),
    f + len ≤ l.length → p < len → Heap lt f len (p + 1) l →
    ∃ l', makeHeapLoop lt f len p l = .ok l' ∧ Shuffle f (f + len) l l' ∧ Heap lt f len 0 l' := by
  intro p
  induction p with
  | zero =>
    intro l hl hp hh
    obtain ⟨l', r1, r2, r3⟩ := adjustHeap_eq hlt (v := val l (f + 0)) hl hp (by rwa [set_val_self (by omega)])
    rw [set_val_self (by omega)] at r2
    exact ⟨l', by rw [makeHeapLoop, rd_val (by omega), Res.bind_ok, r1], r2, r3⟩
  | succ p ih =>
    intro l hl hp hh
    obtain ⟨l1, r1, r2, r3⟩ := adjustHeap_eq hlt (v := val l (f + (p + 1))) hl hp (by rwa [set_val_self (by omega)])
    rw [set_val_self (by omega)] at r2
    obtain ⟨l', g1, g2, g3⟩ := ih l1 (by rw [r2.len]; exact hl) (by omega) r3
    exact ⟨l', by rw [makeHeapLoop, rd_val (by omega), Res.bind_ok, r1, Res.bind_ok, g1], r2.trans g2, g3⟩

theorem makeHeap_eq {lt : Int → Int → Bool} (hlt : StrictWeak lt) {f len : Nat} {l : List Int} (hl : f + len ≤ l.length) :
    ∃ l', makeHeap lt f len l = .ok l' ∧ Shuffle f (f + len) l l' ∧ Heap lt f len 0 l' := by
  rw [makeHeap]
  by_cases h : len < 2
  · rw [if_pos h]
    exact ⟨l, rfl, Shuffle.refl _ _ _, fun i i0 i1 _ => by omega⟩
  · rw [if_neg h]
    exact makeHeapLoop_eq hlt _ l hl (by omega) (fun i i0 i1 i2 => by omega)

/-- The root is a greatest element. -/
theorem Heap.root {lt : Int → Int → Bool} (hlt : StrictWeak lt) {f len : Nat} {w : List Int} (h : Heap lt f len 0 w) :
    ∀ i, i < len → lt (val w f) (val w (f + i)) = false := by
  intro i
  induction i using Nat.strongRecOn with
  | ind i ih =>
    intro hi
    by_cases e : i = 0
    · subst e; exact hlt.irrefl _
    · exact le_trans hlt (h i (by omega) hi (by omega)) (ih ((i - 1) / 2) (by omega) (by omega))

theorem sortHeap_eq {lt : Int → Int → Bool} (hlt : StrictWeak lt) {f : Nat} : ∀ (n : Nat) (l : List Int),
    f + n ≤ l.length → Heap lt f n 0 l →
    ∃ l', sortHeap lt f n l = .ok l' ∧ Shuffle f (f + n) l l' ∧
      ∀ i j, i ≤ j → j < n → lt (val l' (f + j)) (val l' (f + i)) = false := by
  intro n
  induction n with
  | zero => intro l _ _; exact ⟨l, by rw [sortHeap]; rfl, Shuffle.refl _ _ _, fun i j _ h => by omega⟩
  | succ n ih =>
    cases n with
    | zero =>
      intro l _ _
      exact ⟨l, by rw [sortHeap]; rfl, Shuffle.refl _ _ _, fun i j hij h => by
        obtain rfl : j = i := by omega
        exact hlt.irrefl _⟩
    | succ n =>
      intro l hl hh
      have hroot := hh.root hlt
      have hsw : (l.set (f + (n + 1)) (val l f)).set f (val l (f + (n + 1))) = swapped l (f + (n + 1)) f := rfl
      have hshuf : Shuffle f (f + (n + 2)) l (swapped l (f + (n + 1)) f) :=
        Shuffle.swapped (by omega) (by omega) hl
      obtain ⟨l2, r1, r2, r3⟩ := adjustHeap_eq hlt (f := f) (len := n + 1) (top := 0) (v := val l (f + (n + 1)))
        (l := l.set (f + (n + 1)) (val l f)) (by simp; omega) (by omega) (by
          intro i i0 i1 i2
          rw [show f + 0 = f from rfl, hsw, val_swapped (by omega) (by omega), val_swapped (by omega) (by omega),
            if_neg (by omega), if_neg (by omega), if_neg (by omega), if_neg (by omega)]
          exact hh i i0 (by omega) (by omega))
      rw [show f + 0 = f from rfl, hsw] at r2
      have hl2 : l2.length = l.length := by rw [r2.len, swapped_length]
      obtain ⟨l', g1, g2, g3⟩ := ih l2 (by omega) r3
      have hall := hshuf.trans ((r2.trans g2).mono (Nat.le_refl _) (by omega))
      refine ⟨l', ?_, hall, fun i j hij hj => ?_⟩
      · rw [sortHeap, rd_val (by omega), Res.bind_ok, rd_val (by omega), Res.bind_ok, wr_ok (by omega), Res.bind_ok, r1,
          Res.bind_ok, g1]
      · by_cases e : j = n + 1
        · have : val l' (f + j) = val l f := by
            rw [(r2.trans g2).out (f + j) (by omega), val_swapped (by omega) (by omega), if_neg (by omega), if_pos (by omega)]
          rw [this]
          obtain ⟨k, k1, k2, k3⟩ := hall.inn (f + i) (by omega) (by omega)
          rw [k3, show k = f + (k - f) by omega]
          exact hroot (k - f) (by omega)
        · exact g3 i j hij (by omega)

theorem partialSort_eq {lt : Int → Int → Bool} (hlt : StrictWeak lt) {f e : Nat} {l : List Int} (hfe : f < e)
    (hl : e ≤ l.length) :
    ∃ l', partialSort lt l f e = .ok l' ∧ Shuffle f e l l' ∧
      ∀ i j, f ≤ i → i ≤ j → j < e → lt (val l' j) (val l' i) = false := by
  obtain ⟨l1, r1, r2, r3⟩ := makeHeap_eq hlt (f := f) (len := e - f) (l := l) (by omega)
  have := r2.len
  obtain ⟨l', g1, g2, g3⟩ := sortHeap_eq hlt (f := f) (e - f) l1 (by omega) r3
  have hs := r2.trans g2
  rw [show f + (e - f) = e by omega] at hs
  refine ⟨l', by rw [partialSort, r1, Res.bind_ok, g1], hs, fun i j i1 i2 j2 => ?_⟩
  have := g3 (i - f) (j - f) (by omega) (by omega)
  rwa [show f + (i - f) = i by omega, show f + (j - f) = j by omega] at this

/-! ### The main loop -/

theorem exists_min {lt : Int → Int → Bool} (hlt : StrictWeak lt) (l : List Int) (f : Nat) : ∀ n, 
    ∃ k, f ≤ k ∧ k < f + (n + 1) ∧ ∀ j, f ≤ j → j < f + (n + 1) → lt (val l j) (val l k) = false := by
  intro n
  induction n with
  | zero => exact ⟨f, Nat.le_refl _, by omega, fun j j1 j2 => by
      obtain rfl : j = f := by omega
      exact hlt.irrefl _⟩
  | succ n ih =>
    obtain ⟨k, k1, k2, k3⟩ := ih
    cases hc : lt (val l (f + (n + 1))) (val l k) with
    | false =>
      refine ⟨k, k1, by omega, fun j j1 j2 => ?_⟩
      by_cases e : j = f + (n + 1)
      · subst e; exact hc
      · exact k3 j j1 (by omega)
    | true =>
      refine ⟨f + (n + 1), by omega, by omega, fun j j1 j2 => ?_⟩
      by_cases e : j = f + (n + 1)
      · subst e; exact hlt.irrefl _
      · exact le_trans hlt (asymm hlt hc) (k3 j j1 (by omega))

theorem introsortLoop_eq {lt : Int → Int → Bool} (hlt : StrictWeak lt) : ∀ (fuel : Nat) (l : List Int) (f e depth : Nat),
    f < e → e ≤ l.length → e - f < fuel →
    ∃ l', introsortLoop lt fuel l f e depth = .ok l' ∧ Shuffle f e l l' ∧
      (∃ k, f ≤ k ∧ k < e ∧ k < f + 16 ∧ ∀ j, f ≤ j → j < e → lt (val l' j) (val l' k) = false) ∧
      ∀ i j, f ≤ i → i + 16 ≤ j → j < e → lt (val l' j) (val l' i) = false := by
  intro fuel
  induction fuel with
  | zero => intros; omega
  | succ fuel ih =>
    intro l f e depth hfe he hf
    rw [introsortLoop.eq_def]
    simp only
    by_cases h16 : e - f > 16
    · rw [if_pos h16]
      cases depth with
      | zero =>
        obtain ⟨l', r1, r2, r3⟩ := partialSort_eq hlt hfe he
        exact ⟨l', r1, r2, ⟨f, Nat.le_refl _, hfe, by omega, fun j j1 j2 => r3 f j (Nat.le_refl _) j1 j2⟩,
          fun i j i1 i2 j2 => r3 i j i1 (by omega) j2⟩
      | succ depth =>
        obtain ⟨l1, cut, r1, r2, r3, r4, r5, r6⟩ := partitionPivot_eq hlt he (by omega : f + 4 < e)
        have hl1 := r2.len
        obtain ⟨l2, s1, s2, -, s3⟩ := ih l1 cut e depth r4 (by omega) (by omega)
        have hl2 := s2.len
        obtain ⟨l3, t1, t2, ⟨k, t3, t4, t5, t6⟩, t7⟩ := ih l2 f cut depth r3 (by omega) (by omega)
        refine ⟨l3, ?_, (r2.trans (s2.mono (by omega) (Nat.le_refl _))).trans (t2.mono (Nat.le_refl _) (by omega)), ⟨k, t3,
          by omega, t5, fun j j1 j2 => ?_⟩, fun i j i1 i2 j2 => ?_⟩
        · simp only [r1, Res.bind_ok, s1, t1]
        · rcases Nat.lt_or_ge j cut with hj | hj
          · exact t6 j j1 hj
          · -- the pivot is at `f`, and what is from the cut on is not less
            obtain ⟨i, i1, i2, i3⟩ := s2.inn j hj j2
            have e1 : val l3 j = val l1 i := by rw [t2.out j (by omega), i3]
            obtain ⟨m, m1, m2, m3⟩ := t2.onto f (Nat.le_refl _) r3
            have e2 : val l3 m = val l1 f := by rw [m3, s2.out f (by omega)]
            have a := r5 i i1 i2
            have b := t6 m m1 m2
            rw [e2] at b
            rw [e1]
            exact le_trans hlt b a
        · rcases Nat.lt_or_ge j cut with hj | hj
          · exact t7 i j i1 i2 hj
          · rcases Nat.lt_or_ge i cut with hi | hi
            · obtain ⟨j', a1, a2, a3⟩ := s2.inn j hj j2
              obtain ⟨i', b1, b2, b3⟩ := t2.inn i i1 hi
              rw [t2.out j (by omega), a3, b3, s2.out i' (by omega)]
              exact le_trans hlt (r6 i' b1 b2) (r5 j' a1 a2)
            · rw [t2.out j (by omega), t2.out i (by omega)]
              exact s3 i j hi i2 j2
    · rw [if_neg h16]
      obtain ⟨k, k1, k2, k3⟩ := exists_min hlt l f (e - f - 1)
      exact ⟨l, rfl, Shuffle.refl _ _ _, ⟨k, k1, by omega, by omega, fun j j1 j2 => k3 j j1 (by omega)⟩,
        fun i j _ _ _ => by omega⟩

theorem stdSort_eq {lt : Int → Int → Bool} (hlt : StrictWeak lt) (l : List Int) :
    ∃ r, stdSort lt l = .ok r ∧ r.Perm l ∧ Ordered lt r := by
  rw [stdSort]
  by_cases h : l.length = 0
  · rw [if_pos h]
    obtain rfl := List.length_eq_zero_iff.mp h
    exact ⟨[], rfl, .refl _, .nil⟩
  · rw [if_neg h]
    obtain ⟨l1, r1, r2, ⟨k, r3, r4, r5, r6⟩, -⟩ := introsortLoop_eq hlt (l.length + 1) l 0 l.length (l.length.log2 * 2) (by omega)
      (Nat.le_refl _) (by omega)
    obtain ⟨r, g1, g2, g3⟩ := finalInsertionSort_eq hlt l1 (fun _ => ⟨k, by omega, fun j hj =>
      r6 j (by omega) (by rw [← r2.len]; exact hj)⟩)
    exact ⟨r, by rw [r1, Res.bind_ok, g1], g3.1.trans r2.perm, g2⟩

theorem stdSort_short {lt : Int → Int → Bool} (hlt : StrictWeak lt) (l : List Int) (hl : l.length ≤ 16) :
    ∃ r, stdSort lt l = .ok r ∧ Ordered lt r ∧ Stably lt l r := by
  rw [stdSort]
  by_cases h : l.length = 0
  · rw [if_pos h]
    obtain rfl := List.length_eq_zero_iff.mp h
    exact ⟨[], rfl, .nil, Stably.refl _ _⟩
  · rw [if_neg h, introsortLoop.eq_def]
    simp only
    rw [if_neg (by omega)]
    show ∃ r, finalInsertionSort lt l = _ ∧ _
    obtain ⟨r, g1, g2, g3⟩ := finalInsertionSort_eq hlt l (fun h => by omega)
    exact ⟨r, g1, g2, g3⟩

end U5e.StdSort
