import Verif.Model.SortLog
import Verif.Proofs.StdSort
/-! The record of comparisons: forgetting it gives `std::sort` back, and how long it is. -/
namespace U5e.SortLog
open U5e Spec

/-! ### Erasure -/

theorem res_bind {α β : Type} {x : Log α} {f : α → Log β} : (x >>= f).res = (x.res >>= fun a => (f a).res) := by
  show (Log.bind x f).res = _
  unfold Log.bind
  cases x.res <;> rfl

theorem res_pure {α : Type} (a : α) : (pure a : Log α).res = pure a := rfl
theorem res_free {α : Type} (r : Res α) : (Log.free r).res = r := rfl
theorem res_ite {α : Type} {c : Prop} [Decidable c] {x y : Log α} : (if c then x else y).res = if c then x.res else y.res := by
  split <;> rfl
theorem res_compare (lt : Int → Int → Bool) (a b : Int) : (compare lt a b).res = .ok (lt a b) := rfl

variable (lt : Int → Int → Bool)

theorem lessAt_res (l : List Int) (i j : Nat) : (lessAt lt l i j).res = StdSort.lessAt lt l i j := by
  simp only [lessAt, StdSort.lessAt, res_bind, res_free, res_compare, Res.pure_eq]

theorem swapAt_res (l : List Int) (i j : Nat) : (swapAt l i j).res = StdSort.swapAt l i j := by
  simp only [swapAt, StdSort.swapAt, res_bind, res_free]

theorem linearInsert_res (v : Int) : ∀ (k : Nat) (l : List Int), (linearInsert lt v l k).res = StdSort.linearInsert lt v l k := by
  intro k
  induction k with
  | zero => intro l; rfl
  | succ k ih =>
    intro l
    simp only [linearInsert, StdSort.linearInsert, res_bind, res_free, res_compare, res_ite, ih, Res.bind_ok]

theorem unguardedLinearInsert_res (l : List Int) (k : Nat) :
    (unguardedLinearInsert lt l k).res = StdSort.unguardedLinearInsert lt l k := by
  simp only [unguardedLinearInsert, StdSort.unguardedLinearInsert, res_bind, res_free, linearInsert_res]

theorem moveBackward_res : ∀ (k : Nat) (l : List Int), (moveBackward l k).res = StdSort.moveBackward l k := by
  intro k
  induction k with
  | zero => intro l; rfl
  | succ k ih => intro l; simp only [moveBackward, StdSort.moveBackward, res_bind, res_free, ih]

theorem insertionRound_res (l : List Int) (i : Nat) : (insertionRound lt l i).res = StdSort.insertionRound lt l i := by
  simp only [insertionRound, StdSort.insertionRound, res_bind, res_free, res_ite, lessAt_res, moveBackward_res,
    unguardedLinearInsert_res]

theorem insertionLoop_res : ∀ (n : Nat) (l : List Int) (i : Nat),
    (insertionLoop lt n l i).res = StdSort.insertionLoop lt n l i := by
  intro n
  induction n with
  | zero => intros; rfl
  | succ n ih => intros; simp only [insertionLoop, StdSort.insertionLoop, res_bind, insertionRound_res, ih]

theorem insertionSort_res (l : List Int) (n : Nat) : (insertionSort lt l n).res = StdSort.insertionSort lt l n := by
  simp only [insertionSort, StdSort.insertionSort, res_ite, insertionLoop_res, res_pure]

theorem unguardedInsertionSort_res : ∀ (n : Nat) (l : List Int) (i : Nat),
    (unguardedInsertionSort lt n l i).res = StdSort.unguardedInsertionSort lt n l i := by
  intro n
  induction n with
  | zero => intros; rfl
  | succ n ih =>
    intros
    simp only [unguardedInsertionSort, StdSort.unguardedInsertionSort, res_bind, unguardedLinearInsert_res, ih]

theorem finalInsertionSort_res (l : List Int) : (finalInsertionSort lt l).res = StdSort.finalInsertionSort lt l := by
  simp only [finalInsertionSort, StdSort.finalInsertionSort, res_ite, res_bind, insertionSort_res, unguardedInsertionSort_res]

theorem moveMedianToFirst_res (l : List Int) (r a b c : Nat) :
    (moveMedianToFirst lt l r a b c).res = StdSort.moveMedianToFirst lt l r a b c := by
  simp only [moveMedianToFirst, StdSort.moveMedianToFirst, res_bind, res_ite, lessAt_res, swapAt_res]

theorem scanUp_res (l : List Int) (p : Nat) : ∀ (n first : Nat),
    (scanUp lt l p n first).res = StdSort.scanUp lt l p n first := by
  intro n
  induction n with
  | zero => intros; rfl
  | succ n ih => intros; simp only [scanUp, StdSort.scanUp, res_bind, res_ite, res_pure, lessAt_res, ih]

theorem scanDown_res (l : List Int) (p : Nat) : ∀ (last : Nat), (scanDown lt l p last).res = StdSort.scanDown lt l p last := by
  intro n
  induction n with
  | zero => simp only [scanDown, StdSort.scanDown, res_bind, res_ite, res_pure, res_free, lessAt_res]
  | succ n ih => simp only [scanDown, StdSort.scanDown, res_bind, res_ite, res_pure, lessAt_res, ih]

theorem unguardedPartition_res (p : Nat) : ∀ (n : Nat) (l : List Int) (first last : Nat),
    (unguardedPartition lt p n l first last).res = StdSort.unguardedPartition lt p n l first last := by
  intro n
  induction n with
  | zero => intros; rfl
  | succ n ih =>
    intros
    simp only [unguardedPartition, StdSort.unguardedPartition, res_bind, res_ite, res_pure, res_free, scanUp_res, scanDown_res,
      swapAt_res, ih]

theorem partitionPivot_res (l : List Int) (first last : Nat) :
    (partitionPivot lt l first last).res = StdSort.partitionPivot lt l first last := by
  simp only [partitionPivot, StdSort.partitionPivot, res_bind, moveMedianToFirst_res, unguardedPartition_res]

theorem pushHeap_res (f top : Nat) (v : Int) : ∀ (n : Nat) (l : List Int) (h : Nat),
    (pushHeap lt f top v n l h).res = StdSort.pushHeap lt f top v n l h := by
  intro n
  induction n with
  | zero => intros; rfl
  | succ n ih =>
    intros
    simp only [pushHeap, StdSort.pushHeap, res_bind, res_ite, res_free, res_compare, Res.bind_ok, ih]

theorem siftDown_res (f len : Nat) : ∀ (n : Nat) (l : List Int) (h : Nat),
    (siftDown lt f len n l h).res = StdSort.siftDown lt f len n l h := by
  intro n
  induction n with
  | zero => intros; rfl
  | succ n ih =>
    intros
    simp only [siftDown, StdSort.siftDown, res_bind, res_ite, res_free, res_pure, lessAt_res, ih]

theorem adjustHeap_res (f h len : Nat) (v : Int) (l : List Int) :
    (adjustHeap lt f h len v l).res = StdSort.adjustHeap lt f h len v l := by
  simp only [adjustHeap, StdSort.adjustHeap, res_bind, siftDown_res, pushHeap_res]

theorem makeHeapLoop_res (f len : Nat) : ∀ (p : Nat) (l : List Int),
    (makeHeapLoop lt f len p l).res = StdSort.makeHeapLoop lt f len p l := by
  intro p
  induction p with
  | zero => intros; simp only [makeHeapLoop, StdSort.makeHeapLoop, res_bind, res_free, adjustHeap_res]
  | succ p ih => intros; simp only [makeHeapLoop, StdSort.makeHeapLoop, res_bind, res_free, adjustHeap_res, ih]

theorem makeHeap_res (f len : Nat) (l : List Int) : (makeHeap lt f len l).res = StdSort.makeHeap lt f len l := by
  simp only [makeHeap, StdSort.makeHeap, res_ite, res_pure, makeHeapLoop_res]

theorem sortHeap_res (f : Nat) : ∀ (n : Nat) (l : List Int), (sortHeap lt f n l).res = StdSort.sortHeap lt f n l := by
  intro n
  induction n with
  | zero => intros; simp only [sortHeap, StdSort.sortHeap, res_pure]
  | succ n ih =>
    cases n with
    | zero => intros; simp only [sortHeap, StdSort.sortHeap, res_pure]
    | succ n => intros; simp only [sortHeap, StdSort.sortHeap, res_bind, res_free, adjustHeap_res, ih]

theorem partialSort_res (l : List Int) (f e : Nat) : (partialSort lt l f e).res = StdSort.partialSort lt l f e := by
  simp only [partialSort, StdSort.partialSort, res_bind, makeHeap_res, sortHeap_res]

theorem introsortLoop_res : ∀ (n : Nat) (l : List Int) (f e d : Nat),
    (introsortLoop lt n l f e d).res = StdSort.introsortLoop lt n l f e d := by
  intro n
  induction n with
  | zero => intros; rfl
  | succ n ih =>
    intro l f e d
    rw [introsortLoop.eq_def, StdSort.introsortLoop.eq_def]
    cases d with
    | zero => simp only [res_ite, res_pure, partialSort_res]
    | succ d => simp only [res_ite, res_pure, res_bind, partitionPivot_res, ih]

theorem stdSort_res (l : List Int) : (stdSort lt l).res = StdSort.stdSort lt l := by
  simp only [stdSort, StdSort.stdSort, res_ite, res_pure, res_bind, introsortLoop_res, finalInsertionSort_res]

/-! ### Counting -/

/-- It ends with `a` after `k` comparisons. -/
def Runs {α : Type} (x : Log α) (a : α) (k : Nat) : Prop := x.res = .ok a ∧ x.pairs.length = k

theorem runs_bind {α β : Type} {x : Log α} {f : α → Log β} {b : β} {k : Nat} :
    Runs (x >>= f) b k ↔ ∃ a k1 k2, Runs x a k1 ∧ Runs (f a) b k2 ∧ k = k1 + k2 := by
  show (Log.bind x f).res = _ ∧ (Log.bind x f).pairs.length = _ ↔ _
  unfold Log.bind Runs
  cases hx : x.res with
  | ok a =>
    simp only [List.length_append]
    constructor
    · rintro ⟨h1, h2⟩; exact ⟨a, _, _, ⟨rfl, rfl⟩, ⟨h1, rfl⟩, h2.symm⟩
    · rintro ⟨a', k1, k2, ⟨h1, h2⟩, ⟨h3, h4⟩, h5⟩
      cases h1
      exact ⟨h3, by omega⟩
  | ub => simp
  | tmo => simp

theorem runs_pure {α : Type} {a b : α} {k : Nat} : Runs (pure a : Log α) b k ↔ a = b ∧ k = 0 := by
  unfold Runs
  constructor
  · rintro ⟨h1, h2⟩; cases h1; exact ⟨rfl, h2.symm⟩
  · rintro ⟨rfl, rfl⟩; exact ⟨rfl, rfl⟩

theorem runs_free {α : Type} {r : Res α} {b : α} {k : Nat} : Runs (Log.free r) b k ↔ r = .ok b ∧ k = 0 := by
  unfold Runs
  constructor
  · rintro ⟨h1, h2⟩; exact ⟨h1, h2.symm⟩
  · rintro ⟨h1, rfl⟩; exact ⟨h1, rfl⟩

theorem runs_compare {a b : Int} {c : Bool} {k : Nat} : Runs (compare lt a b) c k ↔ lt a b = c ∧ k = 1 := by
  unfold Runs
  constructor
  · rintro ⟨h1, h2⟩; cases h1; exact ⟨rfl, h2.symm⟩
  · rintro ⟨rfl, rfl⟩; exact ⟨rfl, rfl⟩

theorem runs_lessAt {l : List Int} {i j : Nat} {c : Bool} {k : Nat} (h : Runs (lessAt lt l i j) c k) : k = 1 := by
  simp only [lessAt, runs_bind, runs_free, runs_compare] at h
  obtain ⟨_, _, _, ⟨_, rfl⟩, ⟨_, _, _, ⟨_, rfl⟩, ⟨_, rfl⟩, rfl⟩, rfl⟩ := h
  rfl

theorem runs_swapAt {l r : List Int} {i j : Nat} {k : Nat} (h : Runs (swapAt l i j) r k) : k = 0 := by
  simp only [swapAt, runs_bind, runs_free] at h
  obtain ⟨_, _, _, ⟨_, rfl⟩, ⟨_, _, _, ⟨_, rfl⟩, ⟨_, _, _, ⟨_, rfl⟩, ⟨_, rfl⟩, rfl⟩, rfl⟩, rfl⟩ := h
  rfl

variable {lt}

theorem linearInsert_le {v : Int} : ∀ (i : Nat) (l r : List Int) (k : Nat), Runs (linearInsert lt v l i) r k → k ≤ i := by
  intro i
  induction i with
  | zero => intro l r k h; simp [linearInsert, runs_free] at h
  | succ i ih =>
    intro l r k h
    simp only [linearInsert, runs_bind, runs_free, runs_compare] at h
    obtain ⟨x, _, _, ⟨_, rfl⟩, ⟨c, _, _, ⟨_, rfl⟩, h, rfl⟩, rfl⟩ := h
    cases c with
    | true =>
      simp only [if_true, runs_bind, runs_free] at h
      obtain ⟨_, _, _, ⟨_, rfl⟩, h, rfl⟩ := h
      have := ih _ _ _ h
      omega
    | false =>
      simp only [Bool.false_eq_true, if_false, runs_free] at h
      omega

theorem unguardedLinearInsert_le {l r : List Int} {i k : Nat} (h : Runs (unguardedLinearInsert lt l i) r k) : k ≤ i := by
  simp only [unguardedLinearInsert, runs_bind, runs_free] at h
  obtain ⟨x, _, _, ⟨_, rfl⟩, h, rfl⟩ := h
  have := linearInsert_le _ _ _ _ h
  omega

theorem moveBackward_le : ∀ (i : Nat) (l r : List Int) (k : Nat), Runs (moveBackward l i) r k → k = 0 := by
  intro i
  induction i with
  | zero => intro l r k h; exact (runs_pure.mp h).2
  | succ i ih =>
    intro l r k h
    simp only [moveBackward, runs_bind, runs_free] at h
    obtain ⟨_, _, _, ⟨_, rfl⟩, ⟨_, _, _, ⟨_, rfl⟩, h, rfl⟩, rfl⟩ := h
    have := ih _ _ _ h
    omega

theorem insertionRound_le {l r : List Int} {i k : Nat} (h : Runs (insertionRound lt l i) r k) : k ≤ i + 1 := by
  simp only [insertionRound, runs_bind] at h
  obtain ⟨c, k1, _, h1, h, rfl⟩ := h
  have := runs_lessAt _ h1
  subst this
  cases c with
  | true =>
    simp only [if_true, runs_bind, runs_free] at h
    obtain ⟨_, _, _, ⟨_, rfl⟩, ⟨_, _, _, h, ⟨_, rfl⟩, rfl⟩, rfl⟩ := h
    have := moveBackward_le _ _ _ _ h
    omega
  | false =>
    have := unguardedLinearInsert_le (lt := lt) (by simpa using h)
    omega

theorem insertionLoop_le : ∀ (n : Nat) (l r : List Int) (i k : Nat), Runs (insertionLoop lt n l i) r k → k ≤ n * (i + n) := by
  intro n
  induction n with
  | zero => intro l r i k h; have := (runs_pure.mp h).2; omega
  | succ n ih =>
    intro l r i k h
    simp only [insertionLoop, runs_bind] at h
    obtain ⟨_, _, _, h1, h, rfl⟩ := h
    have a := insertionRound_le h1
    have b := ih _ _ _ _ h
    rw [Nat.succ_mul]
    have : n * (i + 1 + n) = n * (i + (n + 1)) := by congr 1; omega
    omega

theorem insertionSort_le {l r : List Int} {n k : Nat} (h : Runs (insertionSort lt l n) r k) : k ≤ n * n := by
  rw [insertionSort] at h
  by_cases h0 : n = 0
  · rw [if_pos h0] at h; have := (runs_pure.mp h).2; omega
  · rw [if_neg h0] at h
    have := insertionLoop_le _ _ _ _ _ h
    obtain ⟨m, rfl⟩ : ∃ m, n = m + 1 := ⟨n - 1, by omega⟩
    rw [Nat.add_sub_cancel] at this
    have e : m * (1 + m) ≤ (m + 1) * (m + 1) := Nat.mul_le_mul (by omega) (by omega)
    omega

theorem scanUp_cost {l : List Int} {p : Nat} : ∀ (n first F k : Nat), Runs (scanUp lt l p n first) F k → first ≤ F ∧ k = F + 1 - first := by
  intro n
  induction n with
  | zero => intro first F k h; simp [scanUp, runs_free] at h
  | succ n ih =>
    intro first F k h
    simp only [scanUp, runs_bind] at h
    obtain ⟨c, _, _, h1, h, rfl⟩ := h
    have := runs_lessAt _ h1
    cases c with
    | true =>
      have := ih _ _ _ (by simpa using h)
      omega
    | false =>
      simp only [Bool.false_eq_true, if_false, runs_pure] at h
      omega

theorem scanDown_cost {l : List Int} {p : Nat} : ∀ (last E k : Nat), Runs (scanDown lt l p last) E k → E ≤ last ∧ k = last + 1 - E := by
  intro last
  induction last with
  | zero =>
    intro E k h
    simp only [scanDown, runs_bind] at h
    obtain ⟨c, _, _, h1, h, rfl⟩ := h
    have := runs_lessAt _ h1
    cases c with
    | true => simp [runs_free] at h
    | false =>
      simp only [Bool.false_eq_true, if_false, runs_pure] at h
      omega
  | succ last ih =>
    intro E k h
    simp only [scanDown, runs_bind] at h
    obtain ⟨c, _, _, h1, h, rfl⟩ := h
    have := runs_lessAt _ h1
    cases c with
    | true =>
      have := ih _ _ (by simpa using h)
      omega
    | false =>
      simp only [Bool.false_eq_true, if_false, runs_pure] at h
      omega

theorem moveMedian_le {l r : List Int} {x a b c k : Nat} (h : Runs (moveMedianToFirst lt l x a b c) r k) : k ≤ 3 := by
  simp only [moveMedianToFirst, runs_bind] at h
  obtain ⟨d, k1, _, h1, h, rfl⟩ := h
  have := runs_lessAt _ h1
  have tail : ∀ {i j m n k' : Nat} {y : List Int}, Runs (do
      let z ← lessAt lt l i j
      if z = true then swapAt l x m else swapAt l x n) y k' → k' ≤ 1 := by
    intro i j m n k' y h
    simp only [runs_bind] at h
    obtain ⟨d, k1, _, h1, h, rfl⟩ := h
    have := runs_lessAt _ h1
    cases d <;> · have := runs_swapAt (by simpa using h); omega
  cases d with
  | true =>
    simp only [if_true, runs_bind] at h
    obtain ⟨d, k2, _, h2, h, rfl⟩ := h
    have := runs_lessAt _ h2
    cases d with
    | true => have := runs_swapAt (by simpa using h); omega
    | false => have := tail (by simpa using h); omega
  | false =>
    simp only [Bool.false_eq_true, if_false, runs_bind] at h
    obtain ⟨d, k2, _, h2, h, rfl⟩ := h
    have := runs_lessAt _ h2
    cases d with
    | true => have := runs_swapAt (by simpa using h); omega
    | false => have := tail (by simpa using h); omega

theorem pushHeap_le {f top : Nat} {v : Int} : ∀ (n : Nat) (l r : List Int) (h k : Nat),
    Runs (pushHeap lt f top v n l h) r k → k ≤ (h + 1).log2 := by
  intro n
  induction n with
  | zero => intro l r h k hr; simp [pushHeap, runs_free] at hr
  | succ n ih =>
    intro l r h k hr
    rw [pushHeap] at hr
    by_cases ht : h > top
    · simp only [if_pos ht, runs_bind, runs_free, runs_compare] at hr
      obtain ⟨x, _, _, ⟨_, rfl⟩, ⟨c, _, _, ⟨_, rfl⟩, hr, rfl⟩, rfl⟩ := hr
      have hlog : (h + 1).log2 = ((h - 1) / 2 + 1).log2 + 1 := by
        rw [Nat.log2_def, if_pos (by omega)]
        congr 2
        omega
      cases c with
      | true =>
        simp only [if_true, runs_bind, runs_free] at hr
        obtain ⟨_, _, _, ⟨_, rfl⟩, hr, rfl⟩ := hr
        have := ih _ _ _ _ hr
        omega
      | false =>
        simp only [Bool.false_eq_true, if_false, runs_free] at hr
        omega
    · simp only [if_neg ht, runs_free] at hr
      omega

theorem siftDown_le {f len : Nat} : ∀ (n : Nat) (l r : List Int) (h h' k : Nat), h < len →
    Runs (siftDown lt f len n l h) (r, h') k → h' < len ∧ 2 ^ k * (h + 1) ≤ h' + 1 := by
  intro n
  induction n with
  | zero => intro l r h h' k _ hr; simp [siftDown, runs_free] at hr
  | succ n ih =>
    intro l r h h' k hh hr
    rw [siftDown] at hr
    by_cases h1 : h < (len - 1) / 2
    · simp only [if_pos h1, runs_bind, runs_free] at hr
      obtain ⟨c, _, _, hc, ⟨x, _, _, ⟨_, rfl⟩, ⟨_, _, _, ⟨_, rfl⟩, hr, rfl⟩, rfl⟩, rfl⟩ := hr
      have := runs_lessAt _ hc
      subst this
      have hcb : 2 * (h + 1) - 1 ≤ (if c = true then 2 * (h + 1) - 1 else 2 * (h + 1)) ∧
          (if c = true then 2 * (h + 1) - 1 else 2 * (h + 1)) < len := by cases c <;> simp <;> omega
      obtain ⟨g1, g2⟩ := ih _ _ _ _ _ hcb.2 hr
      refine ⟨g1, Nat.le_trans ?_ g2⟩
      rw [Nat.zero_add, Nat.zero_add, Nat.add_comm 1, Nat.pow_succ, Nat.mul_assoc]
      exact Nat.mul_le_mul_left _ (by omega)
    · rw [if_neg h1] at hr
      by_cases h2 : len % 2 = 0 ∧ h = (len - 2) / 2
      · simp only [if_pos h2, runs_bind, runs_free, runs_pure] at hr
        obtain ⟨_, _, _, ⟨_, rfl⟩, ⟨_, _, _, ⟨_, rfl⟩, ⟨hp, rfl⟩, rfl⟩, rfl⟩ := hr
        have := (Prod.mk.inj hp).2
        simp
        omega
      · rw [if_neg h2, runs_pure] at hr
        obtain ⟨hp, rfl⟩ := hr
        have := (Prod.mk.inj hp).2
        simp
        omega

theorem log2_ge {k n : Nat} (h : 2 ^ k ≤ n) : k ≤ n.log2 := by
  have h0 : n ≠ 0 := by have := Nat.two_pow_pos k; omega
  exact (Nat.le_log2 h0).mpr h

theorem log2_mono {a b : Nat} (h : a ≤ b) : a.log2 ≤ b.log2 := by
  by_cases h0 : a = 0
  · subst h0; simp
  · exact log2_ge (Nat.le_trans (Nat.log2_self_le h0) h)

theorem adjustHeap_le {f h len : Nat} {v : Int} {l r : List Int} {k : Nat} (hh : h < len)
    (hr : Runs (adjustHeap lt f h len v l) r k) : k ≤ 2 * len.log2 := by
  simp only [adjustHeap, runs_bind] at hr
  obtain ⟨⟨l1, h'⟩, k1, k2, h1, h2, rfl⟩ := hr
  obtain ⟨g1, g2⟩ := siftDown_le _ _ _ _ _ _ hh h1
  have a : k2 ≤ (h' + 1).log2 := pushHeap_le _ _ _ _ _ h2
  have b : (h' + 1).log2 ≤ len.log2 := log2_mono (by omega)
  have c : k1 ≤ len.log2 := log2_ge (Nat.le_trans (Nat.le_trans (Nat.le_mul_of_pos_right _ (by omega)) g2) (by omega))
  omega

theorem makeHeapLoop_le {f len : Nat} : ∀ (p : Nat) (l r : List Int) (k : Nat), p < len →
    Runs (makeHeapLoop lt f len p l) r k → k ≤ (p + 1) * (2 * len.log2) := by
  intro p
  induction p with
  | zero =>
    intro l r k hp hr
    simp only [makeHeapLoop, runs_bind, runs_free] at hr
    obtain ⟨_, _, _, ⟨_, rfl⟩, hr, rfl⟩ := hr
    have := adjustHeap_le hp hr
    omega
  | succ p ih =>
    intro l r k hp hr
    simp only [makeHeapLoop, runs_bind, runs_free] at hr
    obtain ⟨_, _, _, ⟨_, rfl⟩, ⟨_, _, _, h1, h2, rfl⟩, rfl⟩ := hr
    have a := adjustHeap_le hp h1
    have b := ih _ _ _ (by omega) h2
    rw [Nat.succ_mul (p + 1)]
    omega

theorem makeHeap_le {f len : Nat} {l r : List Int} {k : Nat} (hr : Runs (makeHeap lt f len l) r k) : k ≤ len * len.log2 := by
  rw [makeHeap] at hr
  by_cases h : len < 2
  · rw [if_pos h] at hr; have := (runs_pure.mp hr).2; omega
  · rw [if_neg h] at hr
    have := makeHeapLoop_le _ _ _ _ (by omega) hr
    have e : ((len - 2) / 2 + 1) * (2 * len.log2) = ((len - 2) / 2 + 1) * 2 * len.log2 := by rw [Nat.mul_assoc]
    have := Nat.mul_le_mul_right len.log2 (show ((len - 2) / 2 + 1) * 2 ≤ len by omega)
    omega

theorem sortHeap_le {f : Nat} : ∀ (n : Nat) (l r : List Int) (k L : Nat), n ≤ L →
    Runs (sortHeap lt f n l) r k → k ≤ n * (2 * L.log2) := by
  intro n
  induction n with
  | zero => intro l r k L _ hr; simp only [sortHeap, runs_pure] at hr; omega
  | succ n ih =>
    cases n with
    | zero => intro l r k L _ hr; simp only [sortHeap, runs_pure] at hr; omega
    | succ n =>
      intro l r k L hL hr
      simp only [sortHeap, runs_bind, runs_free] at hr
      obtain ⟨_, _, _, ⟨_, rfl⟩, ⟨_, _, _, ⟨_, rfl⟩, ⟨_, _, _, ⟨_, rfl⟩, ⟨_, _, _, h1, h2, rfl⟩, rfl⟩, rfl⟩, rfl⟩ := hr
      have a := adjustHeap_le (by omega) h1
      have b := ih _ _ _ L (by omega) h2
      have c : (n + 1).log2 ≤ L.log2 := log2_mono (by omega)
      rw [Nat.succ_mul (n + 1)]
      omega

theorem partialSort_le {f e : Nat} {l r : List Int} {k : Nat} (hr : Runs (partialSort lt l f e) r k) :
    k ≤ 3 * ((e - f) * (e - f).log2) := by
  simp only [partialSort, runs_bind] at hr
  obtain ⟨_, _, _, h1, h2, rfl⟩ := hr
  have a := makeHeap_le h1
  have b := sortHeap_le _ _ _ _ (e - f) (Nat.le_refl _) h2
  rw [Nat.mul_left_comm] at b
  omega

theorem Runs.res {α : Type} {x : Log α} {a : α} {k : Nat} (h : Runs x a k) : x.res = .ok a := h.1

theorem unguardedPartition_cost (hlt : StrictWeak lt) {P : Nat} : ∀ (fuel : Nat) (l : List Int) (first last u k : Nat)
    (r : List Int × Nat), last ≤ l.length → P < first → first ≤ last → u < l.length → first ≤ u → u ≤ last →
    lt (StdSort.val l u) (StdSort.val l P) = false → lt (StdSort.val l P) (StdSort.val l (first - 1)) = false →
    Runs (unguardedPartition lt P fuel l first last) r k → k ≤ last - first + 2 := by
  intro fuel
  induction fuel with
  | zero => intros _ _ _ _ _ _ _ _ _ _ _ _ _ _ hr; simp [unguardedPartition, runs_free] at hr
  | succ fuel ih =>
    intro l first last u k r hl hP hfl hu hu1 hu2 hus hs hr
    obtain ⟨last, rfl⟩ : ∃ m, last = m + 1 := ⟨last - 1, by omega⟩
    simp only [unguardedPartition, runs_bind, runs_free, retreat] at hr
    obtain ⟨F, k1, _, h1, ⟨e0, _, _, ⟨he, rfl⟩, ⟨E, k2, k3, h2, h3, rfl⟩, rfl⟩, rfl⟩ := hr
    cases he
    obtain ⟨F', s1, s2, s3, s4, s5⟩ := StdSort.scanUp_eq (lt := lt) (P := P) (u := u) (by omega) hu hus (l.length + 1) first hu1
      (by omega)
    obtain ⟨E', d1, d2, d3, d4, d5⟩ := StdSort.scanDown_eq hlt (P := P) last (by omega) (by omega : last < l.length)
    have hF : F' = F := by
      have := h1.res
      rw [scanUp_res, s1] at this
      exact Res.ok.inj this
    have hE : E' = E := by
      have := h2.res
      rw [scanDown_res, d1] at this
      exact Res.ok.inj this
    subst hF hE
    have c1 := (scanUp_cost _ _ _ _ h1).2
    have c2 := (scanDown_cost _ _ _ h2).2
    have hE1 : first - 1 ≤ E' := by
      rcases Nat.lt_or_ge E' (first - 1) with h | h
      · have := d4 (first - 1) h (by omega)
        rw [hs] at this; cases this
      · exact h
    by_cases hFE : F' < E'
    · simp only [if_pos hFE, runs_bind] at h3
      obtain ⟨l1, k4, k5, h4, h5, rfl⟩ := h3
      have := runs_swapAt h4
      have e : l1 = StdSort.swapped l F' E' := by
        have := h4.res
        rw [swapAt_res, StdSort.swapAt_val (by omega) (by omega)] at this
        exact (Res.ok.inj this).symm
      subst e
      have hvP : StdSort.val (StdSort.swapped l F' E') P = StdSort.val l P := by
        rw [StdSort.val_swapped (by omega) (by omega), if_neg (by omega), if_neg (by omega)]
      have c3 := ih (StdSort.swapped l F' E') (F' + 1) E' E' k5 r (by rw [StdSort.swapped_length]; omega) (by omega) (by omega)
        (by rw [StdSort.swapped_length]; omega) (by omega) (Nat.le_refl _)
        (by rw [hvP, StdSort.val_swapped (by omega) (by omega), if_pos rfl]; exact s4)
        (by
          rw [hvP, Nat.add_sub_cancel, StdSort.val_swapped (by omega) (by omega), if_neg (by omega), if_pos rfl]
          exact d5) h5
      omega
    · rw [if_neg hFE, runs_pure] at h3
      have hFE1 : F' ≤ E' + 1 := by
        rcases Nat.lt_or_ge (E' + 1) F' with h | h
        · have a := s5 (E' + 1) (by omega) h
          have b := d4 (E' + 1) (by omega) (by omega)
          rw [StdSort.asymm hlt a] at b; cases b
        · exact h
      omega

theorem partitionPivot_cost (hlt : StrictWeak lt) {l : List Int} {f e k : Nat} {r : List Int × Nat} (he : e ≤ l.length)
    (hfe : f + 4 < e) (hr : Runs (partitionPivot lt l f e) r k) : k ≤ e - f + 4 := by
  simp only [partitionPivot, runs_bind] at hr
  obtain ⟨l1, k1, k2, h1, h2, rfl⟩ := hr
  have a := moveMedian_le h1
  obtain ⟨l1', g1, g2, u, g3, g4, g5⟩ := StdSort.moveMedian_eq hlt (l := l) (f := f) (a := f + 1) (b := f + (e - f) / 2)
    (c := e - 1) (e := e) (by omega) (by omega) (by omega) (by omega) (by omega) (by omega) he
  have hl : l1' = l1 := by
    have := h1.res
    rw [moveMedianToFirst_res, g1] at this
    exact Res.ok.inj this
  subst hl
  have hlen := g2.len
  have b := unguardedPartition_cost hlt _ _ _ _ u _ _ (by omega) (by omega) (by omega) (by omega) (by omega) (by omega) g5
    (by rw [Nat.add_sub_cancel]; exact hlt.irrefl _) h2
  omega

theorem introsortLoop_cost (hlt : StrictWeak lt) : ∀ (fuel : Nat) (l r : List Int) (f e depth k : Nat), f < e → e ≤ l.length → e - f < fuel →
    Runs (introsortLoop lt fuel l f e depth) r k →
    k ≤ 2 * ((e - f) * depth) + 3 * ((e - f) * (e - f).log2) := by
  intro fuel
  induction fuel with
  | zero => intro l r f e depth k _ _ _ hr; simp [introsortLoop, runs_free] at hr
  | succ fuel ih =>
    intro l r f e depth k hfe he hf hr
    rw [introsortLoop.eq_def] at hr
    simp only at hr
    by_cases h16 : e - f > 16
    · rw [if_pos h16] at hr
      cases depth with
      | zero =>
        have := partialSort_le hr
        omega
      | succ depth =>
        simp only [runs_bind] at hr
        obtain ⟨⟨l1, cut⟩, k1, _, h1, ⟨l2, k2, k3, h2, h3, rfl⟩, rfl⟩ := hr
        simp only at h2 h3
        have a := partitionPivot_cost hlt he (by omega) h1
        obtain ⟨l1', cut', r1, r2, r3, r4, -⟩ := StdSort.partitionPivot_eq hlt he (by omega : f + 4 < e)
        have hp : (l1', cut') = (l1, cut) := by
          have := h1.res
          rw [partitionPivot_res, r1] at this
          exact Res.ok.inj this
        cases hp
        have hl1 := r2.len
        have b := ih _ _ _ _ _ _ r4 (by omega) (by omega) h2
        have hl2 : l2.length = l1.length := by
          obtain ⟨l2', t1, t2, -⟩ := StdSort.introsortLoop_eq hlt fuel l1 cut e depth r4 (by omega) (by omega)
          have := h2.res
          rw [introsortLoop_res, t1] at this
          rw [← Res.ok.inj this, t2.len]
        have c := ih _ _ _ _ _ _ r3 (by omega) (by omega) h3
        have hb : (e - cut) * (e - cut).log2 ≤ (e - cut) * (e - f).log2 := Nat.mul_le_mul_left _ (log2_mono (by omega))
        have hc : (cut - f) * (cut - f).log2 ≤ (cut - f) * (e - f).log2 := Nat.mul_le_mul_left _ (log2_mono (by omega))
        have hsum : (e - cut) * (e - f).log2 + (cut - f) * (e - f).log2 = (e - f) * (e - f).log2 := by
          rw [← Nat.add_mul]; congr 1; omega
        have hsum' : (e - cut) * depth + (cut - f) * depth = (e - f) * depth := by
          rw [← Nat.add_mul]; congr 1; omega
        rw [Nat.mul_succ]
        omega
    · rw [if_neg h16, runs_pure] at hr
      omega

theorem linearInsert_cost {v : Int} {j : Nat} : ∀ (i : Nat) (l r : List Int) (k : Nat), j < i → i < l.length →
    lt v (StdSort.val l j) = false → Runs (linearInsert lt v l i) r k → k ≤ i - j := by
  intro i
  induction i with
  | zero => intros; omega
  | succ i ih =>
    intro l r k hj hi hv hr
    simp only [linearInsert, runs_bind, runs_free, runs_compare] at hr
    obtain ⟨x, _, _, ⟨hx, rfl⟩, ⟨c, _, _, ⟨hc, rfl⟩, h, rfl⟩, rfl⟩ := hr
    rw [StdSort.rd_val (by omega)] at hx
    cases hx
    cases c with
    | true =>
      simp only [if_true, runs_bind, runs_free] at h
      obtain ⟨l1, _, _, ⟨hw, rfl⟩, h, rfl⟩ := h
      rw [StdSort.wr_ok hi] at hw
      cases hw
      have hne : j ≠ i := by rintro rfl; rw [hv] at hc; cases hc
      have := ih _ _ _ (by omega) (by simp; omega) (by rw [StdSort.val_set hi, if_neg (by omega)]; exact hv) h
      omega
    | false =>
      simp only [Bool.false_eq_true, if_false, runs_free] at h
      omega

/-- One unguarded insertion compares with the greater elements and one more. -/
theorem unguardedLinearInsert_cost (hlt : StrictWeak lt) {p rest r : List Int} {v : Int} {k : Nat}
    (hp : StdSort.Ordered lt p) (hsent : ∃ y ∈ p, lt v y = false)
    (hr : Runs (unguardedLinearInsert lt (p ++ v :: rest) p.length) r k) : k ≤ p.countP (lt v) + 1 := by
  simp only [unguardedLinearInsert, runs_bind, runs_free] at hr
  obtain ⟨x, _, _, ⟨hx, rfl⟩, h, rfl⟩ := hr
  rw [StdSort.rd_val (by simp), StdSort.val_append_mid rfl] at hx
  cases hx
  obtain ⟨q, s, rfl, hq, hs⟩ := StdSort.split_at hlt v hp
  have hne : 0 < q.length := by
    rcases Nat.eq_zero_or_pos q.length with h0 | h0
    · obtain rfl := List.length_eq_zero_iff.mp h0
      obtain ⟨y, hy, hv⟩ := hsent
      rw [hs y (by simpa using hy)] at hv
      cases hv
    · exact h0
  have hval : lt v (StdSort.val (q ++ s ++ v :: rest) (q.length - 1)) = false := by
    rw [List.append_assoc, StdSort.val_append_left (by omega)]
    refine hq _ ?_
    rw [StdSort.val, List.getD, List.getElem?_eq_getElem (by omega)]
    exact List.getElem_mem _
  have := linearInsert_cost (j := q.length - 1) _ _ _ _ (by simp; omega) (by simp) hval h
  have e1 : q.countP (lt v) = 0 := List.countP_eq_zero.mpr fun y hy => by simp [hq y hy]
  have e2 : s.countP (lt v) = s.length := List.countP_eq_length.mpr hs
  rw [List.countP_append, e1, e2]
  simp only [List.length_append] at this
  omega

theorem unguardedInsertionSort_cost (hlt : StrictWeak lt) : ∀ (s p r : List Int) (k : Nat), StdSort.Ordered lt p →
    (∃ y ∈ p, ∀ v ∈ s, lt v y = false) →
    (∀ s1 v s2, s = s1 ++ v :: s2 → (p ++ s1).countP (lt v) ≤ 15) →
    Runs (unguardedInsertionSort lt s.length (p ++ s) p.length) r k → k ≤ 16 * s.length := by
  intro s
  induction s with
  | nil => intro p r k _ _ _ hr; simp only [List.length_nil, unguardedInsertionSort, runs_pure] at hr; omega
  | cons v s ih =>
    intro p r k hp ⟨y, hy, hmin⟩ hc hr
    simp only [List.length_cons, unguardedInsertionSort, runs_bind] at hr
    obtain ⟨l1, k1, k2, h1, h2, rfl⟩ := hr
    have a := unguardedLinearInsert_cost hlt hp ⟨y, hy, hmin v (by simp)⟩ h1
    have a' := hc [] v s rfl
    rw [List.append_nil] at a'
    obtain ⟨p1, g1, g2, g3, g4⟩ := StdSort.unguardedLinearInsert_eq hlt (rest := s) hp ⟨y, hy, hmin v (by simp)⟩
    have hl : p1 ++ s = l1 := by
      have := h1.res
      rw [unguardedLinearInsert_res, g1] at this
      exact Res.ok.inj this
    subst hl
    have hperm : p1.Perm (p ++ [v]) :=
      (List.perm_append_right_iff s).mp (by simpa using g4.1)
    have b := ih p1 r k2 g3 ⟨y, hperm.symm.subset (by simp [hy]), fun w hw => hmin w (by simp [hw])⟩
      (fun s1 w s2 he => by
        have := hc (v :: s1) w s2 (by rw [he]; rfl)
        rw [List.countP_append, hperm.countP_eq, ← List.countP_append]
        simpa using this)
      (by rw [g2]; exact h2)
    rw [List.length_cons]
    omega

theorem finalInsertionSort_cost (hlt : StrictWeak lt) {l r : List Int} {k : Nat}
    (hmin : 16 < l.length → ∃ k, k < 16 ∧ ∀ j, j < l.length → lt (StdSort.val l j) (StdSort.val l k) = false)
    (hfar : ∀ i j, i + 16 ≤ j → j < l.length → lt (StdSort.val l j) (StdSort.val l i) = false)
    (hr : Runs (finalInsertionSort lt l) r k) : k ≤ 16 * l.length := by
  rw [finalInsertionSort] at hr
  by_cases h16 : l.length > 16
  · simp only [if_pos h16, runs_bind] at hr
    obtain ⟨l1, k1, k2, h1, h2, rfl⟩ := hr
    have a := insertionSort_le h1
    obtain ⟨m, hm, hmm⟩ := hmin h16
    have hl : l.take 16 ++ l.drop 16 = l := List.take_append_drop 16 l
    have ht : (l.take 16).length = 16 := by simp; omega
    obtain ⟨p', g1, g2, g3, g4⟩ := StdSort.insertionSort_eq hlt (l.take 16) (l.drop 16)
    rw [hl, ht] at g1
    rw [ht] at g2
    have hp : p' ++ l.drop 16 = l1 := by
      have := h1.res
      rw [insertionSort_res, g1] at this
      exact Res.ok.inj this
    subst hp
    have hperm : p'.Perm (l.take 16) := (List.perm_append_right_iff (l.drop 16)).mp g4.1
    have hmem : StdSort.val l m ∈ l.take 16 := by
      have : StdSort.val (l.take 16 ++ l.drop 16) m = StdSort.val (l.take 16) m := StdSort.val_append_left (by omega)
      rw [hl] at this
      rw [this, StdSort.val, List.getD, List.getElem?_eq_getElem (by omega)]
      exact List.getElem_mem _
    have b := unguardedInsertionSort_cost hlt (l.drop 16) p' r k2 g3
      ⟨StdSort.val l m, hperm.symm.subset hmem, fun v hv => by
        obtain ⟨j, hj, rfl⟩ := List.mem_iff_getElem.mp hv
        have hj' : 16 + j < l.length := by simp at hj; omega
        have := hmm (16 + j) hj'
        rw [show StdSort.val l (16 + j) = (l.drop 16)[j] by simp [StdSort.val, List.getD, hj']] at this
        exact this⟩
      (fun s1 v s2 he => by
        rw [List.countP_append, hperm.countP_eq, ← List.countP_append]
        have e1 : l.take 16 ++ s1 = l.take (16 + s1.length) := by
          rw [List.take_add, he]; simp
        have hlen : 16 + s1.length < l.length := by
          have := congrArg List.length he
          simp at this; omega
        have hv : StdSort.val l (16 + s1.length) = v := by
          rw [← hl, he, ← List.append_assoc]
          exact StdSort.val_append_mid (by simp; omega)
        rw [e1, show l.take (16 + s1.length) = l.take (s1.length + 1) ++ (l.drop (s1.length + 1)).take 15 by
          rw [← List.take_add]; congr 1; omega, List.countP_append]
        have z : (l.take (s1.length + 1)).countP (lt v) = 0 := by
          refine List.countP_eq_zero.mpr fun y hy => ?_
          obtain ⟨i, hi, rfl⟩ := List.mem_iff_getElem.mp hy
          have hi' : i < s1.length + 1 := by simp at hi; omega
          have := hfar i (16 + s1.length) (by omega) hlen
          rw [hv] at this
          rw [show (l.take (s1.length + 1))[i] = StdSort.val l i by
            simp [StdSort.val, List.getD, show i < l.length by omega], this]
          simp
        have z' := List.countP_le_length (p := lt v) (l := (l.drop (s1.length + 1)).take 15)
        have : ((l.drop (s1.length + 1)).take 15).length ≤ 15 := by simp; omega
        omega)
      (by rw [g2, List.length_drop]; exact h2)
    rw [List.length_drop] at b
    omega
  · rw [if_neg h16] at hr
    have := insertionSort_le hr
    exact Nat.le_trans this (Nat.mul_le_mul_right _ (by omega))

/-- Comparisons of `std::sort`: at most `7 n log₂ n + 16 n`. -/
theorem stdSort_cost (hlt : StrictWeak lt) (l : List Int) :
    (stdSort lt l).pairs.length ≤ 7 * (l.length * l.length.log2) + 16 * l.length := by
  obtain ⟨r, h1, -, -⟩ := StdSort.stdSort_eq hlt l
  have hr : Runs (stdSort lt l) r (stdSort lt l).pairs.length := ⟨by rw [stdSort_res, h1], rfl⟩
  generalize (stdSort lt l).pairs.length = k at hr
  rw [stdSort] at hr
  by_cases h : l.length = 0
  · rw [if_pos h, runs_pure] at hr; omega
  · simp only [if_neg h, runs_bind] at hr
    obtain ⟨l1, k1, k2, g1, g2, rfl⟩ := hr
    obtain ⟨l1', r1, r2, ⟨m, r3, r4, r5, r6⟩, r7⟩ := StdSort.introsortLoop_eq hlt (l.length + 1) l 0 l.length (l.length.log2 * 2)
      (by omega) (Nat.le_refl _) (by omega)
    have e : l1' = l1 := by
      have := g1.res
      rw [introsortLoop_res, r1] at this
      exact Res.ok.inj this
    subst e
    have hlen := r2.len
    have a := introsortLoop_cost hlt _ _ _ _ _ _ _ (by omega) (Nat.le_refl _) (by omega) g1
    have b := finalInsertionSort_cost hlt (fun _ => ⟨m, by omega, fun j hj => r6 j (by omega) (by omega)⟩)
      (fun i j h1 h2 => r7 i j (by omega) h1 (by omega)) g2
    rw [Nat.sub_zero] at a
    have e2 : l.length * (l.length.log2 * 2) = 2 * (l.length * l.length.log2) := by
      rw [← Nat.mul_assoc, Nat.mul_comm]
    omega

end U5e.SortLog
