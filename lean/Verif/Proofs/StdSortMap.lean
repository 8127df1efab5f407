import Verif.Proofs.StdSort
/-! `std::sort` sees its elements through the comparator only: what it does to positions depends only on the results of
the comparisons. -/
namespace U5e.StdSort
open U5e Spec

/-- The results of a computation, renamed. -/
def mapR {α β : Type} (g : α → β) : Res α → Res β
  | .ok a => .ok (g a)
  | .ub => .ub
  | .tmo => .tmo

theorem mapR_bind {α β γ : Type} (g : β → γ) (x : Res α) (k : α → Res β) :
    mapR g (x >>= k) = x >>= fun a => mapR g (k a) := by cases x <;> rfl

theorem bind_mapR {α β γ : Type} (g : α → β) (x : Res α) (k : β → Res γ) :
    (mapR g x >>= k) = x >>= fun a => k (g a) := by cases x <;> rfl

theorem mapR_ok {α β : Type} (g : α → β) (a : α) : mapR g (Res.ok a) = .ok (g a) := rfl
theorem mapR_pure {α β : Type} (g : α → β) (a : α) : mapR g (pure a) = pure (g a) := rfl
theorem mapR_ite {α β : Type} (g : α → β) (c : Prop) [Decidable c] (x y : Res α) :
    mapR g (if c then x else y) = if c then mapR g x else mapR g y := by split <;> rfl

variable {lt : Int → Int → Bool} {φ : Int → Int}

/-- The comparator before renaming. -/
def pull (lt : Int → Int → Bool) (φ : Int → Int) : Int → Int → Bool := fun a b => lt (φ a) (φ b)

theorem pull_eq (lt : Int → Int → Bool) (φ : Int → Int) (a b : Int) : lt (φ a) (φ b) = pull lt φ a b := rfl

theorem rd32_map (l : List Int) (i : Nat) : rd32 (l.map φ) i = mapR φ (rd32 l i) := by
  unfold rd32
  rw [List.getElem?_map]
  cases l[i]? <;> rfl

theorem wr32_map (l : List Int) (i : Nat) (v : Int) : wr32 (l.map φ) i (φ v) = mapR (List.map φ) (wr32 l i v) := by
  unfold wr32
  rw [mapR_ite, List.length_map, mapR_ok, List.map_set]
  rfl

theorem lessAt_map (l : List Int) (i j : Nat) : lessAt lt (l.map φ) i j = lessAt (pull lt φ) l i j := by
  simp only [lessAt, rd32_map, bind_mapR, pull]

theorem swapAt_map (l : List Int) (i j : Nat) : swapAt (l.map φ) i j = mapR (List.map φ) (swapAt l i j) := by
  simp only [swapAt, rd32_map, bind_mapR, mapR_bind, wr32_map]

theorem linearInsert_map (v : Int) : ∀ (k : Nat) (l : List Int),
    linearInsert lt (φ v) (l.map φ) k = mapR (List.map φ) (linearInsert (pull lt φ) v l k) := by
  intro k
  induction k with
  | zero => intro l; rfl
  | succ k ih => intro l; simp only [linearInsert, rd32_map, bind_mapR, mapR_bind, wr32_map, mapR_ite, ih, pull_eq lt φ]

theorem unguardedLinearInsert_map (l : List Int) (k : Nat) :
    unguardedLinearInsert lt (l.map φ) k = mapR (List.map φ) (unguardedLinearInsert (pull lt φ) l k) := by
  simp only [unguardedLinearInsert, rd32_map, bind_mapR, mapR_bind, linearInsert_map]

theorem moveBackward_map : ∀ (k : Nat) (l : List Int), moveBackward (l.map φ) k = mapR (List.map φ) (moveBackward l k) := by
  intro k
  induction k with
  | zero => intro l; rfl
  | succ k ih => intro l; simp only [moveBackward, rd32_map, bind_mapR, mapR_bind, wr32_map, ih]

theorem insertionRound_map (l : List Int) (i : Nat) :
    insertionRound lt (l.map φ) i = mapR (List.map φ) (insertionRound (pull lt φ) l i) := by
  simp only [insertionRound, lessAt_map, rd32_map, bind_mapR, mapR_bind, wr32_map, mapR_ite, moveBackward_map,
    unguardedLinearInsert_map]

theorem insertionLoop_map : ∀ (n : Nat) (l : List Int) (i : Nat),
    insertionLoop lt n (l.map φ) i = mapR (List.map φ) (insertionLoop (pull lt φ) n l i) := by
  intro n
  induction n with
  | zero => intros; rfl
  | succ n ih => intros; simp only [insertionLoop, insertionRound_map, bind_mapR, mapR_bind, ih]

theorem insertionSort_map (l : List Int) (n : Nat) :
    insertionSort lt (l.map φ) n = mapR (List.map φ) (insertionSort (pull lt φ) l n) := by
  simp only [insertionSort, insertionLoop_map, mapR_ite, mapR_pure]

theorem unguardedInsertionSort_map : ∀ (n : Nat) (l : List Int) (i : Nat),
    unguardedInsertionSort lt n (l.map φ) i = mapR (List.map φ) (unguardedInsertionSort (pull lt φ) n l i) := by
  intro n
  induction n with
  | zero => intros; rfl
  | succ n ih => intros; simp only [unguardedInsertionSort, unguardedLinearInsert_map, bind_mapR, mapR_bind, ih]

theorem finalInsertionSort_map (l : List Int) :
    finalInsertionSort lt (l.map φ) = mapR (List.map φ) (finalInsertionSort (pull lt φ) l) := by
  simp only [finalInsertionSort, insertionSort_map, unguardedInsertionSort_map, bind_mapR, mapR_bind, mapR_ite,
    List.length_map]

theorem moveMedianToFirst_map (l : List Int) (r a b c : Nat) :
    moveMedianToFirst lt (l.map φ) r a b c = mapR (List.map φ) (moveMedianToFirst (pull lt φ) l r a b c) := by
  simp only [moveMedianToFirst, lessAt_map, swapAt_map, mapR_bind, mapR_ite]

theorem scanUp_map (l : List Int) (p : Nat) : ∀ (n first : Nat),
    scanUp lt (l.map φ) p n first = scanUp (pull lt φ) l p n first := by
  intro n
  induction n with
  | zero => intros; rfl
  | succ n ih => intros; simp only [scanUp, lessAt_map, ih]

theorem scanDown_map (l : List Int) (p : Nat) : ∀ (last : Nat),
    scanDown lt (l.map φ) p last = scanDown (pull lt φ) l p last := by
  intro n
  induction n with
  | zero => simp only [scanDown, lessAt_map]
  | succ n ih => simp only [scanDown, lessAt_map, ih]

/-- A range and a position, renamed. -/
def pairMap (φ : Int → Int) (x : List Int × Nat) : List Int × Nat := (x.1.map φ, x.2)

theorem unguardedPartition_map (p : Nat) : ∀ (n : Nat) (l : List Int) (first last : Nat),
    unguardedPartition lt p n (l.map φ) first last = mapR (pairMap φ) (unguardedPartition (pull lt φ) p n l first last) := by
  intro n
  induction n with
  | zero => intros; rfl
  | succ n ih =>
    intros
    simp only [unguardedPartition, scanUp_map, scanDown_map, swapAt_map, bind_mapR, mapR_bind, mapR_ite, ih, List.length_map,
      mapR_pure, pairMap]

theorem partitionPivot_map (l : List Int) (first last : Nat) :
    partitionPivot lt (l.map φ) first last = mapR (pairMap φ) (partitionPivot (pull lt φ) l first last) := by
  simp only [partitionPivot, moveMedianToFirst_map, unguardedPartition_map, bind_mapR, mapR_bind, List.length_map]

theorem pushHeap_map (f top : Nat) (v : Int) : ∀ (n : Nat) (l : List Int) (h : Nat),
    pushHeap lt f top (φ v) n (l.map φ) h = mapR (List.map φ) (pushHeap (pull lt φ) f top v n l h) := by
  intro n
  induction n with
  | zero => intros; rfl
  | succ n ih => intros; simp only [pushHeap, rd32_map, wr32_map, bind_mapR, mapR_bind, mapR_ite, ih, pull_eq lt φ]

theorem siftDown_map (f len : Nat) : ∀ (n : Nat) (l : List Int) (h : Nat),
    siftDown lt f len n (l.map φ) h = mapR (pairMap φ) (siftDown (pull lt φ) f len n l h) := by
  intro n
  induction n with
  | zero => intros; rfl
  | succ n ih =>
    intros
    simp only [siftDown, lessAt_map, rd32_map, wr32_map, bind_mapR, mapR_bind, mapR_ite, ih, mapR_pure, pairMap]

theorem adjustHeap_map (f h len : Nat) (v : Int) (l : List Int) :
    adjustHeap lt f h len (φ v) (l.map φ) = mapR (List.map φ) (adjustHeap (pull lt φ) f h len v l) := by
  simp only [adjustHeap, siftDown_map, bind_mapR, mapR_bind, pairMap, pushHeap_map]

theorem makeHeapLoop_map (f len : Nat) : ∀ (p : Nat) (l : List Int),
    makeHeapLoop lt f len p (l.map φ) = mapR (List.map φ) (makeHeapLoop (pull lt φ) f len p l) := by
  intro p
  induction p with
  | zero => intros; simp only [makeHeapLoop, rd32_map, bind_mapR, mapR_bind, adjustHeap_map]
  | succ p ih => intros; simp only [makeHeapLoop, rd32_map, bind_mapR, mapR_bind, adjustHeap_map, ih]

theorem makeHeap_map (f len : Nat) (l : List Int) :
    makeHeap lt f len (l.map φ) = mapR (List.map φ) (makeHeap (pull lt φ) f len l) := by
  simp only [makeHeap, makeHeapLoop_map, mapR_ite, mapR_pure]

theorem sortHeap_map (f : Nat) : ∀ (n : Nat) (l : List Int),
    sortHeap lt f n (l.map φ) = mapR (List.map φ) (sortHeap (pull lt φ) f n l) := by
  intro n
  induction n with
  | zero => intros; simp only [sortHeap, mapR_pure]
  | succ n ih =>
    cases n with
    | zero => intros; simp only [sortHeap, mapR_pure]
    | succ n => intros; simp only [sortHeap, rd32_map, wr32_map, bind_mapR, mapR_bind, adjustHeap_map, ih]

theorem introsortLoop_map : ∀ (n : Nat) (l : List Int) (f e d : Nat),
    introsortLoop lt n (l.map φ) f e d = mapR (List.map φ) (introsortLoop (pull lt φ) n l f e d) := by
  intro n
  induction n with
  | zero => intros; rfl
  | succ n ih =>
    intro l f e d
    rw [introsortLoop.eq_def, introsortLoop.eq_def (pull lt φ)]
    cases d with
    | zero =>
      simp only [partialSort, makeHeap_map, sortHeap_map, bind_mapR, mapR_bind, mapR_ite, mapR_pure]
    | succ d => simp only [partitionPivot_map, bind_mapR, mapR_bind, mapR_ite, mapR_pure, ih, pairMap]

theorem stdSort_map (l : List Int) : stdSort lt (l.map φ) = mapR (List.map φ) (stdSort (pull lt φ) l) := by
  simp only [stdSort, introsortLoop_map, finalInsertionSort_map, bind_mapR, mapR_bind, mapR_ite, mapR_pure, List.length_map]

/-- The permutation of 17 elements of which the first is less than the others, which are equivalent. -/
theorem seventeen : stdSort (fun a b => decide (a = 0 ∧ b ≠ 0)) [0, 1, 2, 3, 4, 5, 6, 7, 8, 9, 10, 11, 12, 13, 14, 15, 16] =
    .ok [0, 8, 16, 15, 14, 13, 12, 11, 10, 9, 7, 6, 5, 4, 3, 2, 1] := by decide +kernel

theorem stdSort_seventeen {lt : Int → Int → Bool} (s m1 m2 m3 m4 m5 m6 m7 m8 m9 m10 m11 m12 m13 m14 m15 m16 : Int)
    (hs : lt s s = false)
    (hm : ∀ a ∈ [m1, m2, m3, m4, m5, m6, m7, m8, m9, m10, m11, m12, m13, m14, m15, m16], lt s a = true ∧ lt a s = false ∧
      ∀ b ∈ [m1, m2, m3, m4, m5, m6, m7, m8, m9, m10, m11, m12, m13, m14, m15, m16], lt a b = false) :
    stdSort lt [s, m1, m2, m3, m4, m5, m6, m7, m8, m9, m10, m11, m12, m13, m14, m15, m16] =
      .ok [s, m8, m16, m15, m14, m13, m12, m11, m10, m9, m7, m6, m5, m4, m3, m2, m1] := by
  let ms := [m1, m2, m3, m4, m5, m6, m7, m8, m9, m10, m11, m12, m13, m14, m15, m16]
  let φ : Int → Int := fun i => if i = 0 then s else ms.getD ((i.toNat - 1) % 16) 0
  have hφ : ∀ i, i ≠ 0 → φ i ∈ ms := by
    intro i hi
    simp only [φ, if_neg hi]
    have hlt : (i.toNat - 1) % 16 < ms.length := Nat.mod_lt _ (by decide)
    rw [List.getD, List.getElem?_eq_getElem hlt]
    exact List.getElem_mem _
  have h0 : φ 0 = s := rfl
  have hp : pull lt φ = fun a b => decide (a = 0 ∧ b ≠ 0) := by
    funext a b
    by_cases ha : a = 0
    · subst ha
      by_cases hb : b = 0
      · subst hb; simp [pull, h0, hs]
      · simp [pull, h0, hb, (hm _ (hφ b hb)).1]
    · by_cases hb : b = 0
      · subst hb; simp [pull, h0, ha, (hm _ (hφ a ha)).2.1]
      · simp [pull, ha, (hm _ (hφ a ha)).2.2 _ (hφ b hb)]
  have := stdSort_map (lt := lt) (φ := φ) [0, 1, 2, 3, 4, 5, 6, 7, 8, 9, 10, 11, 12, 13, 14, 15, 16]
  rw [hp, seventeen] at this
  exact this

end U5e.StdSort
