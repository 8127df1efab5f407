import Verif.Data.CccTree
import Verif.Data.DecTree
import Verif.Data.KdecTree
import Verif.Data.CompTree
import Verif.Data.GcbTree
import Verif.Properties.Lookup
/-! The search trees are the tables; table look-ups as tree look-ups. -/
namespace U5e
open Data

def eqRow : List Nat → List Nat → Bool
  | [], [] => true
  | a :: l, b :: m => Nat.beq a b && eqRow l m
  | _, _ => false

theorem eqRow_iff {a b : List Nat} (h : eqRow a b = true) : a = b := by
  induction a generalizing b with
  | nil => cases b <;> simp_all [eqRow]
  | cons x l ih =>
    cases b with
    | nil => simp [eqRow] at h
    | cons y m =>
      simp only [eqRow, Bool.and_eq_true, Nat.beq_eq] at h
      rw [h.1, ih h.2]

def eqList (e : α → α → Bool) : List α → List α → Bool
  | [], [] => true
  | a :: l, b :: m => e a b && eqList e l m
  | _, _ => false

theorem eqList_iff {e : α → α → Bool} (he : ∀ a b, e a b = true → a = b) {a b : List α}
    (h : eqList e a b = true) : a = b := by
  induction a generalizing b with
  | nil => cases b <;> simp_all [eqList]
  | cons x l ih =>
    cases b with
    | nil => simp [eqList] at h
    | cons y m =>
      simp only [eqList, Bool.and_eq_true] at h
      rw [he _ _ h.1, ih h.2]

def eqRange (a b : Nat × Nat × GCB) : Bool :=
  Nat.beq a.1 b.1 && (Nat.beq a.2.1 b.2.1 && decide (a.2.2 = b.2.2))

theorem eqRange_iff (a b : Nat × Nat × GCB) (h : eqRange a b = true) : a = b := by
  obtain ⟨a1, a2, a3⟩ := a; obtain ⟨b1, b2, b3⟩ := b
  simp [eqRange] at h; simp [h]

theorem tree_toList {t : Tree α} {l : List α} {e : α → α → Bool} (he : ∀ a b, e a b = true → a = b)
    (h : eqList e (t.toListAux []) l = true) : t.toList = l := by
  have := eqList_iff he h
  rwa [Tree.toListAux_eq, List.append_nil] at this

set_option maxRecDepth 100000 in
theorem cccTree_toList : cccTree.toList = cccTable :=
  tree_toList (fun _ _ => eqRow_iff) (by decide +kernel)
set_option maxRecDepth 100000 in
theorem decTree_toList : decTree.toList = decTable :=
  tree_toList (fun _ _ => eqRow_iff) (by decide +kernel)
set_option maxRecDepth 100000 in
theorem kdecTree_toList : kdecTree.toList = kdecTable :=
  tree_toList (fun _ _ => eqRow_iff) (by decide +kernel)
set_option maxRecDepth 100000 in
theorem compTree_toList : compTree.toList = compTable :=
  tree_toList (fun _ _ => eqRow_iff) (by decide +kernel)
set_option maxRecDepth 100000 in
theorem gcbTree_toList : gcbTree.toList = gcbTable :=
  tree_toList eqRange_iff (by decide +kernel)

/-- Comparison with a natural key. -/
def cmpN (k : Nat) : List Nat → Ordering
  | [] => cond (Nat.blt 0 k) .gt .eq
  | x :: _ => cond (Nat.blt k x) .lt (cond (Nat.blt x k) .gt .eq)

def cmpN2 (a b : Nat) (row : List Nat) : Ordering :=
  cond (Nat.blt a (key0 row)) .lt (cond (Nat.blt (key0 row) a) .gt
    (cond (Nat.blt b (key1 row)) .lt (cond (Nat.blt (key1 row) b) .gt .eq)))

def cmpR (k : Nat) (r : Nat × Nat × GCB) : Ordering :=
  cond (Nat.blt k r.1) .lt (cond (Nat.ble k r.2.1) .eq .gt)

theorem cmpN_eq (k : Nat) (row : List Nat) : cmpN k row = compareValueToRow (k : Int) row := by
  cases row with
  | nil =>
    simp only [cmpN, cond_eq_ite, compareValueToRow, elemAt0, key0, Nat.blt_eq]
    by_cases h : 0 < k
    · rw [if_pos h, if_neg (by simp), if_pos (by simp; omega)]
    · rw [if_neg h, if_neg (by simp), if_neg (by simp; omega)]
  | cons x l =>
    simp only [cmpN, cond_eq_ite, compareValueToRow, elemAt0, key0, Nat.blt_eq]
    by_cases h : k < x
    · rw [if_pos h, if_pos (by simp; omega)]
    · by_cases h2 : x < k
      · rw [if_neg h, if_pos h2, if_neg (by simp; omega), if_pos (by simp; omega)]
      · rw [if_neg h, if_neg h2, if_neg (by simp; omega), if_neg (by simp; omega)]

theorem cmpN2_eq (a b : Nat) (row : List Nat) : cmpN2 a b row = comparePairToRow (a : Int) (b : Int) row := by
  simp only [cmpN2, cond_eq_ite, comparePairToRow, elemAt0, elemAt1, Nat.blt_eq, gt_iff_lt, Int.ofNat_lt]

theorem cmpR_eq (k : Nat) (r : Nat × Nat × GCB) : cmpR k r = compareValueToRange (k : Int) r := by
  simp only [cmpR, cond_eq_ite, compareValueToRange, Nat.blt_eq, Nat.ble_eq]
  by_cases h : k < r.1
  · rw [if_pos h, if_pos (Int.ofNat_lt.mpr h)]
  · have h' : ¬ ((k : Int) < (r.1 : Int)) := by omega
    rw [if_neg h, if_neg h']
    by_cases h2 : k ≤ r.2.1
    · rw [if_pos h2, if_pos (by omega)]
    · rw [if_neg h2, if_neg (by omega)]

/-- Tree versions of the look-ups on natural numbers. -/
noncomputable def cccT (c : Nat) : Nat := match cccTree.find (cmpN c) with
  | some (_ :: v :: _) => v
  | _ => 0
noncomputable def decT (c : Nat) : Option (List Nat) := (decTree.find (cmpN c)).map List.tail
noncomputable def kdecT (c : Nat) : Option (List Nat) := (kdecTree.find (cmpN c)).map List.tail
noncomputable def compT (a b : Nat) : Option Nat := (compTree.find (cmpN2 a b)).map key2
noncomputable def gcbT (c : Nat) : GCB := match gcbTree.find (cmpR c) with
  | some r => r.2.2
  | none => .OTHER

theorem cccResolve_nat (c : Nat) : cccResolve c = cccT c := by
  rw [cccResolve, cccT, ← Tree.find_eq_bsearch cccTree_toList (ordered_row ccc_sorted (c : Int)),
    Tree.find_congr cccTree (fun x => (cmpN_eq c x).symm)]
  match h : cccTree.find (cmpN c) with
  | none => rfl
  | some [] => rfl
  | some [_] => rfl
  | some (_ :: _ :: _) => rfl

theorem decResolve_nat (c : Nat) : decResolve c = (decT c).map (·.map Int.ofNat) := by
  rw [decResolve, decT, ← Tree.find_eq_bsearch decTree_toList (ordered_row dec_sorted (c : Int)),
    Tree.find_congr decTree (fun x => (cmpN_eq c x).symm)]
  cases decTree.find (cmpN c) <;> rfl

theorem kdecResolve_nat (c : Nat) : kdecResolve c = (kdecT c).map (·.map Int.ofNat) := by
  rw [kdecResolve, kdecT, ← Tree.find_eq_bsearch kdecTree_toList (ordered_row kdec_sorted (c : Int)),
    Tree.find_congr kdecTree (fun x => (cmpN_eq c x).symm)]
  cases kdecTree.find (cmpN c) <;> rfl

theorem compResolve_nat (a b : Nat) : compResolve a b = (compT a b).map Int.ofNat := by
  rw [compResolve, compT,
    ← Tree.find_eq_bsearch compTree_toList (ordered_pair comp_sorted (a : Int) (b : Int)),
    Tree.find_congr compTree (fun x => (cmpN2_eq a b x).symm)]
  cases compTree.find (cmpN2 a b) <;> rfl

theorem gcbResolve_nat (c : Nat) : gcbResolve c = gcbT c := by
  rw [gcbResolve, gcbT, ← Tree.find_eq_bsearch gcbTree_toList (ordered_range gcb_sorted (c : Int)),
    Tree.find_congr gcbTree (fun x => (cmpR_eq c x).symm)]
  cases gcbTree.find (cmpR c) <;> rfl

theorem cccResolve_neg (c : Int) (h : c < 0) : cccResolve c = 0 := by
  apply C27_ccc_default; intro row _ k _; omega

theorem decResolve_neg (c : Int) (h : c < 0) : decResolve c = none := by
  cases hd : decResolve c with
  | none => rfl
  | some m => obtain ⟨k, l, h1, _⟩ := (C27_dec_iff c m).mp hd; omega

theorem kdecResolve_neg (c : Int) (h : c < 0) : kdecResolve c = none := by
  cases hd : kdecResolve c with
  | none => rfl
  | some m => obtain ⟨k, l, h1, _⟩ := (C27_kdec_iff c m).mp hd; omega

theorem gcbResolve_neg (c : Int) (h : c < 0) : gcbResolve c = .OTHER := by
  apply C27_gcb_default; rintro lo hi v _ ⟨h1, _⟩; omega

end U5e
