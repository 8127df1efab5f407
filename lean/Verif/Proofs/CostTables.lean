import Verif.Proofs.CostUtf8
/-! How many rows the look-ups compare. -/
namespace U5e
namespace Work

theorem bsearchLoop_le (cmp : α → Ordering) (t : List α) (n fuel l u : Nat) (h : u - l < 2 ^ n) :
    (bsearchLoop cmp t fuel l u).reads ≤ n := by
  induction n generalizing fuel l u with
  | zero =>
    cases fuel with
    | zero => simp [bsearchLoop]
    | succ f => rw [bsearchLoop, if_neg (by omega)]; simp
  | succ n ih =>
    cases fuel with
    | zero => simp [bsearchLoop]
    | succ f =>
      rw [bsearchLoop]
      split
      · rename_i hlu
        have h2 : 2 ^ (n + 1) = 2 ^ n + 2 ^ n := by rw [Nat.pow_succ]; omega
        refine Nat.le_trans (reads_le (j := 1) (k := n) (Nat.le_refl _) fun x _ => ?_) (by omega)
        split
        · exact ih f _ _ (by omega)
        · exact ih f _ _ (by omega)
        · simp
      · simp

/-- A binary search over fewer than `2^n` rows compares at most `n` of them. -/
theorem bsearch_le (cmp : α → Ordering) (t : List α) (n : Nat) (h : t.length < 2 ^ n) : (bsearch cmp t).reads ≤ n :=
  bsearchLoop_le cmp t n _ _ _ (by omega)

theorem ccc_length : Data.cccTable.length < 2 ^ 10 := by decide +kernel
theorem dec_length : Data.decTable.length < 2 ^ 12 := by decide +kernel
theorem kdec_length : Data.kdecTable.length < 2 ^ 12 := by decide +kernel
theorem comp_length : Data.compTable.length < 2 ^ 10 := by decide +kernel
theorem gcb_length : Data.gcbTable.length < 2 ^ 11 := by decide +kernel

theorem ccc_le (c : Int) : (cccResolve c).reads ≤ 10 := by
  rw [cccResolve]
  refine reads_le (j := 10) (k := 0) (bsearch_le _ _ 10 ccc_length) fun r _ => ?_
  split <;> simp

theorem dec_le (c : Int) : (decResolve c).reads ≤ 12 := by
  rw [decResolve]
  refine reads_le (j := 12) (k := 0) (bsearch_le _ _ 12 dec_length) fun r _ => ?_
  split <;> simp

theorem kdec_le (c : Int) : (kdecResolve c).reads ≤ 12 := by
  rw [kdecResolve]
  refine reads_le (j := 12) (k := 0) (bsearch_le _ _ 12 kdec_length) fun r _ => ?_
  split <;> simp

theorem comp_le (a b : Int) : (compResolve a b).reads ≤ 10 := by
  rw [compResolve]
  refine reads_le (j := 10) (k := 0) (bsearch_le _ _ 10 comp_length) fun r _ => ?_
  split <;> simp

theorem gcb_le (c : Int) : (gcbResolve c).reads ≤ 11 := by
  rw [gcbResolve]
  refine reads_le (j := 11) (k := 0) (bsearch_le _ _ 11 gcb_length) fun r _ => ?_
  split <;> simp

theorem boundary_le (a b : Int) : (isGraphemeBoundary a b).reads ≤ 22 := by
  rw [isGraphemeBoundary]
  refine reads_le (j := 11) (k := 11) (gcb_le a) fun va _ => ?_
  exact reads_le (j := 11) (k := 0) (gcb_le b) fun _ _ => by simp

theorem order_le (a b : Int) : (combiningOrder a b).reads ≤ 20 := by
  rw [combiningOrder]
  refine reads_le (j := 10) (k := 10) (ccc_le a) fun va _ => ?_
  exact reads_le (j := 10) (k := 0) (ccc_le b) fun _ _ => by simp

end Work
end U5e
