import Verif.Proofs.Bsearch
/-! Sortedness of the five tables (kernel evaluation over every row) and ordering for every key. -/
namespace U5e
open Data

/-- Adjacent-pairs check, linear time. -/
def chainB (r : α → α → Bool) : List α → Bool
  | [] => true
  | [_] => true
  | a :: b :: l => r a b && chainB r (b :: l)

theorem chainB_pairwise {r : α → α → Bool} (htr : ∀ a b c, r a b → r b c → r a c) (l : List α)
    (h : chainB r l = true) : l.Pairwise (fun a b => r a b = true) := by
  induction l with
  | nil => exact List.Pairwise.nil
  | cons a l ih =>
    cases l with
    | nil => simp
    | cons b l =>
      simp only [chainB, Bool.and_eq_true] at h
      have hp := ih h.2
      refine List.Pairwise.cons ?_ hp
      intro x hx
      rcases List.mem_cons.mp hx with rfl | hx
      · exact h.1
      · exact htr _ _ _ h.1 ((List.pairwise_cons.mp hp).1 x hx)

theorem pairwise_getElem? {R : α → α → Prop} {l : List α} (h : l.Pairwise R) (i j : Nat) (x y : α)
    (hij : i < j) (hx : l[i]? = some x) (hy : l[j]? = some y) : R x y := by
  obtain ⟨hi, rfl⟩ := List.getElem?_eq_some_iff.mp hx
  obtain ⟨hj, rfl⟩ := List.getElem?_eq_some_iff.mp hy
  exact List.pairwise_iff_getElem.mp h i j hi hj hij

/-- First column. -/
def key0 (row : List Nat) : Nat := (row[0]?).getD 0
/-- Second column. -/
def key1 (row : List Nat) : Nat := (row[1]?).getD 0
/-- Third column. -/
def key2 (row : List Nat) : Nat := (row[2]?).getD 0

theorem elemAt0 (row) : elemAt row 0 = (key0 row : Int) := id rfl
theorem elemAt1 (row) : elemAt row 1 = (key1 row : Int) := id rfl
theorem elemAt2 (row) : elemAt row 2 = (key2 row : Int) := id rfl

def lt0 (a b : List Nat) : Bool := Nat.blt (key0 a) (key0 b)
def lt01 (a b : List Nat) : Bool :=
  Nat.blt (key0 a) (key0 b) || (Nat.beq (key0 a) (key0 b) && Nat.blt (key1 a) (key1 b))
def ltR (a b : Nat × Nat × GCB) : Bool :=
  Nat.blt a.2.1 b.1 && Nat.ble a.1 a.2.1 && Nat.ble b.1 b.2.1

theorem lt0_iff {a b} : lt0 a b = true ↔ key0 a < key0 b := by
  unfold lt0; rw [Nat.blt_eq]

theorem lt01_iff {a b} : lt01 a b = true ↔
    key0 a < key0 b ∨ (key0 a = key0 b ∧ key1 a < key1 b) := by
  simp [lt01, Nat.blt_eq]

theorem ltR_iff {a b} : ltR a b = true ↔ a.2.1 < b.1 ∧ a.1 ≤ a.2.1 ∧ b.1 ≤ b.2.1 := by
  simp [ltR, Nat.blt_eq, and_assoc]

theorem sorted0 (t : List (List Nat)) (h : chainB lt0 t = true) :
    t.Pairwise (fun a b => key0 a < key0 b) :=
  (chainB_pairwise (by intro a b c; simp only [lt0_iff]; omega) t h).imp (lt0_iff.mp ·)

theorem sorted01 (t : List (List Nat)) (h : chainB lt01 t = true) :
    t.Pairwise (fun a b => key0 a < key0 b ∨ (key0 a = key0 b ∧ key1 a < key1 b)) :=
  (chainB_pairwise (by intro a b c; simp only [lt01_iff]; omega) t h).imp (lt01_iff.mp ·)

theorem sortedR (t : List (Nat × Nat × GCB)) (h : chainB ltR t = true) :
    t.Pairwise (fun a b => a.2.1 < b.1 ∧ a.1 ≤ a.2.1 ∧ b.1 ≤ b.2.1) :=
  (chainB_pairwise (by intro a b c; simp only [ltR_iff]; omega) t h).imp (ltR_iff.mp ·)

theorem ordered_row {t : List (List Nat)} (h : t.Pairwise (fun a b => key0 a < key0 b)) (k : Int) :
    Ordered (compareValueToRow k) t := by
  constructor
  intro i j x y hij hx hy hc
  have := pairwise_getElem? h i j x y hij hx hy
  simp only [compareValueToRow, elemAt0] at hc ⊢
  rw [if_pos]
  by_cases h1 : k < (key0 x : Int)
  · omega
  · by_cases h2 : k > (key0 x : Int)
    · simp [h1, h2] at hc
    · omega

theorem ordered_pair {t : List (List Nat)}
    (h : t.Pairwise (fun a b => key0 a < key0 b ∨ (key0 a = key0 b ∧ key1 a < key1 b))) (k l : Int) :
    Ordered (comparePairToRow k l) t := by
  constructor
  intro i j x y hij hx hy hc
  have := pairwise_getElem? h i j x y hij hx hy
  have hx' : k < (key0 x : Int) ∨ (k = (key0 x : Int) ∧ l ≤ (key1 x : Int)) := by
    simp only [comparePairToRow, elemAt0, elemAt1] at hc
    by_cases h1 : k < (key0 x : Int)
    · exact .inl h1
    · rw [if_neg h1] at hc
      by_cases h2 : k > (key0 x : Int)
      · rw [if_pos h2] at hc; exact absurd rfl hc
      · rw [if_neg h2] at hc
        by_cases h3 : l < (key1 x : Int)
        · right; omega
        · rw [if_neg h3] at hc
          by_cases h4 : l > (key1 x : Int)
          · rw [if_pos h4] at hc; exact absurd rfl hc
          · right; omega
  simp only [comparePairToRow, elemAt0, elemAt1]
  by_cases h1 : k < (key0 y : Int)
  · rw [if_pos h1]
  · rw [if_neg h1, if_neg (by omega), if_pos (by omega)]

theorem ordered_range {t : List (Nat × Nat × GCB)}
    (h : t.Pairwise (fun a b => a.2.1 < b.1 ∧ a.1 ≤ a.2.1 ∧ b.1 ≤ b.2.1)) (k : Int) :
    Ordered (compareValueToRange k) t := by
  constructor
  intro i j x y hij hx hy hc
  have := pairwise_getElem? h i j x y hij hx hy
  simp only [compareValueToRange] at hc ⊢
  rw [if_pos]
  by_cases h1 : k < (x.1 : Int)
  · omega
  · by_cases h2 : k ≥ (x.1 : Int) ∧ k ≤ (x.2.1 : Int)
    · omega
    · simp [h1, h2] at hc

theorem cmpRow_eq {k : Int} {row : List Nat} : compareValueToRow k row = .eq ↔ k = (key0 row : Int) := by
  simp only [compareValueToRow, elemAt0]
  by_cases h1 : k < (key0 row : Int)
  · rw [if_pos h1]; simp; omega
  · rw [if_neg h1]
    by_cases h2 : k > (key0 row : Int)
    · rw [if_pos h2]; simp; omega
    · rw [if_neg h2]; simp; omega

theorem cmpPair_eq {k l : Int} {row : List Nat} :
    comparePairToRow k l row = .eq ↔ k = (key0 row : Int) ∧ l = (key1 row : Int) := by
  simp only [comparePairToRow, elemAt0, elemAt1]
  by_cases h1 : k < (key0 row : Int)
  · rw [if_pos h1]; simp; omega
  · rw [if_neg h1]
    by_cases h2 : k > (key0 row : Int)
    · rw [if_pos h2]; simp; omega
    · rw [if_neg h2]
      by_cases h3 : l < (key1 row : Int)
      · rw [if_pos h3]; simp; omega
      · rw [if_neg h3]
        by_cases h4 : l > (key1 row : Int)
        · rw [if_pos h4]; simp; omega
        · rw [if_neg h4]; simp; omega

theorem cmpRange_eq {k : Int} {r : Nat × Nat × GCB} :
    compareValueToRange k r = .eq ↔ (r.1 : Int) ≤ k ∧ k ≤ (r.2.1 : Int) := by
  simp only [compareValueToRange]
  by_cases h1 : k < (r.1 : Int)
  · rw [if_pos h1]; simp; omega
  · rw [if_neg h1]
    by_cases h2 : k ≥ (r.1 : Int) ∧ k ≤ (r.2.1 : Int)
    · rw [if_pos h2]; simp; omega
    · rw [if_neg h2]; simp; omega

theorem find_row {t : List (List Nat)} (hs : t.Pairwise (fun a b => key0 a < key0 b)) (k : Nat)
    (m : List Nat) (h : k :: m ∈ t) : bsearch (compareValueToRow (k : Int)) t = some (k :: m) :=
  bsearch_finds (ordered_row hs (k : Int)) (k :: m) h (cmpRow_eq.mpr (by simp [key0]))

theorem find_pair {t : List (List Nat)}
    (hs : t.Pairwise (fun a b => key0 a < key0 b ∨ (key0 a = key0 b ∧ key1 a < key1 b))) (i j : Nat)
    (m : List Nat) (h : i :: j :: m ∈ t) :
    bsearch (comparePairToRow (i : Int) (j : Int)) t = some (i :: j :: m) :=
  bsearch_finds (ordered_pair hs (i : Int) (j : Int)) _ h (cmpPair_eq.mpr (by simp [key0, key1]))

set_option maxRecDepth 100000 in
theorem ccc_chain : chainB lt0 cccTable = true := by decide +kernel
set_option maxRecDepth 100000 in
theorem dec_chain : chainB lt0 decTable = true := by decide +kernel
set_option maxRecDepth 100000 in
theorem kdec_chain : chainB lt0 kdecTable = true := by decide +kernel
set_option maxRecDepth 100000 in
theorem comp_chain : chainB lt01 compTable = true := by decide +kernel
set_option maxRecDepth 100000 in
theorem gcb_chain : chainB ltR gcbTable = true := by decide +kernel

theorem ccc_sorted : cccTable.Pairwise (fun a b => key0 a < key0 b) := sorted0 _ ccc_chain
theorem dec_sorted : decTable.Pairwise (fun a b => key0 a < key0 b) := sorted0 _ dec_chain
theorem kdec_sorted : kdecTable.Pairwise (fun a b => key0 a < key0 b) := sorted0 _ kdec_chain
theorem comp_sorted : compTable.Pairwise
    (fun a b => key0 a < key0 b ∨ (key0 a = key0 b ∧ key1 a < key1 b)) := sorted01 _ comp_chain
theorem gcb_sorted : gcbTable.Pairwise
    (fun a b => a.2.1 < b.1 ∧ a.1 ≤ a.2.1 ∧ b.1 ≤ b.2.1) := sortedR _ gcb_chain

end U5e
