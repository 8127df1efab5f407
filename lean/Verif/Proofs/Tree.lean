import Verif.Proofs.Tables
/-! Search trees used to evaluate table look-ups quickly in the kernel (proof aid). -/
namespace U5e

inductive Tree (α : Type) where
  | leaf
  | node (l : Tree α) (row : α) (r : Tree α)

namespace Tree
variable {α : Type}

def toList : Tree α → List α
  | leaf => []
  | node l x r => l.toList ++ x :: r.toList

/-- Accumulating traversal, linear time. -/
def toListAux : Tree α → List α → List α
  | leaf, acc => acc
  | node l x r, acc => l.toListAux (x :: r.toListAux acc)

theorem toListAux_eq (t : Tree α) (acc : List α) : t.toListAux acc = t.toList ++ acc := by
  induction t generalizing acc with
  | leaf => rfl
  | node l x r ihl ihr => simp [toListAux, toList, ihl, ihr]

/-- Written with the recursor: this evaluates fast in the kernel. -/
noncomputable def find (cmp : α → Ordering) (t : Tree α) : Option α :=
  Tree.rec (motive := fun _ => Option α) none
    (fun _ x _ fl fr => Ordering.rec (motive := fun _ => Option α) fl (some x) fr (cmp x)) t

theorem find_node (cmp : α → Ordering) (l : Tree α) (x : α) (r : Tree α) :
    (node l x r).find cmp = match cmp x with
      | .lt => l.find cmp
      | .gt => r.find cmp
      | .eq => some x := by
  show Ordering.rec (motive := fun _ => Option α) (l.find cmp) (some x) (r.find cmp) (cmp x) = _
  cases cmp x <;> rfl

theorem find_leaf (cmp : α → Ordering) : (leaf : Tree α).find cmp = none := rfl

def all (p : α → Bool) : Tree α → Bool
  | leaf => true
  | node l x r => p x && (l.all p && r.all p)

theorem all_iff (p : α → Bool) (t : Tree α) : t.all p = true ↔ ∀ x ∈ t.toList, p x = true := by
  induction t with
  | leaf => simp [all, toList]
  | node l x r ihl ihr =>
    simp only [all, toList, Bool.and_eq_true, ihl, ihr, List.mem_append, List.mem_cons]
    constructor
    · rintro ⟨h1, h2, h3⟩ y (h | h | h)
      · exact h2 y h
      · rw [h]; exact h1
      · exact h3 y h
    · intro h
      exact ⟨h x (.inr (.inl rfl)), fun y hy => h y (.inl hy), fun y hy => h y (.inr (.inr hy))⟩

theorem find_some {cmp : α → Ordering} {t : Tree α} {x : α} (h : t.find cmp = some x) :
    x ∈ t.toList ∧ cmp x = .eq := by
  induction t with
  | leaf => simp [find_leaf] at h
  | node l y r ihl ihr =>
    rw [find_node] at h
    split at h
    · have := ihl h; exact ⟨by simp [toList, this.1], this.2⟩
    · have := ihr h; exact ⟨by simp [toList, this.1], this.2⟩
    · next he => injection h with h; subst h; exact ⟨by simp [toList], he⟩

theorem ordered_left {cmp : α → Ordering} {a b : List α} (h : Ordered cmp (a ++ b)) : Ordered cmp a := by
  constructor
  intro i j x y hij hx hy
  have hi := (List.getElem?_eq_some_iff.mp hx).1
  have hj := (List.getElem?_eq_some_iff.mp hy).1
  exact h.lt_up i j x y hij (by rw [List.getElem?_append_left hi, hx]) (by rw [List.getElem?_append_left hj, hy])

theorem ordered_right {cmp : α → Ordering} {a b : List α} (h : Ordered cmp (a ++ b)) : Ordered cmp b := by
  constructor
  intro i j x y hij hx hy
  exact h.lt_up (a.length + i) (a.length + j) x y (by omega)
    (by rw [List.getElem?_append_right (by omega), Nat.add_sub_cancel_left, hx])
    (by rw [List.getElem?_append_right (by omega), Nat.add_sub_cancel_left, hy])

theorem ordered_split {cmp : α → Ordering} {a b : List α} {x : α} (h : Ordered cmp (a ++ x :: b)) :
    (∀ y ∈ a, cmp x ≠ .lt → cmp y = .gt) ∧ (∀ y ∈ b, cmp x ≠ .gt → cmp y = .lt) := by
  have hx : (a ++ x :: b)[a.length]? = some x := by simp
  constructor
  · intro y hy
    obtain ⟨i, hi⟩ := List.getElem?_of_mem hy
    have hlt := (List.getElem?_eq_some_iff.mp hi).1
    exact h.gt_down i a.length y x hlt (by rw [List.getElem?_append_left hlt, hi]) hx
  · intro y hy
    obtain ⟨i, hi⟩ := List.getElem?_of_mem hy
    refine h.lt_up a.length (a.length + (i + 1)) x y (by omega) hx ?_
    rw [List.getElem?_append_right (by omega), Nat.add_sub_cancel_left, List.getElem?_cons_succ, hi]

theorem find_none {cmp : α → Ordering} {t : Tree α} (ho : Ordered cmp t.toList) (h : t.find cmp = none) :
    ∀ x ∈ t.toList, cmp x ≠ .eq := by
  induction t with
  | leaf => simp [toList]
  | node l y r ihl ihr =>
    simp only [toList] at ho
    obtain ⟨hl, hr⟩ := ordered_split ho
    have ol := ordered_left ho
    have or' : Ordered cmp r.toList := ordered_right (a := [y]) (ordered_right (b := [y] ++ r.toList) ho)
    intro x hx
    simp only [toList, List.mem_append, List.mem_cons] at hx
    rw [find_node] at h
    split at h
    · next he =>
      rcases hx with hx | rfl | hx
      · exact ihl ol h x hx
      · rw [he]; simp
      · rw [hr x hx (by simp [he])]; simp
    · next he =>
      rcases hx with hx | rfl | hx
      · rw [hl x hx (by simp [he])]; simp
      · rw [he]; simp
      · exact ihr or' h x hx
    · simp at h

/-- On an ordered table the tree search is `bsearch`. -/
theorem find_eq_bsearch {cmp : α → Ordering} {t : Tree α} {l : List α} (hl : t.toList = l)
    (ho : Ordered cmp l) : t.find cmp = bsearch cmp l := by
  subst hl
  cases hf : t.find cmp with
  | none => exact (bsearch_none (find_none ho hf)).symm
  | some x => exact (bsearch_finds ho x (find_some hf).1 (find_some hf).2).symm

theorem find_congr {c1 c2 : α → Ordering} (t : Tree α) (h : ∀ x, c1 x = c2 x) : t.find c1 = t.find c2 := by
  rw [show c1 = c2 from funext h]

end Tree
end U5e
