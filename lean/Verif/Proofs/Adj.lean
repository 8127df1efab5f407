import Verif.Proofs.Segments
/-! Relations between neighbours of a list. -/
namespace U5e
open Spec

/-- `R` holds of all neighbours. -/
def Adj {α : Type} (R : α → α → Prop) : List α → Prop
  | [] => True
  | [_] => True
  | a :: b :: l => R a b ∧ Adj R (b :: l)

theorem adj_cons {α : Type} {R : α → α → Prop} {a : α} {l : List α} :
    Adj R (a :: l) ↔ (∀ b, l.head? = some b → R a b) ∧ Adj R l := by
  cases l with
  | nil => simp [Adj]
  | cons b l => simp [Adj]

theorem adj_append {α : Type} {R : α → α → Prop} {l1 l2 : List α} :
    Adj R (l1 ++ l2) ↔ Adj R l1 ∧ Adj R l2 ∧
      ∀ a b, l1.getLast? = some a → l2.head? = some b → R a b := by
  induction l1 with
  | nil => simp [Adj]
  | cons x l1 ih =>
    rw [List.cons_append, adj_cons, adj_cons, ih]
    cases l1 with
    | nil =>
      simp only [List.nil_append, List.getLast?_singleton, Option.some.injEq, List.head?_nil]
      constructor
      · rintro ⟨h1, h2, h3, h4⟩
        exact ⟨⟨by simp, trivial⟩, h3, by rintro a b rfl hb; exact h1 b hb⟩
      · rintro ⟨_, h3, h4⟩
        exact ⟨fun b hb => h4 x b rfl hb, trivial, h3, by simp⟩
    | cons y l1 =>
      simp only [List.cons_append, List.head?_cons, List.getLast?_cons_cons]
      constructor
      · rintro ⟨h1, h2, h3, h4⟩; exact ⟨⟨h1, h2⟩, h3, h4⟩
      · rintro ⟨⟨h1, h2⟩, h3, h4⟩; exact ⟨h1, h2, h3, h4⟩

theorem adj_iff {α : Type} {R : α → α → Prop} {l : List α} :
    Adj R l ↔ ∀ p a b q, l = p ++ a :: b :: q → R a b := by
  constructor
  · rintro h p a b q rfl
    rw [show p ++ a :: b :: q = (p ++ [a]) ++ (b :: q) by simp, adj_append] at h
    exact h.2.2 a b (by simp) rfl
  · intro h
    induction l with
    | nil => trivial
    | cons a l ih =>
      rw [adj_cons]
      refine ⟨?_, ih fun p x y q he => h (a :: p) x y q (by simp [he])⟩
      intro b hb
      cases l with
      | nil => simp at hb
      | cons c l => simp at hb; subst hb; exact h [] a c l rfl

theorem Adj.imp {α : Type} {R Q : α → α → Prop} (h : ∀ a b, R a b → Q a b) {l : List α} (hl : Adj R l) :
    Adj Q l := adj_iff.mpr fun p a b q he => h a b (adj_iff.mp hl p a b q he)

/-- `Q` holds between the last of `u` and the first of `v`. -/
def Junc {α : Type} (Q : α → α → Prop) (u v : List α) : Prop :=
  ∀ a b, u.getLast? = some a → v.head? = some b → Q a b

theorem head_flatten {α : Type} {w : List α} {ws : List (List α)} (h : w ≠ []) :
    (w :: ws).flatten.head? = w.head? := by
  cases w with
  | nil => exact absurd rfl h
  | cons x w => rfl

theorem adj_flatten {α : Type} {Q : α → α → Prop} {ws : List (List α)} (hne : ∀ w ∈ ws, w ≠ []) :
    Adj Q ws.flatten ↔ (∀ w ∈ ws, Adj Q w) ∧ Adj (Junc Q) ws := by
  induction ws with
  | nil => simp [Adj]
  | cons w ws ih =>
    have ih := ih (fun x hx => hne x (by simp [hx]))
    rw [List.flatten_cons, adj_append, ih, adj_cons]
    have hj : (∀ a b, w.getLast? = some a → ws.flatten.head? = some b → Q a b) ↔
        (∀ v, ws.head? = some v → Junc Q w v) := by
      cases ws with
      | nil => simp
      | cons v ws =>
        rw [head_flatten (hne v (by simp))]
        simp [Junc]
    rw [hj]
    simp only [List.mem_cons, forall_eq_or_imp]
    constructor
    · rintro ⟨h1, ⟨h2, h3⟩, h4⟩; exact ⟨⟨h1, h2⟩, h4, h3⟩
    · rintro ⟨⟨h1, h2⟩, h4, h3⟩; exact ⟨h1, ⟨h2, h3⟩, h4⟩

/-- A relation between neighbours that are not separated by a break, in terms of the parts. -/
theorem adj_segments (brk : Int → Int → Bool) (Q : Int → Int → Prop) (cs : List Int) :
    Adj (fun a b => brk a b = false → Q a b) cs ↔ ∀ g ∈ segments brk cs, Adj Q g := by
  have hs := segments_isSegmentation brk cs
  conv => lhs; rw [← hs.concat]
  rw [adj_flatten hs.nonempty]
  constructor
  · rintro ⟨h1, _⟩ g hg
    refine adj_iff.mpr fun p a b q he => ?_
    refine adj_iff.mp (h1 g hg) p a b q he ?_
    have := hs.inside g hg p a b q he
    simpa using this
  · intro h
    refine ⟨fun g hg => Adj.imp (Q := fun a b => brk a b = false → Q a b) (fun a b hq _ => hq) (h g hg), ?_⟩
    refine adj_iff.mpr fun p g k q he a b ha hb hf => ?_
    have := hs.between p g k q he a b ha hb
    rw [hf] at this; simp at this

theorem pairwise_adj {α : Type} {Q : α → α → Prop} (ht : ∀ a b c, Q a b → Q b c → Q a c) {l : List α} :
    l.Pairwise Q ↔ Adj Q l := by
  induction l with
  | nil => simp [Adj]
  | cons a l ih =>
    rw [List.pairwise_cons, adj_cons, ih]
    constructor
    · rintro ⟨h1, h2⟩; exact ⟨fun b hb => h1 b (List.mem_of_head? hb), h2⟩
    · rintro ⟨h1, h2⟩
      refine ⟨?_, h2⟩
      cases l with
      | nil => simp
      | cons b l =>
        intro x hx
        have hab := h1 b rfl
        rcases List.mem_cons.mp hx with rfl | hx
        · exact hab
        · exact ht a b x hab ((List.pairwise_cons.mp (ih.mpr h2)).1 x hx)

theorem adj_flatMap {α : Type} {Q : α → α → Prop} {f : α → List α} (hne : ∀ x, f x ≠ []) (l : List α) :
    Adj Q (l.flatMap f) ↔ (∀ x ∈ l, Adj Q (f x)) ∧ Adj (fun x y => Junc Q (f x) (f y)) l := by
  rw [List.flatMap_def, adj_flatten (by simp only [List.mem_map]; rintro w ⟨x, _, rfl⟩; exact hne x)]
  simp only [List.mem_map, forall_exists_index, and_imp, forall_apply_eq_imp_iff₂]
  refine and_congr Iff.rfl ?_
  induction l with
  | nil => simp [Adj]
  | cons a l ih =>
    rw [List.map_cons, adj_cons, adj_cons, ih, List.head?_map]
    refine and_congr ?_ Iff.rfl
    cases l with
    | nil => simp
    | cons b l => simp

end U5e
