import Verif.Proofs.Generators
import Mathlib.Logic.Relation
/-! Exact termination condition of the substitution loop. -/
namespace U5e
open Spec

/-- `x` is an entry of `k`'s mapping and has a mapping itself. -/
def Entry (d : Nat → Option (List Nat)) (x k : Nat) : Prop := ∃ m, d k = some m ∧ x ∈ m ∧ d x ≠ none

theorem entry_acyclic {d : Nat → Option (List Nat)} (h : ¬ Circular d) (k : Nat) :
    ¬ Relation.TransGen (Entry d) k k := by
  intro hk
  apply h
  refine ⟨fun x => Relation.TransGen (Entry d) x x, ⟨k, hk⟩, ?_⟩
  intro y hy
  have : ∃ x, Entry d x y ∧ Relation.TransGen (Entry d) x x := by
    cases hy with
    | single h => exact ⟨y, h, .single h⟩
    | tail h1 h2 => exact ⟨_, h2, .head h2 h1⟩
  obtain ⟨x, ⟨m, hm, hx, _⟩, hxx⟩ := this
  exact ⟨m, hm, x, hx, hxx⟩

theorem countP_lt {α : Type} {p q : α → Bool} {l : List α} (h : ∀ x ∈ l, p x = true → q x = true) {a : α}
    (ha : a ∈ l) (hp : p a = false) (hq : q a = true) : l.countP p < l.countP q := by
  induction l with
  | nil => simp at ha
  | cons b l ih =>
    have hmono : l.countP p ≤ l.countP q := List.countP_mono_left fun x hx => h x (by simp [hx])
    rw [List.countP_cons, List.countP_cons]
    rcases List.mem_cons.mp ha with rfl | hb
    · simp only [hp, hq, if_true, Bool.false_eq_true, if_false]; omega
    · have := ih (fun x hx => h x (by simp [hx])) hb
      have hb := h b (by simp)
      cases hpb : p b <;> cases hqb : q b <;> simp_all <;> omega

open Classical in
/-- How many codepoints with a mapping can be reached from `k`. -/
noncomputable def reachCount (d : Nat → Option (List Nat)) (ks : List Nat) (k : Nat) : Nat :=
  ks.countP (fun x => decide (Relation.TransGen (Entry d) x k))

open Classical in
theorem reachCount_lt {d : Nat → Option (List Nat)} (h : ¬ Circular d) {ks : List Nat}
    (hks : ∀ k, d k ≠ none → k ∈ ks) {x k : Nat} (he : Entry d x k) :
    reachCount d ks x < reachCount d ks k := by
  refine countP_lt (a := x) ?_ ?_ ?_ ?_
  · intro y _ hy
    simp only [decide_eq_true_eq] at hy ⊢
    exact hy.tail he
  · obtain ⟨m, _, _, hx⟩ := he
    exact hks x hx
  · simpa using entry_acyclic h x
  · simpa using Relation.TransGen.single he

/-- Without a cycle the loop ends, after at most one round more than there are mappings. -/
theorem loop_ends {d0 : Hash Nat (List Nat)} {ks : List Nat} (hk : IsKeys d0 ks) (hc : ¬ Circular d0)
    (orders : Nat → List Nat) (ho : ∀ n, IsKeys d0 (orders n)) (fuel : Nat) (hf : ks.length < fuel) :
    ∃ d', substLoop orders fuel 0 d0 = some d' := by
  refine loop_terminates (rank := reachCount d0 ks) (R := ks.length) ?_ orders ho fuel 0 0 (Inv.refl d0) ?_
    (by omega)
  · intro k _; exact List.countP_le_length
  · intro k m hm x hx hx0
    exact reachCount_lt hc (fun k h => (hk.2 k).mpr h) ⟨m, hm, hx, hx0⟩

end U5e
