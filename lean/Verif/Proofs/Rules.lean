import Verif.Model.Grapheme
import Verif.Spec.Grapheme
/-! The boundary function against the rules. -/
namespace U5e
open Spec

instance (x : GCB) : Decidable (Ctl x) := by unfold Ctl; infer_instance

theorem boundary_false_iff (a b : GCB) : boundaryOfClasses a b = false ↔ NoBreakPair a b := by
  constructor
  · intro h
    revert h
    cases a <;> cases b <;> first
      | exact fun h => absurd h (by decide)
      | exact fun _ => .gb3
      | exact fun _ => .gb6 _ (by decide)
      | exact fun _ => .gb7 _ _ (by decide) (by decide)
      | exact fun _ => .gb8 _ (by decide)
      | exact fun _ => .gb9 _ _ (by decide) (by decide)
      | exact fun _ => .gb9a _ (by decide)
      | exact fun _ => .gb9b _ (by decide)
      | exact fun _ => .gb10 _ (by decide)
      | exact fun _ => .gb11 _ (by decide)
      | exact fun _ => .gb12
  · intro h
    cases h with
    | gb3 => rfl
    | gb6 _ h => rcases h with rfl | rfl | rfl | rfl <;> rfl
    | gb7 _ _ h1 h2 => rcases h1 with rfl | rfl <;> rcases h2 with rfl | rfl <;> rfl
    | gb8 _ h1 => rcases h1 with rfl | rfl <;> rfl
    | gb9 _ _ h1 h2 =>
      rcases h2 with rfl | rfl <;> cases a <;> first | rfl | exact absurd (by decide) h1
    | gb9a _ h1 => cases a <;> first | rfl | exact absurd (by decide) h1
    | gb9b _ h1 => cases b <;> first | rfl | exact absurd (by decide) h1
    | gb10 _ h1 => rcases h1 with rfl | rfl | rfl <;> rfl
    | gb11 _ h1 => rcases h1 with rfl | rfl <;> rfl
    | gb12 => rfl

theorem boundary_true_iff (a b : GCB) : boundaryOfClasses a b = true ↔ ¬ NoBreakPair a b := by
  rw [← boundary_false_iff]; simp

theorem isGraphemeBoundary_iff (a b : Int) :
    isGraphemeBoundary a b = true ↔ ¬ NoBreakPair (gcbResolve a) (gcbResolve b) :=
  boundary_true_iff _ _

/-- The pairwise rules against UAX #29: the only differences. -/
theorem noBreakPair_uax (a : GCB) (r : List GCB) (b : GCB) :
    NoBreakPair a b ↔ UaxNoBreak (a :: r) b ∨
      (a = .EXTEND ∧ b = .E_MODIFIER ∧ ¬ EmojiBaseExtend (a :: r)) ∨
      (a = .REGIONAL_INDICATOR ∧ b = .REGIONAL_INDICATOR ∧ riRun (a :: r) % 2 = 0) := by
  constructor
  · intro h
    cases h with
    | gb3 => exact .inl (.gb3 r)
    | gb6 _ h => exact .inl (.gb6 r b h)
    | gb7 _ _ h1 h2 => exact .inl (.gb7 a r b h1 h2)
    | gb8 _ h1 => exact .inl (.gb8 a r h1)
    | gb9 _ _ h1 h2 => exact .inl (.gb9 a r b h1 h2)
    | gb9a _ h1 => exact .inl (.gb9a a r h1)
    | gb9b _ h1 => exact .inl (.gb9b r b h1)
    | gb10 _ h1 =>
      rcases h1 with h1 | h1 | h1
      · exact .inl (.gb10 _ (.base a r (.inl h1)))
      · exact .inl (.gb10 _ (.base a r (.inr h1)))
      · by_cases he : EmojiBaseExtend (a :: r)
        · exact .inl (.gb10 _ he)
        · exact .inr (.inl ⟨h1, rfl, he⟩)
    | gb11 _ h1 => exact .inl (.gb11 r b h1)
    | gb12 =>
      by_cases he : riRun (GCB.REGIONAL_INDICATOR :: r) % 2 = 1
      · exact .inl (.gb12 _ he)
      · exact .inr (.inr ⟨rfl, rfl, by omega⟩)
  · rintro (h | ⟨rfl, rfl, _⟩ | ⟨rfl, rfl, _⟩)
    · cases h with
      | gb3 => exact .gb3
      | gb6 _ _ h => exact .gb6 b h
      | gb7 _ _ _ h1 h2 => exact .gb7 a b h1 h2
      | gb8 _ _ h1 => exact .gb8 a h1
      | gb9 _ _ _ h1 h2 => exact .gb9 a b h1 h2
      | gb9a _ _ h1 => exact .gb9a a h1
      | gb9b _ _ h1 => exact .gb9b b h1
      | gb10 _ h1 =>
        cases h1 with
        | base _ _ h => exact .gb10 a (by rcases h with h | h <;> simp [h])
        | extend _ h => exact .gb10 _ (by simp)
      | gb11 _ _ h1 => exact .gb11 b h1
      | gb12 _ h1 =>
        have : a = .REGIONAL_INDICATOR := by
          cases a <;> simp [riRun] at h1 ⊢
        subst this; exact .gb12
    · exact .gb10 _ (by simp)
    · exact .gb12

/-- A segmentation has a boundary exactly where the pair of neighbours breaks. -/
theorem boundaryAfter_iff {brk : Int → Int → Prop} {cs : List Int} {gs : List (List Int)}
    (h : IsSegmentation brk cs gs) (l : List Int) (a b : Int) (r : List Int)
    (hcs : cs = l ++ a :: b :: r) : BoundaryAfter gs (l ++ [a]) ↔ brk a b := by
  constructor
  · rintro ⟨p, q, rfl, hp⟩
    have hq : q.flatten = b :: r := by
      have := h.concat
      rw [List.flatten_append, hp, hcs] at this
      simpa using this
    cases q with
    | nil => simp at hq
    | cons g q =>
      have hg := h.nonempty g (by simp)
      rcases List.eq_nil_or_concat p with rfl | ⟨p', f, rfl⟩
      · simp at hp
      · have hfne := h.nonempty f (by simp)
        refine h.between p' f g q (by simp) a b ?_ ?_
        · rw [List.concat_eq_append, List.flatten_append] at hp
          simp at hp
          have := congrArg List.getLast? hp
          rw [List.getLast?_append] at this
          cases hl : f.getLast? with
          | none => exact absurd (List.getLast?_eq_none_iff.mp hl) hfne
          | some x => simpa [hl] using this
        · cases g with
          | nil => exact absurd rfl hg
          | cons x g => simp at hq; simp [hq.1]
  · intro hb
    subst hcs
    induction gs generalizing l with
    | nil => have := h.concat; simp at this
    | cons g gs ih =>
      have hc := h.concat
      simp only [List.flatten_cons] at hc
      rw [show l ++ a :: b :: r = (l ++ [a]) ++ (b :: r) by simp] at hc
      rcases List.append_eq_append_iff.mp hc with ⟨t, h1, h2⟩ | ⟨t, h1, h2⟩
      · -- l ++ [a] = g ++ t
        rcases List.eq_nil_or_concat t with rfl | ⟨t, x, rfl⟩
        · exact ⟨[g], gs, by simp, by simpa using h1.symm⟩
        · rw [List.concat_eq_append] at h1 h2
          have hx : l = g ++ t ∧ a = x := by
            rw [← List.append_assoc] at h1
            have := List.append_inj_right' h1 rfl
            exact ⟨List.append_inj_left' h1 rfl, by simpa using this⟩
          obtain ⟨rfl, rfl⟩ := hx
          have htail : IsSegmentation brk (t ++ a :: b :: r) gs :=
            ⟨by rw [h2]; simp, fun x hx => h.nonempty x (by simp [hx]),
              fun x hx => h.inside x (by simp [hx]),
              fun p x y q he => h.between (g :: p) x y q (by simp [he])⟩
          obtain ⟨p, q, hpq, hp⟩ := ih t htail
          exact ⟨g :: p, q, by simp [hpq], by simp [hp]⟩
      · -- g = (l ++ [a]) ++ t
        cases t with
        | nil => exact ⟨[g], gs, by simp, by simpa using h1⟩
        | cons x t =>
          simp only [List.cons_append, List.cons.injEq] at h2
          obtain ⟨rfl, _⟩ := h2
          exact absurd hb (h.inside g (by simp) l a b t (by rw [h1]; simp))

end U5e
