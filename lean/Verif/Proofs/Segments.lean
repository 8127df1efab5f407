import Verif.Spec.Grapheme
/-! List-level theory of segmentation: existence (`segments`), uniqueness. -/
namespace U5e
open Spec

/-- How many further elements belong to the part that contains `a`. -/
def runLen (brk : Int → Int → Bool) (a : Int) : List Int → Nat
  | [] => 0
  | b :: r => if brk a b then 0 else runLen brk b r + 1

theorem runLen_le (brk) (a : Int) (l : List Int) : runLen brk a l ≤ l.length := by
  induction l generalizing a with
  | nil => simp [runLen]
  | cons b r ih => unfold runLen; split <;> simp; exact ih b

/-- Put `c` in front of the first part. -/
def consHead (c : Int) : List (List Int) → List (List Int)
  | [] => [[c]]
  | g :: gs => (c :: g) :: gs

def segments (brk : Int → Int → Bool) : List Int → List (List Int)
  | [] => []
  | [c] => [[c]]
  | c :: d :: r => if brk c d then [c] :: segments brk (d :: r) else consHead c (segments brk (d :: r))

theorem segments_cons (brk) (c : Int) (r : List Int) :
    segments brk (c :: r) =
      (c :: r.take (runLen brk c r)) :: segments brk (r.drop (runLen brk c r)) := by
  induction r generalizing c with
  | nil => simp [segments, runLen]
  | cons d r ih =>
    simp only [segments, runLen]
    by_cases h : brk c d = true
    · simp [h]
    · rw [if_neg h, if_neg h, ih d]; simp [consHead]

theorem segments_flatten (brk) (cs : List Int) : (segments brk cs).flatten = cs := by
  match cs with
  | [] => simp [segments]
  | c :: r =>
    rw [segments_cons]
    have := segments_flatten brk (r.drop (runLen brk c r))
    simp [this]
termination_by cs.length
decreasing_by simp; omega

theorem segments_nonempty (brk) (cs : List Int) : ∀ g ∈ segments brk cs, g ≠ [] := by
  match cs with
  | [] => simp [segments]
  | c :: r =>
    rw [segments_cons]
    intro g hg
    rcases List.mem_cons.mp hg with rfl | hg
    · simp
    · exact segments_nonempty brk (r.drop (runLen brk c r)) g hg
termination_by cs.length
decreasing_by simp; omega

/-- No break inside the run. -/
theorem run_inside (brk) (c : Int) (r : List Int) (pre : List Int) (a b : Int) (post : List Int)
    (h : c :: r.take (runLen brk c r) = pre ++ a :: b :: post) : brk a b = false := by
  induction r generalizing c pre with
  | nil =>
    have := congrArg List.length h
    simp at this; omega
  | cons d r ih =>
    unfold runLen at h
    split at h
    · have := congrArg List.length h
      simp at this; omega
    · next hb =>
      rw [List.take_succ_cons] at h
      cases pre with
      | nil =>
        simp at h
        obtain ⟨rfl, rfl, _⟩ := h
        simpa using hb
      | cons p pre =>
        rw [List.cons_append, List.cons.injEq] at h
        exact ih d pre h.2

/-- A break after the run. -/
theorem run_break (brk) (c : Int) (r : List Int) (a b : Int)
    (ha : (c :: r.take (runLen brk c r)).getLast? = some a)
    (hb : (r.drop (runLen brk c r)).head? = some b) : brk a b = true := by
  induction r generalizing c with
  | nil => simp [runLen] at hb
  | cons d r ih =>
    unfold runLen at ha hb
    split at ha
    · next h => simp [h] at ha hb; subst ha hb; exact h
    · next h =>
      simp only [h, Bool.false_eq_true, if_false, List.drop_succ_cons] at hb
      rw [List.take_succ_cons, List.getLast?_cons_cons] at ha
      exact ih d ha hb

theorem segments_head (brk) (cs : List Int) (g : List Int) (gs : List (List Int))
    (h : segments brk cs = g :: gs) : g.head? = cs.head? := by
  cases cs with
  | nil => simp [segments] at h
  | cons c r => rw [segments_cons] at h; simp at h; rw [← h.1]; rfl

theorem segments_isSegmentation (brk) (cs : List Int) :
    IsSegmentation (fun a b => brk a b = true) cs (segments brk cs) := by
  match cs with
  | [] => constructor <;> simp [segments]
  | c :: r =>
    have ih := segments_isSegmentation brk (r.drop (runLen brk c r))
    constructor
    · exact segments_flatten brk _
    · exact segments_nonempty brk _
    · intro g hg pre a b post he
      rw [segments_cons] at hg
      rcases List.mem_cons.mp hg with rfl | hg
      · simp [run_inside brk c r pre a b post he]
      · exact ih.inside g hg pre a b post he
    · intro p g h q he a b ha hb
      rw [segments_cons] at he
      cases p with
      | nil =>
        simp only [List.nil_append, List.cons.injEq] at he
        obtain ⟨rfl, he⟩ := he
        rw [segments_head brk _ _ _ he] at hb
        exact run_break brk c r a b ha hb
      | cons p0 p =>
        simp only [List.cons_append, List.cons.injEq] at he
        exact ih.between p g h q he.2 a b ha hb
termination_by cs.length
decreasing_by simp; omega

/-- The specification determines the segmentation. -/
theorem isSegmentation_unique (brk : Int → Int → Bool) (cs : List Int) (gs : List (List Int))
    (h : IsSegmentation (fun a b => brk a b = true) cs gs) : gs = segments brk cs := by
  induction gs generalizing cs with
  | nil => have := h.concat; simp at this; subst this; simp [segments]
  | cons g gs ih =>
    have hg := h.nonempty g (by simp)
    cases g with
    | nil => exact absurd rfl hg
    | cons c g =>
      have hcs := h.concat
      simp at hcs
      subst hcs
      have htail : IsSegmentation (fun a b => brk a b = true) gs.flatten gs :=
        ⟨rfl, fun x hx => h.nonempty x (by simp [hx]), fun x hx => h.inside x (by simp [hx]),
          fun p x y q he => h.between ((c :: g) :: p) x y q (by simp [he])⟩
      have hrun : ∀ (g : List Int) (c : Int),
          (∀ pre a b post, c :: g = pre ++ a :: b :: post → ¬ brk a b = true) →
          (∀ b, gs.flatten.head? = some b → ∀ a, (c :: g).getLast? = some a → brk a b = true) →
          runLen brk c (g ++ gs.flatten) = g.length := by
        intro g
        induction g with
        | nil =>
          intro c _ h2
          cases hf : gs.flatten with
          | nil => simp [runLen]
          | cons b r => simp [runLen, h2 b (by simp [hf]) c (by simp)]
        | cons d g ihg =>
          intro c h1 h2
          have hcd := h1 [] c d g (by simp)
          simp only [List.cons_append, runLen]
          rw [if_neg hcd]
          rw [ihg d (fun pre a b post he => h1 (c :: pre) a b post (by simp [he]))
            (fun b hb a ha => h2 b hb a (by rw [List.getLast?_cons_cons]; exact ha))]
          simp
      have hlen := hrun g c (h.inside (c :: g) (by simp)) (by
        intro b hb a ha
        cases gs with
        | nil => simp at hb
        | cons g2 gs2 =>
          have hne := h.nonempty g2 (by simp)
          cases g2 with
          | nil => exact absurd rfl hne
          | cons x g2 =>
            simp at hb
            subst hb
            exact h.between [] (c :: g) (x :: g2) gs2 (by simp) a x ha (by simp))
      rw [segments_cons, hlen]
      simp
      exact ih _ htail

end U5e
