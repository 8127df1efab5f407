import Verif.Spec.Uax15
/-! The Canonical Ordering Algorithm (Spec/Uax15.lean) always has exactly one result. -/
namespace U5e.Spec

variable {ccc : Int → Int}

theorem Exchanges.trans {l m n : List Int} (h1 : Exchanges ccc l m) (h2 : Exchanges ccc m n) :
    Exchanges ccc l n := by
  induction h1 with
  | refl => exact h2
  | step hx _ ih => exact .step hx (ih h2)

theorem Exchange.context {l m : List Int} (h : Exchange ccc l m) (u v : List Int) :
    Exchange ccc (u ++ l ++ v) (u ++ m ++ v) := by
  cases h with
  | mk p a b q h1 h2 =>
    have := Exchange.mk (ccc := ccc) (u ++ p) a b (q ++ v) h1 h2
    simpa using this

theorem Exchanges.context {l m : List Int} (h : Exchanges ccc l m) (u v : List Int) :
    Exchanges ccc (u ++ l ++ v) (u ++ m ++ v) := by
  induction h with
  | refl => exact .refl _
  | step hx _ ih => exact .step (hx.context u v) ih

theorem Exchanges.cons {l m : List Int} (h : Exchanges ccc l m) (x : Int) :
    Exchanges ccc (x :: l) (x :: m) := by
  have := h.context [x] []
  simpa using this

/-- Insert `x` before a list, moving it right past smaller non-starters. -/
def cinsert (ccc : Int → Int) (x : Int) : List Int → List Int
  | [] => [x]
  | y :: l => if ccc y < ccc x ∧ 0 < ccc y then y :: cinsert ccc x l else x :: y :: l

/-- A function that computes the canonical order. -/
def corder (ccc : Int → Int) (l : List Int) : List Int := l.foldr (cinsert ccc) []

theorem corder_cons (x : Int) (l : List Int) : corder ccc (x :: l) = cinsert ccc x (corder ccc l) := rfl

theorem cinsert_exchanges (x : Int) (l : List Int) : Exchanges ccc (x :: l) (cinsert ccc x l) := by
  induction l with
  | nil => exact .refl _
  | cons y l ih =>
    rw [cinsert]
    split
    · next h => exact .step (.mk [] x y l h.1 h.2) (ih.cons y)
    · exact .refl _

theorem corder_exchanges (l : List Int) : Exchanges ccc l (corder ccc l) := by
  induction l with
  | nil => exact .refl _
  | cons x l ih => exact (ih.cons x).trans (cinsert_exchanges x _)

theorem cinsert_comm {a b : Int} (h1 : ccc b < ccc a) (h2 : 0 < ccc b) (m : List Int) :
    cinsert ccc a (cinsert ccc b m) = cinsert ccc b (cinsert ccc a m) := by
  induction m with
  | nil =>
    simp only [cinsert, if_pos (show ccc b < ccc a ∧ 0 < ccc b from ⟨h1, h2⟩)]
    rw [if_neg (by omega)]
  | cons y m ih =>
    by_cases hb : ccc y < ccc b ∧ 0 < ccc y
    · have ha : ccc y < ccc a ∧ 0 < ccc y := by omega
      simp only [cinsert, if_pos hb, if_pos ha, ih]
    · simp only [cinsert, if_neg hb, if_pos (show ccc b < ccc a ∧ 0 < ccc b from ⟨h1, h2⟩)]
      split
      · simp only [cinsert, if_neg hb]
      · simp only [cinsert]; rw [if_neg (by omega)]

theorem corder_exchange {l m : List Int} (h : Exchange ccc l m) : corder ccc l = corder ccc m := by
  cases h with
  | mk p a b q h1 h2 =>
    induction p with
    | nil => exact cinsert_comm h1 h2 _
    | cons x p ih => rw [List.cons_append, corder_cons, ih]; rfl

theorem corder_exchanges_eq {l m : List Int} (h : Exchanges ccc l m) : corder ccc l = corder ccc m := by
  induction h with
  | refl => rfl
  | step hx _ ih => rw [corder_exchange hx, ih]

theorem corder_terminal {l : List Int} (h : ∀ l', ¬ Exchange ccc l l') : corder ccc l = l := by
  induction l with
  | nil => rfl
  | cons x l ih =>
    rw [corder_cons, ih]
    · cases l with
      | nil => rfl
      | cons y l =>
        rw [cinsert, if_neg]
        intro hh
        exact h _ (.mk [] x y l hh.1 hh.2)
    · intro l' hl'
      have := hl'.context [x] []
      simp at this
      exact h _ this

theorem cinsert_eq_append (x : Int) (m : List Int) : ∃ p q, m = p ++ q ∧ cinsert ccc x m = p ++ x :: q ∧
    (∀ y ∈ p, ccc y < ccc x ∧ 0 < ccc y) ∧ ∀ y, q.head? = some y → ¬ (ccc y < ccc x ∧ 0 < ccc y) := by
  induction m with
  | nil => exact ⟨[], [], rfl, rfl, by simp, by simp⟩
  | cons y m ih =>
    rw [cinsert]
    split
    · next h =>
      obtain ⟨p, q, rfl, h2, h3, h4⟩ := ih
      refine ⟨y :: p, q, rfl, by rw [h2]; rfl, ?_, h4⟩
      intro z hz
      rcases List.mem_cons.mp hz with rfl | hz
      · exact h
      · exact h3 z hz
    · next h =>
      refine ⟨[], y :: m, rfl, rfl, by simp, ?_⟩
      intro z hz; simp at hz; subst hz; exact h

/-- No reorderable pair: pointwise formulation. -/
theorem no_exchange_iff {l : List Int} :
    (∀ l', ¬ Exchange ccc l l') ↔ ∀ p a b q, l = p ++ a :: b :: q → ¬ (ccc b < ccc a ∧ 0 < ccc b) := by
  constructor
  · rintro h p a b q rfl ⟨h1, h2⟩
    exact h _ (.mk p a b q h1 h2)
  · intro h l' hx
    cases hx with
    | mk p a b q h1 h2 => exact h p a b q rfl ⟨h1, h2⟩

theorem terminal_cons {x : Int} {l : List Int} (h : ∀ l', ¬ Exchange ccc l l')
    (hx : ∀ y, l.head? = some y → ¬ (ccc y < ccc x ∧ 0 < ccc y)) : ∀ l', ¬ Exchange ccc (x :: l) l' := by
  rw [no_exchange_iff] at h ⊢
  intro p a b q he
  cases p with
  | nil => simp at he; obtain ⟨rfl, rfl⟩ := he; exact hx b rfl
  | cons z p => simp at he; exact h p a b q he.2

theorem terminal_tail {x : Int} {l : List Int} (h : ∀ l', ¬ Exchange ccc (x :: l) l') :
    ∀ l', ¬ Exchange ccc l l' := by
  intro l' hx
  have := hx.context [x] []
  simp at this
  exact h _ this

theorem cinsert_terminal (x : Int) {m : List Int} (h : ∀ l', ¬ Exchange ccc m l') :
    ∀ l', ¬ Exchange ccc (cinsert ccc x m) l' := by
  induction m with
  | nil => exact terminal_cons h (by simp)
  | cons y m ih =>
    rw [cinsert]
    split
    · next hy =>
      refine terminal_cons (ih (terminal_tail h)) ?_
      intro z hz
      cases m with
      | nil => simp [cinsert] at hz; subst hz; omega
      | cons w m =>
        rw [cinsert] at hz
        split at hz
        · simp at hz; subst hz
          exact no_exchange_iff.mp h [] y w m rfl
        · simp at hz; subst hz; omega
    · next hy =>
      refine terminal_cons h ?_
      intro z hz; simp at hz; subst hz; exact hy

theorem corder_terminal' (l : List Int) : ∀ l', ¬ Exchange ccc (corder ccc l) l' := by
  induction l with
  | nil => rw [no_exchange_iff]; intro p a b q h; simp [corder] at h
  | cons x l ih => exact cinsert_terminal x ih

/-- The canonical order exists and is unique. -/
theorem isCanonicalOrder_iff (l l' : List Int) : IsCanonicalOrder ccc l l' ↔ l' = corder ccc l := by
  constructor
  · rintro ⟨h1, h2⟩
    rw [corder_exchanges_eq h1, corder_terminal h2]
  · rintro rfl
    exact ⟨corder_exchanges l, corder_terminal' l⟩

/-! ### Properties of the canonical order -/

theorem cinsert_perm (x : Int) (l : List Int) : (cinsert ccc x l).Perm (x :: l) := by
  obtain ⟨p, q, rfl, h, _⟩ := cinsert_eq_append (ccc := ccc) x l
  rw [h]; exact List.perm_middle

theorem corder_perm (l : List Int) : (corder ccc l).Perm l := by
  induction l with
  | nil => exact .refl _
  | cons x l ih => exact (cinsert_perm x _).trans (ih.cons x)

theorem cinsert_filter (x : Int) (l : List Int) (k : Int) :
    (cinsert ccc x l).filter (fun y => ccc y == k) = (x :: l).filter (fun y => ccc y == k) := by
  obtain ⟨p, q, rfl, h, h2, _⟩ := cinsert_eq_append (ccc := ccc) x l
  rw [h, List.filter_append, List.filter_cons, List.filter_cons, List.filter_append]
  by_cases hx : (ccc x == k) = true
  · have : p.filter (fun y => ccc y == k) = [] := by
      rw [List.filter_eq_nil_iff]
      intro y hy hk
      have := h2 y hy
      simp at hx hk; omega
    rw [this]; rfl
  · rw [if_neg hx, if_neg hx]

theorem corder_filter (l : List Int) (k : Int) :
    (corder ccc l).filter (fun y => ccc y == k) = l.filter (fun y => ccc y == k) := by
  induction l with
  | nil => rfl
  | cons x l ih => rw [corder_cons, cinsert_filter, List.filter_cons, ih, List.filter_cons]

/-- Which positions hold starters. -/
def pattern (ccc : Int → Int) (l : List Int) : List Bool := l.map (fun c => decide (ccc c = 0))

theorem cinsert_pattern (x : Int) (l : List Int) : pattern ccc (cinsert ccc x l) = pattern ccc (x :: l) := by
  induction l with
  | nil => rfl
  | cons y l ih =>
    rw [cinsert]
    split
    · next h =>
      simp only [pattern, List.map_cons] at ih ⊢
      rw [ih, decide_eq_false (show ¬ ccc y = 0 by omega), decide_eq_false (show ¬ ccc x = 0 by omega)]
    · rfl

theorem corder_pattern (l : List Int) : pattern ccc (corder ccc l) = pattern ccc l := by
  induction l with
  | nil => rfl
  | cons x l ih =>
    rw [corder_cons, cinsert_pattern]
    simp only [pattern, List.map_cons] at ih ⊢
    rw [ih]

theorem cinsert_starter {x : Int} (hn : ∀ c, 0 ≤ ccc c) (h : ccc x = 0) (l : List Int) :
    cinsert ccc x l = x :: l := by
  cases l with
  | nil => rfl
  | cons y l => rw [cinsert, if_neg]; have := hn y; omega

theorem corder_starters (hn : ∀ c, 0 ≤ ccc c) {u : List Int} (h : ∀ x ∈ u, ccc x = 0) (v : List Int) :
    corder ccc (u ++ v) = u ++ corder ccc v := by
  induction u with
  | nil => rfl
  | cons x u ih =>
    rw [List.cons_append, corder_cons, cinsert_starter hn (h x (by simp)),
      ih (fun y hy => h y (by simp [hy]))]
    rfl

theorem cinsert_append_starter (x : Int) (u : List Int) {v : List Int}
    (h : ∀ y, v.head? = some y → ccc y = 0) : cinsert ccc x (u ++ v) = cinsert ccc x u ++ v := by
  induction u with
  | nil =>
    cases v with
    | nil => rfl
    | cons y v => have := h y rfl; simp only [List.nil_append, cinsert]; rw [if_neg (by omega)]; rfl
  | cons y u ih =>
    rw [List.cons_append, cinsert, cinsert]
    split
    · rw [ih]; rfl
    · rfl

theorem corder_append_starter (u : List Int) {v : List Int}
    (h : ∀ y, (corder ccc v).head? = some y → ccc y = 0) :
    corder ccc (u ++ v) = corder ccc u ++ corder ccc v := by
  induction u with
  | nil => rfl
  | cons x u ih => rw [List.cons_append, corder_cons, ih, cinsert_append_starter x _ h]; rfl

theorem cinsert_sorted {x : Int} {l : List Int} (hx : ∀ y ∈ l, 0 < ccc y) (h : CccSorted ccc l) :
    CccSorted ccc (cinsert ccc x l) := by
  induction l with
  | nil => simp [cinsert, CccSorted]
  | cons y l ih =>
    rw [CccSorted, List.pairwise_cons] at h
    rw [cinsert]
    split
    · next hy =>
      rw [CccSorted, List.pairwise_cons]
      refine ⟨?_, ih (fun z hz => hx z (by simp [hz])) h.2⟩
      intro z hz
      rcases List.mem_cons.mp ((cinsert_perm x l).mem_iff.mp hz) with rfl | hz
      · omega
      · exact h.1 z hz
    · next hy =>
      rw [CccSorted, List.pairwise_cons, List.pairwise_cons]
      have := hx y (by simp)
      refine ⟨?_, h⟩
      intro z hz
      rcases List.mem_cons.mp hz with rfl | hz
      · omega
      · have := h.1 z hz; omega

/-- Canonical order with the starters first is order by class. -/
theorem corder_sorted (hn : ∀ c, 0 ≤ ccc c) {l : List Int} (h : StartersFirst ccc l) :
    CccSorted ccc (corder ccc l) := by
  induction l with
  | nil => simp [corder, CccSorted]
  | cons x l ih =>
    rw [StartersFirst, List.pairwise_cons] at h
    have ih := ih h.2
    rw [corder_cons]
    by_cases hx : ccc x = 0
    · rw [cinsert_starter hn hx, CccSorted, List.pairwise_cons]
      refine ⟨?_, ih⟩
      intro y _; have := hn y; omega
    · refine cinsert_sorted ?_ ih
      intro y hy
      have := h.1 y ((corder_perm l).mem_iff.mp hy) hx
      have := hn y
      omega

theorem startersFirst_pattern {l l' : List Int} (h : pattern ccc l = pattern ccc l') :
    StartersFirst ccc l ↔ StartersFirst ccc l' := by
  have key : ∀ l : List Int, StartersFirst ccc l ↔ (pattern ccc l).Pairwise (fun a b => a = false → b = false) := by
    intro l
    rw [StartersFirst, pattern, List.pairwise_map]
    simp
  rw [key, key, h]

theorem startersFirst_sorted (hn : ∀ c, 0 ≤ ccc c) {l : List Int} (h : CccSorted ccc l) : StartersFirst ccc l := by
  refine List.Pairwise.imp ?_ h
  intro a b hab ha hb
  have := hn a; omega

/-- Moving `c` left past smaller non-starters. -/
theorem exchanges_move (mid : List Int) (c : Int) (h : Unblocked ccc mid c) :
    Exchanges ccc (c :: mid) (mid ++ [c]) := by
  induction mid with
  | nil => exact .refl _
  | cons m mid ih =>
    have hm := h m (by simp)
    refine .step (.mk [] c m mid hm.2 hm.1) ?_
    exact (ih (fun x hx => h x (by simp [hx]))).cons m

end U5e.Spec
