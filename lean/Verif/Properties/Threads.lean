import Verif.Model.Threads
import Verif.Spec.Threads
import Verif.Properties.History
/-!
# C60: threads that do not share what they change

`E.sched sort fuel ts P σ` runs the threads `P` (thread `t` runs the statements `P t`) over the strings `σ` under
the schedule `ts`; `E.run` runs one program alone.
-/
namespace U5e
open Spec

section
variable {α : Type} [DecidableEq α] (E : Encoding α) (sort : SortFn) (fuel : Nat)

theorem upd_same (σ : Nat → β) (d : Nat) (x : β) : upd σ d x d = x := by simp [upd]
theorem upd_ne {σ : Nat → β} {d k : Nat} {x : β} (h : k ≠ d) : upd σ d x k = σ k := by simp [upd, h]

/-- `τ` with the change `op` made to `σ'`. -/
def patch (op : Op) (τ σ' : Nat → List α) : Nat → List α :=
  match changes op with
  | some d => upd τ d (σ' d)
  | none => τ

/-- A statement only changes the string it may change, and its effect depends only on the strings it touches. -/
theorem step_patch {σ τ : Nat → List α} {op : Op} (hag : ∀ k ∈ touches op, σ k = τ k) :
    E.step sort fuel τ op = (E.step sort fuel σ op >>= fun r => .ok (patch op τ r.1, r.2)) := by
  cases op <;> simp only [touches, List.mem_cons, List.not_mem_nil, or_false, forall_eq_or_imp, forall_eq] at hag <;>
    first
    | (obtain ⟨h1, h2⟩ := hag; simp [Encoding.step, patch, changes, upd_same, h1, h2, bind_assoc]; done)
    | (simp [Encoding.step, patch, changes, upd_same, hag, bind_assoc]; done)
    | (obtain ⟨h1, h2⟩ := hag; simp only [Encoding.step, h1, h2]; split <;>
        simp [patch, changes, upd_same, bind_assoc])

theorem step_frame {σ τ σ' : Nat → List α} {op : Op} {o : Obs} (hag : ∀ k ∈ touches op, σ k = τ k)
    (h : E.step sort fuel σ op = .ok (σ', o)) :
    E.step sort fuel τ op = .ok (patch op τ σ', o) := by
  rw [step_patch E sort fuel hag, h]; rfl

theorem step_self {σ σ' : Nat → List α} {op : Op} {o : Obs} (h : E.step sort fuel σ op = .ok (σ', o)) :
    σ' = patch op σ σ' := by
  have := step_frame E sort fuel (τ := σ) (fun _ _ => rfl) h
  rw [h] at this
  simp only [Res.ok.injEq, Prod.mk.injEq, and_true] at this
  exact this

theorem patch_some {op : Op} {d : Nat} (h : changes op = some d) (τ σ' : Nat → List α) :
    patch op τ σ' = upd τ d (σ' d) := by rw [patch, h]
theorem patch_none {op : Op} (h : changes op = none) (τ σ' : Nat → List α) : patch op τ σ' = τ := by rw [patch, h]

theorem step_unchanged {σ σ' : Nat → List α} {op : Op} {o : Obs} (h : E.step sort fuel σ op = .ok (σ', o)) {k : Nat}
    (hk : changes op ≠ some k) : σ' k = σ k := by
  rw [step_self E sort fuel h]
  cases hd : changes op with
  | some d => rw [patch_some hd]; exact upd_ne (fun e => hk (by rw [hd, e]))
  | none => rw [patch_none hd]

theorem changes_touches {op : Op} {k : Nat} (h : changes op = some k) : k ∈ touches op := by
  cases op <;> simp_all [changes, touches]

/-- A program alone, started in a store that agrees on what it touches. -/
theorem run_frame {prog : List Op} : ∀ {σ τ σ' : Nat → List α} {os : List Obs},
    (∀ op ∈ prog, ∀ k ∈ touches op, σ k = τ k) → E.run sort fuel σ prog = .ok (σ', os) →
    ∃ τ', E.run sort fuel τ prog = .ok (τ', os) ∧ ∀ k, σ k = τ k → σ' k = τ' k := by
  induction prog with
  | nil =>
    intro σ τ σ' os _ h
    simp only [Encoding.run, Res.ok.injEq, Prod.mk.injEq] at h
    obtain ⟨rfl, rfl⟩ := h
    exact ⟨τ, rfl, fun _ h => h⟩
  | cons op prog ih =>
    intro σ τ σ' os hag h
    rw [Encoding.run] at h
    obtain ⟨⟨σ1, o⟩, h1, h2⟩ := Res.bind_eq_ok.mp h
    obtain ⟨⟨σ2, os2⟩, h3, h4⟩ := Res.bind_eq_ok.mp h2
    simp only [Res.pure_eq, Res.ok.injEq, Prod.mk.injEq] at h4
    obtain ⟨rfl, rfl⟩ := h4
    have hst := step_frame E sort fuel (hag op (by simp)) h1
    have hk1 : ∀ k, σ k = τ k → σ1 k = patch op τ σ1 k := by
      intro k hk
      cases hd : changes op with
      | none =>
        rw [patch_none hd, step_unchanged E sort fuel h1 (by rw [hd]; simp)]; exact hk
      | some d =>
        rw [patch_some hd]
        by_cases hkd : k = d
        · subst hkd; rw [upd_same]
        · rw [upd_ne hkd, step_unchanged E sort fuel h1 (by rw [hd]; simpa using fun e => hkd e.symm)]; exact hk
    obtain ⟨τ', h5, h6⟩ := ih (τ := patch op τ σ1)
      (fun op' ho k hk => hk1 k (hag op' (by simp [ho]) k hk)) h3
    refine ⟨τ', ?_, fun k hk => h6 k (hk1 k hk)⟩
    rw [Encoding.run, hst]
    show (E.run sort fuel (patch op τ σ1) prog >>= fun r => _) = _
    rw [h5]; rfl

theorem raceFree_upd {P : Nat → List Op} (h : RaceFree P) {t : Nat} {op : Op} {ops : List Op}
    (ht : P t = op :: ops) : RaceFree (upd P t ops) := by
  have hsub : ∀ u, ∀ x ∈ upd P t ops u, x ∈ P u := by
    intro u x hx
    by_cases hu : u = t
    · subst hu; rw [upd_same] at hx; rw [ht]; simp [hx]
    · rw [upd_ne hu] at hx; exact hx
  intro a b hab x hx k hk y hy
  exact h a b hab x (hsub a x hx) k hk y (hsub b y hy)

theorem sched_inv (ts : List Nat) : ∀ (P P' : Nat → List Op) (σ σ' : Nat → List α) (os : List (Nat × Obs)),
    RaceFree P → E.sched sort fuel ts P σ = .ok (σ', P', os) →
    (∀ t, ∃ done σt, P t = done ++ P' t ∧ E.run sort fuel σ done = .ok (σt, printedBy t os) ∧
      ∀ k, (∀ u, u ≠ t → ∀ op ∈ P u, changes op ≠ some k) → σ' k = σt k) ∧
    ∀ k, (∀ t, ∀ op ∈ P t, changes op ≠ some k) → σ' k = σ k := by
  induction ts with
  | nil =>
    intro P P' σ σ' os _ h
    simp only [Encoding.sched, Res.ok.injEq, Prod.mk.injEq] at h
    obtain ⟨rfl, rfl, rfl⟩ := h
    exact ⟨fun t => ⟨[], σ, rfl, rfl, fun _ _ => rfl⟩, fun _ _ => rfl⟩
  | cons t ts ih =>
    intro P P' σ σ' os hrf h
    rw [Encoding.sched] at h
    cases ht : P t with
    | nil => rw [ht] at h; exact ih P P' σ σ' os hrf h
    | cons op ops =>
      rw [ht] at h
      obtain ⟨⟨σ1, o⟩, h1, h2⟩ := Res.bind_eq_ok.mp h
      obtain ⟨⟨σ2, P2, os2⟩, h3, h4⟩ := Res.bind_eq_ok.mp h2
      simp only [Res.pure_eq, Res.ok.injEq, Prod.mk.injEq] at h4
      obtain ⟨rfl, rfl, rfl⟩ := h4
      obtain ⟨hA, hB⟩ := ih _ _ _ _ _ (raceFree_upd hrf ht) h3
      have hop : op ∈ P t := by rw [ht]; simp
      constructor
      · intro u
        obtain ⟨done, σu, e1, e2, e3⟩ := hA u
        by_cases hu : u = t
        · subst hu
          rw [upd_same] at e1
          refine ⟨op :: done, σu, by rw [ht, e1]; rfl, ?_, ?_⟩
          · rw [Encoding.run, h1]
            show (E.run sort fuel σ1 done >>= fun r => _) = _
            rw [e2]
            simp [printedBy]
          · intro k hk
            refine e3 k fun v hv x hx => hk v hv x ?_
            rw [upd_ne hv] at hx; exact hx
        · rw [upd_ne hu] at e1
          have hdone : ∀ x ∈ done, x ∈ P u := by intro x hx; rw [e1]; simp [hx]
          have hch : ∀ k, changes op ≠ some k → σ1 k = σ k := fun k hk => step_unchanged E sort fuel h1 hk
          obtain ⟨σu', g1, g2⟩ := run_frame E sort fuel (σ := σ1) (τ := σ) (prog := done)
            (fun x hx k hk => hch k fun hc => hrf t u (fun e => hu e.symm) op hop k hc x (hdone x hx) hk) e2
          refine ⟨done, σu', e1, ?_, ?_⟩
          · rw [g1]
            have : (t == u) = false := by simpa using fun e => hu e.symm
            simp [printedBy, this]
          · intro k hk
            rw [e3 k ?_, g2 k (hch k (hk t (fun e => hu e.symm) op hop))]
            intro v hv x hx
            by_cases hvt : v = t
            · subst hvt; rw [upd_same] at hx; exact hk v hv x (by rw [ht]; simp [hx])
            · rw [upd_ne hvt] at hx; exact hk v hv x hx
      · intro k hk
        rw [hB k ?_, step_unchanged E sort fuel h1 (hk t op hop)]
        intro v x hx
        by_cases hvt : v = t
        · subst hvt; rw [upd_same] at hx; exact hk v x (by rw [ht]; simp [hx])
        · rw [upd_ne hvt] at hx; exact hk v x hx

theorem sched_ok (ts : List Nat) : ∀ (P : Nat → List Op) (σ : Nat → List α), RaceFree P →
    (∀ t, ∃ r, E.run sort fuel σ (P t) = .ok r) → ∃ r, E.sched sort fuel ts P σ = .ok r := by
  induction ts with
  | nil => intro P σ _ _; exact ⟨_, rfl⟩
  | cons t ts ih =>
    intro P σ hrf hok
    rw [Encoding.sched]
    cases ht : P t with
    | nil => exact ih P σ hrf hok
    | cons op ops =>
      obtain ⟨r, hr⟩ := hok t
      rw [ht, Encoding.run] at hr
      obtain ⟨⟨σ1, o⟩, h1, h2⟩ := Res.bind_eq_ok.mp hr
      obtain ⟨⟨σ2, os2⟩, h3, h4⟩ := Res.bind_eq_ok.mp h2
      have hop : op ∈ P t := by rw [ht]; simp
      obtain ⟨⟨σ', P', os⟩, hs⟩ := ih (upd P t ops) σ1 (raceFree_upd hrf ht) (by
        intro u
        by_cases hu : u = t
        · subst hu; rw [upd_same]; exact ⟨_, h3⟩
        · rw [upd_ne hu]
          obtain ⟨⟨τ, ot⟩, hr⟩ := hok u
          obtain ⟨τ', g1, _⟩ := run_frame E sort fuel (σ := σ) (τ := σ1) (prog := P u)
            (fun x hx k hk => (step_unchanged E sort fuel h1
              fun hc => hrf t u (fun e => hu e.symm) op hop k hc x hx hk).symm) hr
          exact ⟨_, g1⟩)
      refine ⟨(σ', P', (t, o) :: os), ?_⟩
      show (E.step sort fuel σ op >>= fun r => _) = _
      rw [h1]
      show (E.sched sort fuel ts (upd P t ops) σ1 >>= fun r => _) = _
      rw [hs]; rfl

end

/-- C60: whatever the schedule, each of several threads that do not share what they change has printed exactly what it
prints when it runs alone on the initial strings (as far as it got), and sees its strings exactly as alone;
strings nobody changes are unchanged. For both encodings (`E` is `enc8` or `enc32`, or any other). -/
theorem C60_each_thread_as_alone {α : Type} [DecidableEq α] (E : Encoding α) (sort : SortFn) (fuel : Nat)
    (P P' : Nat → List Op) (hP : RaceFree P) (ts : List Nat) (σ σ' : Nat → List α) (os : List (Nat × Obs))
    (h : E.sched sort fuel ts P σ = .ok (σ', P', os)) :
    (∀ t, ∃ done σt, P t = done ++ P' t ∧ E.run sort fuel σ done = .ok (σt, printedBy t os) ∧
      ∀ op ∈ P t, ∀ k ∈ touches op, σ' k = σt k) ∧
    ∀ k, (∀ t, ∀ op ∈ P t, changes op ≠ some k) → σ' k = σ k := by
  obtain ⟨h1, h2⟩ := sched_inv E sort fuel ts P P' σ σ' os hP h
  refine ⟨fun t => ?_, h2⟩
  obtain ⟨done, σt, e1, e2, e3⟩ := h1 t
  refine ⟨done, σt, e1, e2, fun op hop k hk => e3 k fun u hu op' hop' hc => ?_⟩
  exact hP u t hu op' hop' k hc op hop hk

/-- C60: if each thread alone is free of undefined behaviour, so is every schedule. -/
theorem C60_no_undefined_behaviour {α : Type} [DecidableEq α] (E : Encoding α) (sort : SortFn) (fuel : Nat)
    (P : Nat → List Op) (hP : RaceFree P) (σ : Nat → List α)
    (hok : ∀ t, ∃ σt os, E.run sort fuel σ (P t) = .ok (σt, os)) (ts : List Nat) :
    ∃ σ' P' os, E.sched sort fuel ts P σ = .ok (σ', P', os) := by
  obtain ⟨⟨a, b, c⟩, h⟩ := sched_ok E sort fuel ts P σ hP fun t => by
    obtain ⟨a, b, h⟩ := hok t; exact ⟨_, h⟩
  exact ⟨a, b, c, h⟩

/-- C60: all schedules under which every thread finishes end with the same strings, and each thread prints the same. -/
theorem C60_schedule_irrelevant {α : Type} [DecidableEq α] (E : Encoding α) (sort : SortFn) (fuel : Nat)
    (P : Nat → List Op) (hP : RaceFree P) (σ : Nat → List α) (ts ts' : List Nat)
    (σ1 σ2 : Nat → List α) (os1 os2 : List (Nat × Obs))
    (h1 : E.sched sort fuel ts P σ = .ok (σ1, fun _ => [], os1))
    (h2 : E.sched sort fuel ts' P σ = .ok (σ2, fun _ => [], os2)) :
    σ1 = σ2 ∧ ∀ t, printedBy t os1 = printedBy t os2 := by
  obtain ⟨a1, b1⟩ := C60_each_thread_as_alone E sort fuel P _ hP ts σ σ1 os1 h1
  obtain ⟨a2, b2⟩ := C60_each_thread_as_alone E sort fuel P _ hP ts' σ σ2 os2 h2
  have key : ∀ t, ∃ τ os, E.run sort fuel σ (P t) = .ok (τ, os) ∧ printedBy t os1 = os ∧ printedBy t os2 = os ∧
      ∀ op ∈ P t, ∀ k ∈ touches op, σ1 k = τ k ∧ σ2 k = τ k := by
    intro t
    obtain ⟨d1, τ1, e1, r1, k1⟩ := a1 t
    obtain ⟨d2, τ2, e2, r2, k2⟩ := a2 t
    rw [List.append_nil] at e1 e2
    rw [← e1] at r1; rw [← e2] at r2
    rw [r1] at r2
    simp only [Res.ok.injEq, Prod.mk.injEq] at r2
    obtain ⟨rfl, he⟩ := r2
    exact ⟨τ1, _, r1, rfl, he.symm, fun op hop k hk => ⟨k1 op hop k hk, k2 op hop k hk⟩⟩
  constructor
  · funext k
    by_cases hk : ∃ t, ∃ op ∈ P t, changes op = some k
    · obtain ⟨t, op, hop, hc⟩ := hk
      obtain ⟨τ, os, _, _, _, h⟩ := key t
      have := h op hop k (changes_touches hc)
      rw [this.1, this.2]
    · have hk' : ∀ t, ∀ op ∈ P t, changes op ≠ some k := fun t op hop hc => hk ⟨t, op, hop, hc⟩
      rw [b1 k hk', b2 k hk']
  · intro t
    obtain ⟨τ, os, _, g1, g2, _⟩ := key t
    rw [g1, g2]

theorem sched_left {α : Type} [DecidableEq α] (E : Encoding α) (sort : SortFn) (fuel : Nat) (ts : List Nat) :
    ∀ (P P' : Nat → List Op) (σ σ' : Nat → List α) (os : List (Nat × Obs)),
    E.sched sort fuel ts P σ = .ok (σ', P', os) → ∀ t, P' t = (P t).drop (ts.count t) := by
  induction ts with
  | nil =>
    intro P P' σ σ' os h t
    simp only [Encoding.sched, Res.ok.injEq, Prod.mk.injEq] at h
    obtain ⟨rfl, rfl, rfl⟩ := h
    rfl
  | cons u ts ih =>
    intro P P' σ σ' os h t
    rw [Encoding.sched] at h
    cases hu : P u with
    | nil =>
      rw [hu] at h
      rw [ih _ _ _ _ _ h t]
      by_cases e : u = t
      · subst e; rw [hu]; simp
      · rw [List.count_cons_of_ne (by simpa using e)]
    | cons op ops =>
      rw [hu] at h
      obtain ⟨⟨σ1, o⟩, h1, h2⟩ := Res.bind_eq_ok.mp h
      obtain ⟨⟨σ2, P2, os2⟩, h3, h4⟩ := Res.bind_eq_ok.mp h2
      simp only [Res.pure_eq, Res.ok.injEq, Prod.mk.injEq] at h4
      obtain ⟨rfl, rfl, rfl⟩ := h4
      rw [ih _ _ _ _ _ h3 t]
      by_cases e : u = t
      · subst e; rw [upd_same, List.count_cons_self, hu, List.drop_succ_cons]
      · rw [upd_ne (fun e' => e e'.symm), List.count_cons_of_ne (by simpa using e)]

/-- The order in which the threads printed, as the schedule prescribes. -/
def turns : List Nat → (Nat → List Op) → List Nat
  | [], _ => []
  | t :: ts, P => match P t with
    | [] => turns ts P
    | _ :: ops => t :: turns ts (upd P t ops)

theorem sched_turns {α : Type} [DecidableEq α] (E : Encoding α) (sort : SortFn) (fuel : Nat) (ts : List Nat) :
    ∀ (P P' : Nat → List Op) (σ σ' : Nat → List α) (os : List (Nat × Obs)),
    E.sched sort fuel ts P σ = .ok (σ', P', os) → os.map (·.1) = turns ts P := by
  induction ts with
  | nil =>
    intro P P' σ σ' os h
    simp only [Encoding.sched, Res.ok.injEq, Prod.mk.injEq] at h
    obtain ⟨rfl, rfl, rfl⟩ := h
    rfl
  | cons u ts ih =>
    intro P P' σ σ' os h
    rw [Encoding.sched] at h
    cases hu : P u with
    | nil => rw [hu] at h; rw [turns, hu]; exact ih _ _ _ _ _ h
    | cons op ops =>
      rw [hu] at h
      obtain ⟨⟨σ1, o⟩, h1, h2⟩ := Res.bind_eq_ok.mp h
      obtain ⟨⟨σ2, P2, os2⟩, h3, h4⟩ := Res.bind_eq_ok.mp h2
      simp only [Res.pure_eq, Res.ok.injEq, Prod.mk.injEq] at h4
      obtain ⟨rfl, rfl, rfl⟩ := h4
      rw [turns, hu, List.map_cons, ih _ _ _ _ _ h3]

theorem tagged_ext : ∀ (a b : List (Nat × Obs)), a.map (·.1) = b.map (·.1) →
    (∀ t, printedBy t a = printedBy t b) → a = b := by
  intro a
  induction a with
  | nil => intro b h _; cases b <;> simp_all
  | cons x a ih =>
    intro b h hp
    cases b with
    | nil => simp at h
    | cons y b =>
      simp only [List.map_cons, List.cons.injEq] at h
      have hx := hp x.1
      simp only [printedBy, List.filter_cons, h.1, beq_self_eq_true, if_true, List.map_cons, List.cons.injEq] at hx
      have hxy : x = y := Prod.ext h.1 hx.1
      subst hxy
      rw [ih b h.2]
      intro t
      have := hp t
      simp only [printedBy, List.filter_cons] at this
      by_cases ht : x.1 = t
      · simpa [ht, printedBy] using this
      · simpa [ht, printedBy] using this

/-- C60, with C56: `n` threads that do not share what they change, each of which alone runs an allowed program
(Spec/History.lean), print the same under every schedule that lets them finish, in UTF-8 and in utf32ne: each what
its ideal run on plain sequences of codepoints prints; and the strings end up as in the ideal runs. -/
theorem C60_ideal_under_every_schedule (sort : SortFn) (hs : ConformingSort sort) (n : Nat) (P : Nat → List Op)
    (hn : ∀ t, n ≤ t → P t = []) (hP : RaceFree P) (σ : Nat → List Nat) (hσ : ∀ k, ∀ c ∈ σ k, c < 2 ^ 31)
    (ha : ∀ t, (libraryData sort).AllowedRun σ (P t)) :
    ∃ (σi : Nat → Nat → List Nat) (osi : Nat → List Obs) (N : Nat),
      (∀ t, (libraryData sort).IdealRun σ (P t) (σi t) (osi t)) ∧
      ∀ fuel, N ≤ fuel → ∀ ts : List Nat, (∀ t, (P t).length ≤ ts.count t) →
        ∃ (σ' : Nat → List Nat) (os : List (Nat × Obs)), enc8.sched sort fuel ts P (fun k => encodeText (σ k)) =
            .ok (fun k => encodeText (σ' k), fun _ => [], os) ∧
          enc32.sched sort fuel ts P (fun k => ints (σ k)) = .ok (fun k => ints (σ' k), fun _ => [], os) ∧
          (∀ t, printedBy t os = osi t) ∧
          (∀ t, ∀ op ∈ P t, ∀ k ∈ touches op, σ' k = σi t k) ∧
          ∀ k, (∀ t, ∀ op ∈ P t, changes op ≠ some k) → σ' k = σ k := by
  have h0 : ∀ t, ∃ σ' os N, (libraryData sort).IdealRun σ (P t) σ' os ∧ ∀ fuel, N ≤ fuel →
      enc8.run sort fuel (fun k => encodeText (σ k)) (P t) = .ok (fun k => encodeText (σ' k), os) ∧
      enc32.run sort fuel (fun k => ints (σ k)) (P t) = .ok (fun k => ints (σ' k), os) :=
    fun t => C56_programs sort hs (P t) σ hσ (ha t)
  let σi : Nat → Nat → List Nat := fun t => (h0 t).choose
  let osi : Nat → List Obs := fun t => (h0 t).choose_spec.choose
  let Ni : Nat → Nat := fun t => (h0 t).choose_spec.choose_spec.choose
  have hi : ∀ t, (libraryData sort).IdealRun σ (P t) (σi t) (osi t) ∧ ∀ fuel, Ni t ≤ fuel →
      enc8.run sort fuel (fun k => encodeText (σ k)) (P t) = .ok (fun k => encodeText (σi t k), osi t) ∧
      enc32.run sort fuel (fun k => ints (σ k)) (P t) = .ok (fun k => ints (σi t k), osi t) :=
    fun t => (h0 t).choose_spec.choose_spec.choose_spec
  have hbound : ∀ m, ∃ N, ∀ t, t < m → Ni t ≤ N := by
    intro m
    induction m with
    | zero => exact ⟨0, by simp⟩
    | succ m ih =>
      obtain ⟨N, hN⟩ := ih
      refine ⟨max N (Ni m), fun t ht => ?_⟩
      by_cases e : t = m
      · subst e; omega
      · have := hN t (by omega); omega
  obtain ⟨N, hN⟩ := hbound n
  refine ⟨σi, osi, N, fun t => (hi t).1, ?_⟩
  intro fuel hf ts hts
  have hrun : ∀ t, enc8.run sort fuel (fun k => encodeText (σ k)) (P t) = .ok (fun k => encodeText (σi t k), osi t) ∧
      enc32.run sort fuel (fun k => ints (σ k)) (P t) = .ok (fun k => ints (σi t k), osi t) := by
    intro t
    by_cases ht : t < n
    · exact (hi t).2 fuel (by have := hN t ht; omega)
    · have hnil := hn t (by omega)
      have h1 := (hi t).1
      rw [hnil] at h1 ⊢
      generalize hσi : σi t = s at h1
      generalize hoi : osi t = o at h1
      cases h1
      exact ⟨rfl, rfl⟩
  obtain ⟨σ8, P8, os8, r8⟩ := C60_no_undefined_behaviour enc8 sort fuel P hP (fun k => encodeText (σ k))
    (fun t => ⟨_, _, (hrun t).1⟩) ts
  obtain ⟨σ32, P32, os32, r32⟩ := C60_no_undefined_behaviour enc32 sort fuel P hP (fun k => ints (σ k))
    (fun t => ⟨_, _, (hrun t).2⟩) ts
  have l8 : P8 = fun _ => [] := by
    funext t; rw [sched_left enc8 sort fuel ts _ _ _ _ _ r8 t]; exact List.drop_eq_nil_of_le (hts t)
  have l32 : P32 = fun _ => [] := by
    funext t; rw [sched_left enc32 sort fuel ts _ _ _ _ _ r32 t]; exact List.drop_eq_nil_of_le (hts t)
  subst l8 l32
  obtain ⟨a8, b8⟩ := C60_each_thread_as_alone enc8 sort fuel P _ hP ts _ _ _ r8
  obtain ⟨a32, b32⟩ := C60_each_thread_as_alone enc32 sort fuel P _ hP ts _ _ _ r32
  have k8 : ∀ t, printedBy t os8 = osi t ∧ ∀ op ∈ P t, ∀ k ∈ touches op, σ8 k = encodeText (σi t k) := by
    intro t
    obtain ⟨d, τ, e, r, hk⟩ := a8 t
    rw [List.append_nil] at e
    rw [← e, (hrun t).1] at r
    simp only [Res.ok.injEq, Prod.mk.injEq] at r
    obtain ⟨rfl, ho⟩ := r
    exact ⟨ho.symm, hk⟩
  have k32 : ∀ t, printedBy t os32 = osi t ∧ ∀ op ∈ P t, ∀ k ∈ touches op, σ32 k = ints (σi t k) := by
    intro t
    obtain ⟨d, τ, e, r, hk⟩ := a32 t
    rw [List.append_nil] at e
    rw [← e, (hrun t).2] at r
    simp only [Res.ok.injEq, Prod.mk.injEq] at r
    obtain ⟨rfl, ho⟩ := r
    exact ⟨ho.symm, hk⟩
  have hos : os8 = os32 := tagged_ext _ _
    (by rw [sched_turns enc8 sort fuel ts _ _ _ _ _ r8, sched_turns enc32 sort fuel ts _ _ _ _ _ r32])
    (fun t => by rw [(k8 t).1, (k32 t).1])
  subst hos
  have hex : ∀ k, ∃ cs, σ8 k = encodeText cs ∧ σ32 k = ints cs := by
    intro k
    by_cases hk : ∃ t, ∃ op ∈ P t, changes op = some k
    · obtain ⟨t, op, hop, hc⟩ := hk
      exact ⟨σi t k, (k8 t).2 op hop k (changes_touches hc), (k32 t).2 op hop k (changes_touches hc)⟩
    · have hk' : ∀ t, ∀ op ∈ P t, changes op ≠ some k := fun t op hop hc => hk ⟨t, op, hop, hc⟩
      exact ⟨σ k, b8 k hk', b32 k hk'⟩
  refine ⟨fun k => (hex k).choose, os8, ?_, ?_, fun t => (k8 t).1, ?_, ?_⟩
  · rw [r8]; congr 2; funext k; exact (hex k).choose_spec.1
  · rw [r32]; congr 2; funext k; exact (hex k).choose_spec.2
  · intro t op hop k hk
    exact ints_injective ((hex k).choose_spec.2.symm.trans ((k32 t).2 op hop k hk))
  · intro k hk
    exact ints_injective ((hex k).choose_spec.2.symm.trans (b32 k hk))

/-- Non-vacuity: three threads share the readable string 0; each builds its own string. -/
def sampleThreads : Nat → List Op
  | 0 => [.normalize .C 1 0, .read 1]
  | 1 => [.appendRange 2 0 0 1, .appendCps 2 [0x20AC], .readBack 2, .equal 2 0]
  | 2 => [.readGraphemes 0, .normalize .D 3 0]
  | _ => []

example : (∀ t, t < 3 → allowedRunB insSort (fun k => if k = 0 then [0x65, 0x301] else []) (sampleThreads t) = true) ∧
    (match enc8.sched insSort 20 [2, 1, 0, 1, 1, 0, 2, 1] sampleThreads
        (fun k => encodeText (if k = 0 then [0x65, 0x301] else [])) with
      | .ok (σ, _, os) => decide (σ 1 = encodeText [0xE9]) && decide (σ 2 = encodeText [0x65, 0x20AC]) &&
          decide (os = [(2, .graphemes [[0x65, 0x301]]), (1, .none), (0, .number 1), (1, .none),
            (1, .codepoints [0x20AC, 0x65]), (0, .codepoints [0xE9]), (2, .number 2), (1, .bool false)])
      | _ => false) = true := by decide +kernel

theorem sampleThreads_raceFree : RaceFree sampleThreads := by
  have h : ∀ t u, t < 3 → u < 3 → t ≠ u → ∀ op ∈ sampleThreads t, ∀ k, changes op = some k →
      ∀ op' ∈ sampleThreads u, k ∉ touches op' := by
    intro t u ht hu hne
    have ht' : t = 0 ∨ t = 1 ∨ t = 2 := by omega
    have hu' : u = 0 ∨ u = 1 ∨ u = 2 := by omega
    rcases ht' with rfl | rfl | rfl <;> rcases hu' with rfl | rfl | rfl <;>
      first | exact absurd rfl hne | simp [sampleThreads, changes, touches]
  intro t u hne op hop k hk op' hop'
  by_cases ht : t < 3
  · by_cases hu : u < 3
    · exact h t u ht hu hne op hop k hk op' hop'
    · rw [show sampleThreads u = [] from by match u, hu with | (m + 3), _ => rfl] at hop'
      simp at hop'
  · rw [show sampleThreads t = [] from by match t, ht with | (m + 3), _ => rfl] at hop
    simp at hop

/-- C60 is false with a race: two threads appending to the same string. -/
theorem C60_needs_race_freedom :
    let P : Nat → List Op := fun t => if t = 0 then [.appendCps 0 [0x61]] else if t = 1 then [.appendCps 0 [0x62], .read 0] else []
    ¬ RaceFree P ∧
    (match enc8.sched insSort 9 [0, 1, 1] P (fun _ => []), enc8.sched insSort 9 [1, 1, 0] P (fun _ => []) with
      | .ok (σ1, _, os1), .ok (σ2, _, os2) => !decide (σ1 0 = σ2 0) && !decide (printedBy 1 os1 = printedBy 1 os2)
      | _, _ => false) = true := by
  refine ⟨?_, by decide +kernel⟩
  intro h
  exact h 0 1 (by decide) (.appendCps 0 [0x61]) (by simp) 0 rfl (.read 0) (by simp) (by simp [touches])

/-- The theorems applied to the sample threads, for any schedule `ts`. -/
example (fuel : Nat) (ts : List Nat) := C60_each_thread_as_alone enc8 insSort fuel sampleThreads (hP := sampleThreads_raceFree)
  (ts := ts) (σ := fun k => encodeText (if k = 0 then [0x65, 0x301] else []))

theorem sampleThreads_allowed (t : Nat) : (libraryData insSort).AllowedRun
    (fun k => if k = 0 then [0x65, 0x301] else []) (sampleThreads t) := by
  rw [← C56_allowed_checkable]
  by_cases ht : t < 3
  · have h : t = 0 ∨ t = 1 ∨ t = 2 := by omega
    rcases h with rfl | rfl | rfl <;> decide +kernel
  · rw [show sampleThreads t = [] from by match t, ht with | (m + 3), _ => rfl]; rfl

example := C60_ideal_under_every_schedule insSort insSort_stable.1 3 sampleThreads
  (fun t ht => by match t, ht with | (m + 3), _ => rfl) sampleThreads_raceFree
  (fun k => if k = 0 then [0x65, 0x301] else [])
  (by
    intro k c hc
    split at hc <;> simp at hc
    rcases hc with rfl | rfl <;> decide)
  sampleThreads_allowed

end U5e
