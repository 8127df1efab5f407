import Verif.Model.ViewThreads
import Verif.Spec.ViewThreads
import Verif.Properties.Views
import Verif.Properties.Threads
import Verif.Proofs.Order
/-!
# C75: threads over strings of both encodings and views

`viewSched sort fuel ts P σ` runs the threads `P` (thread `t` runs the statements `P t`) over the strings `σ` under
the schedule `ts`; `viewRun` runs one program alone.
-/
namespace U5e
open Spec

section
variable (sort : SortFn) (fuel : Nat)

/-- `τ` with the change `op` made to `σ'`. -/
def patchV (op : VOp) (τ σ' : Nat → Text) : Nat → Text :=
  match changesV op with
  | some d => upd τ d (σ' d)
  | none => τ

theorem opened_congr {σ τ : Nat → Text} {src : Src} (h : σ src.string = τ src.string) :
    src.opened σ = src.opened τ := by
  cases src <;> simp only [Src.string] at h <;> simp only [Src.opened, h]

/-- A statement only changes the string it may change, and its effect depends only on the strings it touches. -/
theorem step_patchV {σ τ : Nat → Text} {op : VOp} (hag : ∀ k ∈ touchesV op, σ k = τ k) :
    viewStep sort fuel τ op = (viewStep sort fuel σ op >>= fun r => .ok (patchV op τ r.1, r.2)) := by
  cases op <;> simp only [touchesV, List.mem_cons, List.not_mem_nil, or_false, forall_eq_or_imp, forall_eq] at hag <;>
    first
    | (simp [viewStep, patchV, changesV, upd_same, hag, bind_assoc]; done)
    | (have h3 := opened_congr hag
       simp [viewStep, patchV, changesV, upd_same, hag, h3, bind_assoc]; done)
    | (obtain ⟨h1, h2⟩ := hag; simp [viewStep, patchV, changesV, upd_same, h1, h2, bind_assoc]; done)
    | (obtain ⟨h1, h2⟩ := hag; have h3 := opened_congr h2
       simp [viewStep, patchV, changesV, upd_same, h1, h2, h3, bind_assoc]; done)
    | (obtain ⟨h1, h2⟩ := hag; have h3 := opened_congr h1; have h4 := opened_congr h2
       simp [viewStep, patchV, changesV, upd_same, h3, h4, bind_assoc]; done)
    | (obtain ⟨h1, h2⟩ := hag; have h3 := opened_congr h2
       simp only [viewStep, h1, h2, h3]; split <;>
        simp [patchV, changesV, upd_same, bind_assoc])

theorem step_frameV {σ τ σ' : Nat → Text} {op : VOp} {o : Obs} (hag : ∀ k ∈ touchesV op, σ k = τ k)
    (h : viewStep sort fuel σ op = .ok (σ', o)) :
    viewStep sort fuel τ op = .ok (patchV op τ σ', o) := by
  rw [step_patchV sort fuel hag, h]; rfl

theorem step_selfV {σ σ' : Nat → Text} {op : VOp} {o : Obs} (h : viewStep sort fuel σ op = .ok (σ', o)) :
    σ' = patchV op σ σ' := by
  have := step_frameV sort fuel (τ := σ) (fun _ _ => rfl) h
  rw [h] at this
  simp only [Res.ok.injEq, Prod.mk.injEq, and_true] at this
  exact this

theorem patch_someV {op : VOp} {d : Nat} (h : changesV op = some d) (τ σ' : Nat → Text) :
    patchV op τ σ' = upd τ d (σ' d) := by rw [patchV, h]
theorem patch_noneV {op : VOp} (h : changesV op = none) (τ σ' : Nat → Text) : patchV op τ σ' = τ := by rw [patchV, h]

theorem step_unchangedV {σ σ' : Nat → Text} {op : VOp} {o : Obs} (h : viewStep sort fuel σ op = .ok (σ', o)) {k : Nat}
    (hk : changesV op ≠ some k) : σ' k = σ k := by
  rw [step_selfV sort fuel h]
  cases hd : changesV op with
  | some d => rw [patch_someV hd]; exact upd_ne (fun e => hk (by rw [hd, e]))
  | none => rw [patch_noneV hd]

theorem changes_touchesV {op : VOp} {k : Nat} (h : changesV op = some k) : k ∈ touchesV op := by
  cases op <;> simp_all [changesV, touchesV]

/-- A program alone, started in a store that agrees on what it touches. -/
theorem run_frameV {prog : List VOp} : ∀ {σ τ σ' : Nat → Text} {os : List Obs},
    (∀ op ∈ prog, ∀ k ∈ touchesV op, σ k = τ k) → viewRun sort fuel σ prog = .ok (σ', os) →
    ∃ τ', viewRun sort fuel τ prog = .ok (τ', os) ∧ ∀ k, σ k = τ k → σ' k = τ' k := by
  induction prog with
  | nil =>
    intro σ τ σ' os _ h
    simp only [viewRun, Res.ok.injEq, Prod.mk.injEq] at h
    obtain ⟨rfl, rfl⟩ := h
    exact ⟨τ, rfl, fun _ h => h⟩
  | cons op prog ih =>
    intro σ τ σ' os hag h
    rw [viewRun] at h
    obtain ⟨⟨σ1, o⟩, h1, h2⟩ := Res.bind_eq_ok.mp h
    obtain ⟨⟨σ2, os2⟩, h3, h4⟩ := Res.bind_eq_ok.mp h2
    simp only [Res.pure_eq, Res.ok.injEq, Prod.mk.injEq] at h4
    obtain ⟨rfl, rfl⟩ := h4
    have hst := step_frameV sort fuel (hag op (by simp)) h1
    have hk1 : ∀ k, σ k = τ k → σ1 k = patchV op τ σ1 k := by
      intro k hk
      cases hd : changesV op with
      | none =>
        rw [patch_noneV hd, step_unchangedV sort fuel h1 (by rw [hd]; simp)]; exact hk
      | some d =>
        rw [patch_someV hd]
        by_cases hkd : k = d
        · subst hkd; rw [upd_same]
        · rw [upd_ne hkd, step_unchangedV sort fuel h1 (by rw [hd]; simpa using fun e => hkd e.symm)]; exact hk
    obtain ⟨τ', h5, h6⟩ := ih (τ := patchV op τ σ1)
      (fun op' ho k hk => hk1 k (hag op' (by simp [ho]) k hk)) h3
    refine ⟨τ', ?_, fun k hk => h6 k (hk1 k hk)⟩
    rw [viewRun, hst]
    show (viewRun sort fuel (patchV op τ σ1) prog >>= fun r => _) = _
    rw [h5]; rfl

theorem raceFree_updV {P : Nat → List VOp} (h : RaceFreeV P) {t : Nat} {op : VOp} {ops : List VOp}
    (ht : P t = op :: ops) : RaceFreeV (upd P t ops) := by
  have hsub : ∀ u, ∀ x ∈ upd P t ops u, x ∈ P u := by
    intro u x hx
    by_cases hu : u = t
    · subst hu; rw [upd_same] at hx; rw [ht]; simp [hx]
    · rw [upd_ne hu] at hx; exact hx
  intro a b hab x hx k hk y hy
  exact h a b hab x (hsub a x hx) k hk y (hsub b y hy)

theorem sched_invV (ts : List Nat) : ∀ (P P' : Nat → List VOp) (σ σ' : Nat → Text) (os : List (Nat × Obs)),
    RaceFreeV P → viewSched sort fuel ts P σ = .ok (σ', P', os) →
    (∀ t, ∃ done σt, P t = done ++ P' t ∧ viewRun sort fuel σ done = .ok (σt, printedBy t os) ∧
      ∀ k, (∀ u, u ≠ t → ∀ op ∈ P u, changesV op ≠ some k) → σ' k = σt k) ∧
    ∀ k, (∀ t, ∀ op ∈ P t, changesV op ≠ some k) → σ' k = σ k := by
  induction ts with
  | nil =>
    intro P P' σ σ' os _ h
    simp only [viewSched, Res.ok.injEq, Prod.mk.injEq] at h
    obtain ⟨rfl, rfl, rfl⟩ := h
    exact ⟨fun t => ⟨[], σ, rfl, rfl, fun _ _ => rfl⟩, fun _ _ => rfl⟩
  | cons t ts ih =>
    intro P P' σ σ' os hrf h
    rw [viewSched] at h
    cases ht : P t with
    | nil => rw [ht] at h; exact ih P P' σ σ' os hrf h
    | cons op ops =>
      rw [ht] at h
      obtain ⟨⟨σ1, o⟩, h1, h2⟩ := Res.bind_eq_ok.mp h
      obtain ⟨⟨σ2, P2, os2⟩, h3, h4⟩ := Res.bind_eq_ok.mp h2
      simp only [Res.pure_eq, Res.ok.injEq, Prod.mk.injEq] at h4
      obtain ⟨rfl, rfl, rfl⟩ := h4
      obtain ⟨hA, hB⟩ := ih _ _ _ _ _ (raceFree_updV hrf ht) h3
      have hop : op ∈ P t := by rw [ht]; simp
      constructor
      · intro u
        obtain ⟨done, σu, e1, e2, e3⟩ := hA u
        by_cases hu : u = t
        · subst hu
          rw [upd_same] at e1
          refine ⟨op :: done, σu, by rw [ht, e1]; rfl, ?_, ?_⟩
          · rw [viewRun, h1]
            show (viewRun sort fuel σ1 done >>= fun r => _) = _
            rw [e2]
            simp [printedBy]
          · intro k hk
            refine e3 k fun v hv x hx => hk v hv x ?_
            rw [upd_ne hv] at hx; exact hx
        · rw [upd_ne hu] at e1
          have hdone : ∀ x ∈ done, x ∈ P u := by intro x hx; rw [e1]; simp [hx]
          have hch : ∀ k, changesV op ≠ some k → σ1 k = σ k := fun k hk => step_unchangedV sort fuel h1 hk
          obtain ⟨σu', g1, g2⟩ := run_frameV sort fuel (σ := σ1) (τ := σ) (prog := done)
            (fun x hx k hk => hch k fun hc => hrf t u (fun e => hu e.symm) op hop k hc x (hdone x hx) hk) e2
          refine ⟨done, σu', e1, ?_, ?_⟩
          · rw [g1]
            have : (t == u) = false := by simpa using fun e => hu e.symm
            simp [printedBy, this]
          · intro k hk
            rw [e3 k ?_, g2 k (hch k (hk t (fun e => hu e.symm) op hop))]
            intro v hv x hx
            by_cases hvt : v = t
            · subst hvt; rw [upd_same] at hx; exact hk v hv x (by rw [ht]; simp [hx])
            · rw [upd_ne hvt] at hx; exact hk v hv x hx
      · intro k hk
        rw [hB k ?_, step_unchangedV sort fuel h1 (hk t op hop)]
        intro v x hx
        by_cases hvt : v = t
        · subst hvt; rw [upd_same] at hx; exact hk v x (by rw [ht]; simp [hx])
        · rw [upd_ne hvt] at hx; exact hk v x hx

theorem sched_okV (ts : List Nat) : ∀ (P : Nat → List VOp) (σ : Nat → Text), RaceFreeV P →
    (∀ t, ∃ r, viewRun sort fuel σ (P t) = .ok r) → ∃ r, viewSched sort fuel ts P σ = .ok r := by
  induction ts with
  | nil => intro P σ _ _; exact ⟨_, rfl⟩
  | cons t ts ih =>
    intro P σ hrf hok
    rw [viewSched]
    cases ht : P t with
    | nil => exact ih P σ hrf hok
    | cons op ops =>
      obtain ⟨r, hr⟩ := hok t
      rw [ht, viewRun] at hr
      obtain ⟨⟨σ1, o⟩, h1, h2⟩ := Res.bind_eq_ok.mp hr
      obtain ⟨⟨σ2, os2⟩, h3, h4⟩ := Res.bind_eq_ok.mp h2
      have hop : op ∈ P t := by rw [ht]; simp
      obtain ⟨⟨σ', P', os⟩, hs⟩ := ih (upd P t ops) σ1 (raceFree_updV hrf ht) (by
        intro u
        by_cases hu : u = t
        · subst hu; rw [upd_same]; exact ⟨_, h3⟩
        · rw [upd_ne hu]
          obtain ⟨⟨τ, ot⟩, hr⟩ := hok u
          obtain ⟨τ', g1, _⟩ := run_frameV sort fuel (σ := σ) (τ := σ1) (prog := P u)
            (fun x hx k hk => (step_unchangedV sort fuel h1
              fun hc => hrf t u (fun e => hu e.symm) op hop k hc x hx hk).symm) hr
          exact ⟨_, g1⟩)
      refine ⟨(σ', P', (t, o) :: os), ?_⟩
      show (viewStep sort fuel σ op >>= fun r => _) = _
      rw [h1]
      show (viewSched sort fuel ts (upd P t ops) σ1 >>= fun r => _) = _
      rw [hs]; rfl

end

/-- C75: whatever the schedule, each of several threads that do not share what they change has printed exactly what it
prints when it runs alone on the initial strings (as far as it got), and sees its strings exactly as alone;
strings nobody changesV are unchanged. For both encodings (`E` is `enc8` or `enc32`, or any other). -/
theorem C75_each_thread_as_alone (sort : SortFn) (fuel : Nat)
    (P P' : Nat → List VOp) (hP : RaceFreeV P) (ts : List Nat) (σ σ' : Nat → Text) (os : List (Nat × Obs))
    (h : viewSched sort fuel ts P σ = .ok (σ', P', os)) :
    (∀ t, ∃ done σt, P t = done ++ P' t ∧ viewRun sort fuel σ done = .ok (σt, printedBy t os) ∧
      ∀ op ∈ P t, ∀ k ∈ touchesV op, σ' k = σt k) ∧
    ∀ k, (∀ t, ∀ op ∈ P t, changesV op ≠ some k) → σ' k = σ k := by
  obtain ⟨h1, h2⟩ := sched_invV sort fuel ts P P' σ σ' os hP h
  refine ⟨fun t => ?_, h2⟩
  obtain ⟨done, σt, e1, e2, e3⟩ := h1 t
  refine ⟨done, σt, e1, e2, fun op hop k hk => e3 k fun u hu op' hop' hc => ?_⟩
  exact hP u t hu op' hop' k hc op hop hk

/-- C75: if each thread alone is free of undefined behaviour, so is every schedule. -/
theorem C75_no_undefined_behaviour (sort : SortFn) (fuel : Nat)
    (P : Nat → List VOp) (hP : RaceFreeV P) (σ : Nat → Text)
    (hok : ∀ t, ∃ σt os, viewRun sort fuel σ (P t) = .ok (σt, os)) (ts : List Nat) :
    ∃ σ' P' os, viewSched sort fuel ts P σ = .ok (σ', P', os) := by
  obtain ⟨⟨a, b, c⟩, h⟩ := sched_okV sort fuel ts P σ hP fun t => by
    obtain ⟨a, b, h⟩ := hok t; exact ⟨_, h⟩
  exact ⟨a, b, c, h⟩

/-- C75: all schedules under which every thread finishes end with the same strings, and each thread prints the same. -/
theorem C75_schedule_irrelevant (sort : SortFn) (fuel : Nat)
    (P : Nat → List VOp) (hP : RaceFreeV P) (σ : Nat → Text) (ts ts' : List Nat)
    (σ1 σ2 : Nat → Text) (os1 os2 : List (Nat × Obs))
    (h1 : viewSched sort fuel ts P σ = .ok (σ1, fun _ => [], os1))
    (h2 : viewSched sort fuel ts' P σ = .ok (σ2, fun _ => [], os2)) :
    σ1 = σ2 ∧ ∀ t, printedBy t os1 = printedBy t os2 := by
  obtain ⟨a1, b1⟩ := C75_each_thread_as_alone sort fuel P _ hP ts σ σ1 os1 h1
  obtain ⟨a2, b2⟩ := C75_each_thread_as_alone sort fuel P _ hP ts' σ σ2 os2 h2
  have key : ∀ t, ∃ τ os, viewRun sort fuel σ (P t) = .ok (τ, os) ∧ printedBy t os1 = os ∧ printedBy t os2 = os ∧
      ∀ op ∈ P t, ∀ k ∈ touchesV op, σ1 k = τ k ∧ σ2 k = τ k := by
    intro t
    obtain ⟨d1, τ1, e1, r1, k1⟩ := a1 t
    obtain ⟨d2, τ2, e2, r2, k2⟩ := a2 t
    rw [List.append_nil] at e1 e2
    rw [← e1] at r1; rw [← e2] at r2
    rw [r1] at r2
    simp only [Res.ok.injEq, Prod.mk.injEq] at r2
    obtain ⟨rfl, he⟩ := r2
    exact ⟨τ1, _, r1, rfl, he.symm, fun op hop k hk => ⟨k1 op hop k hk, k2 op hop k hk⟩⟩
  constructor
  · funext k
    by_cases hk : ∃ t, ∃ op ∈ P t, changesV op = some k
    · obtain ⟨t, op, hop, hc⟩ := hk
      obtain ⟨τ, os, _, _, _, h⟩ := key t
      have := h op hop k (changes_touchesV hc)
      rw [this.1, this.2]
    · have hk' : ∀ t, ∀ op ∈ P t, changesV op ≠ some k := fun t op hop hc => hk ⟨t, op, hop, hc⟩
      rw [b1 k hk', b2 k hk']
  · intro t
    obtain ⟨τ, os, _, g1, g2, _⟩ := key t
    rw [g1, g2]

theorem sched_leftV (sort : SortFn) (fuel : Nat) (ts : List Nat) :
    ∀ (P P' : Nat → List VOp) (σ σ' : Nat → Text) (os : List (Nat × Obs)),
    viewSched sort fuel ts P σ = .ok (σ', P', os) → ∀ t, P' t = (P t).drop (ts.count t) := by
  induction ts with
  | nil =>
    intro P P' σ σ' os h t
    simp only [viewSched, Res.ok.injEq, Prod.mk.injEq] at h
    obtain ⟨rfl, rfl, rfl⟩ := h
    rfl
  | cons u ts ih =>
    intro P P' σ σ' os h t
    rw [viewSched] at h
    cases hu : P u with
    | nil =>
      rw [hu] at h
      rw [ih _ _ _ _ _ h t]
      by_cases e : u = t
      · subst e; rw [hu]; simp
      · rw [List.count_cons_of_ne (by simpa using e)]
    | cons op ops =>
      rw [hu] at h
      obtain ⟨⟨σ1, o⟩, h1, h2⟩ := Res.bind_eq_ok.mp h
      obtain ⟨⟨σ2, P2, os2⟩, h3, h4⟩ := Res.bind_eq_ok.mp h2
      simp only [Res.pure_eq, Res.ok.injEq, Prod.mk.injEq] at h4
      obtain ⟨rfl, rfl, rfl⟩ := h4
      rw [ih _ _ _ _ _ h3 t]
      by_cases e : u = t
      · subst e; rw [upd_same, List.count_cons_self, hu, List.drop_succ_cons]
      · rw [upd_ne (fun e' => e e'.symm), List.count_cons_of_ne (by simpa using e)]

/-- The order in which the threads printed, as the schedule prescribes. -/
def turnsV : List Nat → (Nat → List VOp) → List Nat
  | [], _ => []
  | t :: ts, P => match P t with
    | [] => turnsV ts P
    | _ :: ops => t :: turnsV ts (upd P t ops)

theorem sched_turnsV (sort : SortFn) (fuel : Nat) (ts : List Nat) :
    ∀ (P P' : Nat → List VOp) (σ σ' : Nat → Text) (os : List (Nat × Obs)),
    viewSched sort fuel ts P σ = .ok (σ', P', os) → os.map (·.1) = turnsV ts P := by
  induction ts with
  | nil =>
    intro P P' σ σ' os h
    simp only [viewSched, Res.ok.injEq, Prod.mk.injEq] at h
    obtain ⟨rfl, rfl, rfl⟩ := h
    rfl
  | cons u ts ih =>
    intro P P' σ σ' os h
    rw [viewSched] at h
    cases hu : P u with
    | nil => rw [hu] at h; rw [turnsV, hu]; exact ih _ _ _ _ _ h
    | cons op ops =>
      rw [hu] at h
      obtain ⟨⟨σ1, o⟩, h1, h2⟩ := Res.bind_eq_ok.mp h
      obtain ⟨⟨σ2, P2, os2⟩, h3, h4⟩ := Res.bind_eq_ok.mp h2
      simp only [Res.pure_eq, Res.ok.injEq, Prod.mk.injEq] at h4
      obtain ⟨rfl, rfl, rfl⟩ := h4
      rw [turnsV, hu, List.map_cons, ih _ _ _ _ _ h3]


theorem viewRun_small (τ : Nat → Kind) {sort : SortFn} (hs : ConformingSort sort) (ops : List VOp)
    (σ : Nat → List Nat) (hσ : Small σ) (ha : (libraryData sort).PermittedRun τ σ ops) :
    ∃ σ' os N, Small σ' ∧ (libraryData sort).IdealRunV σ ops σ' os ∧ ∀ fuel, N ≤ fuel →
      viewRun sort fuel (memory τ σ) ops = .ok (memory τ σ', os) := by
  induction ops generalizing σ with
  | nil => exact ⟨σ, [], 0, hσ, .nil σ, fun _ _ => rfl⟩
  | cons op ops ih =>
    obtain ⟨ha1, ha2⟩ := ha
    have hI := idealVF_spec sort τ σ op ha1
    obtain ⟨hs1, N, hN⟩ := viewStep_refines τ hs σ hσ op ha1 _ _ hI
    obtain ⟨σ', os, M, hsm, hrun, hM⟩ := ih _ hs1 (ha2 _ _ hI)
    refine ⟨σ', _ :: os, max N M, hsm, .cons _ _ _ _ _ _ _ hI hrun, fun fuel hf => ?_⟩
    simp only [viewRun, hN fuel (by omega), Res.bind_ok, hM fuel (by omega), Res.pure_eq]

theorem stored_inj {k : Kind} {cs ds : List Nat} (hc : ∀ d ∈ cs, d < 2 ^ 31) (hd : ∀ d ∈ ds, d < 2 ^ 31)
    (h : Spec.stored k cs = Spec.stored k ds) : cs = ds := by
  cases k with
  | utf8 => simp only [Spec.stored, Text.utf8.injEq] at h; exact (encodeText_inj hc hd).mp h
  | utf32 => simp only [Spec.stored, Text.utf32.injEq] at h; exact ints_injective h

/-- C75, with C64: `n` threads that do not share what they change, each of which alone runs a permitted program
(Spec/Views.lean) over strings of the encodings `τ`, print the same under every schedule that lets them finish: each
what its ideal run on plain sequences of codepoints prints; and the strings hold the encodings of what they hold in the
ideal runs. -/
theorem C75_ideal_under_every_schedule (τ : Nat → Kind) (sort : SortFn) (hs : ConformingSort sort) (n : Nat)
    (P : Nat → List VOp) (hn : ∀ t, n ≤ t → P t = []) (hP : RaceFreeV P) (σ : Nat → List Nat)
    (hσ : ∀ k, ∀ c ∈ σ k, c < 2 ^ 31) (ha : ∀ t, (libraryData sort).PermittedRun τ σ (P t)) :
    ∃ (σi : Nat → Nat → List Nat) (osi : Nat → List Obs) (N : Nat),
      (∀ t, (libraryData sort).IdealRunV σ (P t) (σi t) (osi t)) ∧
      ∀ fuel, N ≤ fuel → ∀ ts : List Nat, (∀ t, (P t).length ≤ ts.count t) →
        ∃ (σ' : Nat → List Nat) (os : List (Nat × Obs)),
          viewSched sort fuel ts P (fun k => Spec.stored (τ k) (σ k)) =
            .ok (fun k => Spec.stored (τ k) (σ' k), fun _ => [], os) ∧
          (∀ t, printedBy t os = osi t) ∧
          (∀ t, ∀ op ∈ P t, ∀ k ∈ touchesV op, σ' k = σi t k) ∧
          ∀ k, (∀ t, ∀ op ∈ P t, changesV op ≠ some k) → σ' k = σ k := by
  have h0 : ∀ t, ∃ σ' os N, Small σ' ∧ (libraryData sort).IdealRunV σ (P t) σ' os ∧ ∀ fuel, N ≤ fuel →
      viewRun sort fuel (memory τ σ) (P t) = .ok (memory τ σ', os) :=
    fun t => viewRun_small τ hs (P t) σ hσ (ha t)
  let σi : Nat → Nat → List Nat := fun t => (h0 t).choose
  let osi : Nat → List Obs := fun t => (h0 t).choose_spec.choose
  let Ni : Nat → Nat := fun t => (h0 t).choose_spec.choose_spec.choose
  have hi : ∀ t, Small (σi t) ∧ (libraryData sort).IdealRunV σ (P t) (σi t) (osi t) ∧ ∀ fuel, Ni t ≤ fuel →
      viewRun sort fuel (memory τ σ) (P t) = .ok (memory τ (σi t), osi t) :=
    fun t => (h0 t).choose_spec.choose_spec.choose_spec
  have hbound : ∀ m, ∃ N, ∀ t, t < m → Ni t ≤ N := by
    intro m
    induction m with
    | zero => exact ⟨0, by simp⟩
    | succ m ih =>
      obtain ⟨N, hN⟩ := ih
      refine ⟨max N (Ni m), fun t ht => ?_⟩
      by_cases e : t = m
      · subst e; omega
      · have := hN t (by omega); omega
  obtain ⟨N, hN⟩ := hbound n
  refine ⟨σi, osi, N, fun t => (hi t).2.1, ?_⟩
  intro fuel hf ts hts
  have hrun : ∀ t, viewRun sort fuel (memory τ σ) (P t) = .ok (memory τ (σi t), osi t) := by
    intro t
    by_cases ht : t < n
    · exact (hi t).2.2 fuel (by have := hN t ht; omega)
    · have hnil := hn t (by omega)
      have h1 := (hi t).2.1
      rw [hnil] at h1 ⊢
      generalize hσi : σi t = s at h1
      generalize hoi : osi t = o at h1
      cases h1
      rfl
  obtain ⟨σ8, P8, os8, r8⟩ := C75_no_undefined_behaviour sort fuel P hP (memory τ σ) (fun t => ⟨_, _, hrun t⟩) ts
  have l8 : P8 = fun _ => [] := by
    funext t; rw [sched_leftV sort fuel ts _ _ _ _ _ r8 t]; exact List.drop_eq_nil_of_le (hts t)
  subst l8
  obtain ⟨a8, b8⟩ := C75_each_thread_as_alone sort fuel P _ hP ts _ _ _ r8
  have k8 : ∀ t, printedBy t os8 = osi t ∧ ∀ op ∈ P t, ∀ k ∈ touchesV op, σ8 k = memory τ (σi t) k := by
    intro t
    obtain ⟨d, ρ, e, r, hk⟩ := a8 t
    rw [List.append_nil] at e
    rw [← e, hrun t] at r
    simp only [Res.ok.injEq, Prod.mk.injEq] at r
    obtain ⟨rfl, ho⟩ := r
    exact ⟨ho.symm, hk⟩
  have hex : ∀ k, ∃ cs, (∀ c ∈ cs, c < 2 ^ 31) ∧ σ8 k = Spec.stored (τ k) cs := by
    intro k
    by_cases hk : ∃ t, ∃ op ∈ P t, changesV op = some k
    · obtain ⟨t, op, hop, hc⟩ := hk
      exact ⟨σi t k, (hi t).1 k, (k8 t).2 op hop k (changes_touchesV hc)⟩
    · have hk' : ∀ t, ∀ op ∈ P t, changesV op ≠ some k := fun t op hop hc => hk ⟨t, op, hop, hc⟩
      exact ⟨σ k, hσ k, b8 k hk'⟩
  refine ⟨fun k => (hex k).choose, os8, ?_, fun t => (k8 t).1, ?_, ?_⟩
  · refine Eq.trans r8 ?_; congr 2; funext k; exact (hex k).choose_spec.2
  · intro t op hop k hk
    exact stored_inj (hex k).choose_spec.1 ((hi t).1 k)
      ((hex k).choose_spec.2.symm.trans ((k8 t).2 op hop k hk))
  · intro k hk
    exact stored_inj (hex k).choose_spec.1 (hσ k) ((hex k).choose_spec.2.symm.trans (b8 k hk))

/-- Non-vacuity: three threads read the UTF-8 string 0 whole and through views; each builds its own string, UTF-8 or
utf32ne. -/
def sampleViewThreads : Nat → List VOp
  | 0 => [.normalize .C 1 (.view 0 0 2), .read (.whole 1)]
  | 1 => [.append 2 (.view 0 1 3), .appendCps 2 [0x20AC], .readBack (.view 2 1 3), .equal (.view 2 0 2) (.view 0 1 3)]
  | 2 => [.readGraphemes (.view 0 0 2), .convert 3 (.whole 0), .write 3 0 0x42, .less (.whole 0) (.whole 3)]
  | _ => []

example : (∀ t, t < 3 → permittedRunB insSort sampleKinds (fun k => if k = 0 then [0x65, 0x301, 0x61] else [])
      (sampleViewThreads t) = true) ∧
    (match viewSched insSort 20 [2, 1, 0, 1, 2, 1, 0, 2, 2, 1] sampleViewThreads
        (fun k => Spec.stored (sampleKinds k) (if k = 0 then [0x65, 0x301, 0x61] else [])) with
      | .ok (_, _, os) =>
          decide (os = [(2, .graphemes [[0x65, 0x301]]), (1, .none), (0, .number 1), (1, .none), (2, .none),
            (1, .codepoints [0x20AC, 0x61]), (0, .codepoints [0xE9]), (2, .none), (2, .bool false), (1, .bool true)])
      | _ => false) = true := by decide +kernel

theorem sampleViewThreads_raceFree : RaceFreeV sampleViewThreads := by
  have h : ∀ t u, t < 3 → u < 3 → t ≠ u → ∀ op ∈ sampleViewThreads t, ∀ k, changesV op = some k →
      ∀ op' ∈ sampleViewThreads u, k ∉ touchesV op' := by
    intro t u ht hu hne
    have ht' : t = 0 ∨ t = 1 ∨ t = 2 := by omega
    have hu' : u = 0 ∨ u = 1 ∨ u = 2 := by omega
    rcases ht' with rfl | rfl | rfl <;> rcases hu' with rfl | rfl | rfl <;>
      first | exact absurd rfl hne | simp [sampleViewThreads, changesV, touchesV, Src.string]
  intro t u hne op hop k hk op' hop'
  by_cases ht : t < 3
  · by_cases hu : u < 3
    · exact h t u ht hu hne op hop k hk op' hop'
    · rw [show sampleViewThreads u = [] from by match u, hu with | (m + 3), _ => rfl] at hop'
      simp at hop'
  · rw [show sampleViewThreads t = [] from by match t, ht with | (m + 3), _ => rfl] at hop
    simp at hop

theorem sampleViewThreads_permitted (t : Nat) : (libraryData insSort).PermittedRun sampleKinds
    (fun k => if k = 0 then [0x65, 0x301, 0x61] else []) (sampleViewThreads t) := by
  rw [← C64_permitted_checkable]
  by_cases ht : t < 3
  · have h : t = 0 ∨ t = 1 ∨ t = 2 := by omega
    rcases h with rfl | rfl | rfl <;> decide +kernel
  · rw [show sampleViewThreads t = [] from by match t, ht with | (m + 3), _ => rfl]; rfl

/-- C75 is false with a race through a view: one thread replaces a string while another reads a view of it: the
reader sees the old text, the new one, or the terminator of the string while it is empty. -/
theorem C75_needs_race_freedom :
    let P : Nat → List VOp := fun t =>
      if t = 0 then [.clear 0, .appendCps 0 [0x62, 0x63]] else if t = 1 then [.read (.view 0 0 1)] else []
    let prints := fun ts => (match viewSched insSort 9 ts P (fun _ => .utf32 [0x61]) with
      | .ok (_, _, os) => some (printedBy 1 os) | _ => none)
    ¬ RaceFreeV P ∧ prints [1, 0, 0] = some [.codepoints [0x61]] ∧ prints [0, 0, 1] = some [.codepoints [0x62]] ∧
    prints [0, 1, 0] = some [.codepoints [0]] := by
  refine ⟨?_, by decide +kernel⟩
  intro h
  exact h 0 1 (by decide) (.clear 0) (by simp) 0 rfl (.read (.view 0 0 1)) (by simp) (by simp [touchesV, Src.string])

/-- The theorems applied to the sample threads, for any schedule `ts`. -/
example (fuel : Nat) (ts : List Nat) := C75_each_thread_as_alone insSort fuel sampleViewThreads
  (hP := sampleViewThreads_raceFree) (ts := ts)
  (σ := fun k => Spec.stored (sampleKinds k) (if k = 0 then [0x65, 0x301, 0x61] else []))

example := C75_ideal_under_every_schedule sampleKinds insSort insSort_stable.1 3 sampleViewThreads
  (fun t ht => by match t, ht with | (m + 3), _ => rfl) sampleViewThreads_raceFree
  (fun k => if k = 0 then [0x65, 0x301, 0x61] else [])
  (by
    intro k c hc
    split at hc <;> simp at hc
    rcases hc with rfl | rfl | rfl <;> decide)
  sampleViewThreads_permitted

end U5e
