import Verif.Spec.Accesses
import Verif.Properties.Threads
/-!
# C60 once more: threads switched between any two accesses to memory
-/
namespace U5e
open Spec

section
variable {α : Type} [DecidableEq α] {E : Encoding α} {sort : SortFn} {fuel : Nat}

theorem run_snoc {done : List Op} {op : Op} : ∀ {σ σ1 σ2 : Nat → List α} {os : List Obs} {o : Obs},
    E.run sort fuel σ done = .ok (σ1, os) → E.step sort fuel σ1 op = .ok (σ2, o) →
    E.run sort fuel σ (done ++ [op]) = .ok (σ2, os ++ [o]) := by
  induction done with
  | nil =>
    intro σ σ1 σ2 os o h1 h2
    simp only [Encoding.run, Res.ok.injEq, Prod.mk.injEq] at h1
    obtain ⟨rfl, rfl⟩ := h1
    simp [Encoding.run, h2]
  | cons x done ih =>
    intro σ σ1 σ2 os o h1 h2
    rw [Encoding.run] at h1
    cases hx : E.step sort fuel σ x with
    | ub => rw [hx] at h1; simp at h1
    | tmo => rw [hx] at h1; simp at h1
    | ok r =>
      obtain ⟨τ, ox⟩ := r
      rw [hx, Res.bind_ok] at h1
      simp only at h1
      cases hr : E.run sort fuel τ done with
      | ub => rw [hr] at h1; simp at h1
      | tmo => rw [hr] at h1; simp at h1
      | ok r =>
        obtain ⟨τ', os'⟩ := r
        rw [hr, Res.bind_ok] at h1
        simp only [Res.pure_eq, Res.ok.injEq, Prod.mk.injEq] at h1
        obtain ⟨rfl, rfl⟩ := h1
        rw [List.cons_append, Encoding.run, hx, Res.bind_ok]
        simp only
        rw [ih hr h2, Res.bind_ok]
        rfl

/-- A defined run is defined up to each statement, and there. -/
theorem run_split {done : List Op} {op : Op} {ops : List Op} : ∀ {σ σ1 : Nat → List α} {os : List Obs} {r},
    E.run sort fuel σ (done ++ op :: ops) = .ok r → E.run sort fuel σ done = .ok (σ1, os) →
    ∃ σ2 o, E.step sort fuel σ1 op = .ok (σ2, o) := by
  induction done with
  | nil =>
    intro σ σ1 os r h1 h2
    simp only [Encoding.run, Res.ok.injEq, Prod.mk.injEq] at h2
    obtain ⟨rfl, rfl⟩ := h2
    rw [List.nil_append, Encoding.run] at h1
    cases hx : E.step sort fuel σ op with
    | ub => rw [hx] at h1; simp at h1
    | tmo => rw [hx] at h1; simp at h1
    | ok r => exact ⟨r.1, r.2, rfl⟩
  | cons x done ih =>
    intro σ σ1 os r h1 h2
    rw [List.cons_append, Encoding.run] at h1
    rw [Encoding.run] at h2
    cases hx : E.step sort fuel σ x with
    | ub => rw [hx] at h1; simp at h1
    | tmo => rw [hx] at h1; simp at h1
    | ok q =>
      rw [hx, Res.bind_ok] at h1 h2
      cases hr : E.run sort fuel q.1 done with
      | ub => simp [hr] at h2
      | tmo => simp [hr] at h2
      | ok p =>
        cases hr' : E.run sort fuel q.1 (done ++ op :: ops) with
        | ub => simp [hr'] at h1
        | tmo => simp [hr'] at h1
        | ok p' =>
          simp only [hr, Res.bind_ok, Res.pure_eq, Res.ok.injEq, Prod.mk.injEq] at h2
          obtain ⟨rfl, rfl⟩ := h2
          exact ih (os := p.2) hr' hr

/-- What holds between any two accesses. -/
structure Between (E : Encoding α) (sort : SortFn) (fuel : Nat) (code : Code α) (P : Nat → List Op)
    (σ : Nat → List α) (c : Config α) : Prop where
  thread : ∀ t, ∃ done σt, E.run sort fuel σ done = .ok (σt, printedBy t c.printed) ∧
    match c.running t with
    | none => P t = done ++ c.todo t ∧ ∀ k, (∀ u, u ≠ t → ∀ op ∈ P u, changes op ≠ some k) → c.strings k = σt k
    | some a => ∃ op, P t = done ++ op :: c.todo t ∧ Within (touches op) (changes op) a ∧
        ∃ τ, a.alone τ = (code op).alone σt ∧
          ∀ k, (∀ u, u ≠ t → ∀ op ∈ P u, changes op ≠ some k) → c.strings k = τ k
  others : ∀ k, (∀ t, ∀ op ∈ P t, changes op ≠ some k) → c.strings k = σ k

theorem printedBy_snoc (t u : Nat) (o : Obs) (os : List (Nat × Obs)) :
    printedBy t (os ++ [(u, o)]) = if u = t then printedBy t os ++ [o] else printedBy t os := by
  by_cases h : u = t <;> simp [printedBy, h]

/-- One access of a statement, seen from the local state. -/
theorem once_local {r : List Nat} {w : Option Nat} {a : Access α} (hw : Within r w a) {σ τ : Nat → List α}
    (hag : ∀ k ∈ r, σ k = τ k) :
    Within r w (a.once σ).1 ∧ (∀ k, w ≠ some k → (a.once σ).2 k = σ k) ∧
      ∃ τ', (a.once σ).1.alone τ' = a.alone τ ∧ ∀ k, σ k = τ k → (a.once σ).2 k = τ' k := by
  have hu : ∀ (k j : Nat) (x : List α), (σ j = τ j) → upd σ k x j = upd τ k x j := by
    intro k j x h
    by_cases hj : j = k
    · subst hj; rw [upd_same, upd_same]
    · rw [upd_ne hj, upd_ne hj, h]
  have hc : ∀ (k j : Nat) (x : List α), w = some k → w ≠ some j → upd σ k x j = σ j := by
    intro k j x h1 h2
    exact upd_ne (fun e => h2 (by rw [h1, e]))
  cases a with
  | finished o => exact ⟨trivial, fun _ _ => rfl, τ, rfl, fun _ h => h⟩
  | size k next =>
    refine ⟨hw.2 _, fun _ _ => rfl, τ, ?_, fun _ h => h⟩
    simp only [Access.once, Access.alone, hag k hw.1]
  | load k i next =>
    refine ⟨hw.2 _, fun _ _ => rfl, τ, ?_, fun _ h => h⟩
    simp only [Access.once, Access.alone, hag k hw.1]
  | store k i v next =>
    refine ⟨hw.2.2, fun j hj => hc k j _ hw.1 hj, upd τ k ((τ k).set i v), rfl, fun j hj => ?_⟩
    simp only [Access.once, hag k hw.2.1]; exact hu k j _ hj
  | push k v next =>
    refine ⟨hw.2.2, fun j hj => hc k j _ hw.1 hj, upd τ k (τ k ++ [v]), rfl, fun j hj => ?_⟩
    simp only [Access.once, hag k hw.2.1]; exact hu k j _ hj
  | clear k next =>
    refine ⟨hw.2.2, fun j hj => hc k j _ hw.1 hj, upd τ k [], rfl, fun j hj => ?_⟩
    simp only [Access.once]; exact hu k j _ hj

theorem go_between {code : Code α} (hI : Implements E sort fuel code) {P : Nat → List Op} (hP : RaceFree P)
    {σ : Nat → List α} (hok : ∀ t, ∃ r, E.run sort fuel σ (P t) = .ok r) {c : Config α}
    (B : Between E sort fuel code P σ c) (t : Nat) : Between E sort fuel code P σ (c.go code t) := by
  obtain ⟨done, σt, hrun, hst⟩ := B.thread t
  rw [Config.go]
  cases hr : c.running t with
  | none =>
    rw [hr] at hst
    obtain ⟨hPt, hag⟩ := hst
    cases ht : c.todo t with
    | nil => simpa using B
    | cons op ops =>
      simp only
      refine ⟨fun u => ?_, B.others⟩
      by_cases hu : u = t
      · subst hu
        refine ⟨done, σt, hrun, ?_⟩
        simp only [upd_same]
        exact ⟨op, by rw [hPt, ht], (hI op).1, σt, rfl, hag⟩
      · obtain ⟨d, s, h1, h2⟩ := B.thread u
        refine ⟨d, s, h1, ?_⟩
        simp only [upd_ne hu]
        exact h2
  | some a =>
    rw [hr] at hst
    obtain ⟨op, hPt, hwin, τ, halone, hag⟩ := hst
    have hopP : op ∈ P t := by rw [hPt]; simp
    cases ha : a with
    | finished o =>
      subst ha
      simp only
      obtain ⟨r, hr'⟩ := hok t
      rw [hPt] at hr'
      obtain ⟨σ2, o2, hstep⟩ := run_split hr' hrun
      have := (hI op).2 _ _ _ hstep
      rw [this] at halone
      simp only [Access.alone, Prod.mk.injEq] at halone
      obtain ⟨rfl, rfl⟩ := halone
      refine ⟨fun u => ?_, B.others⟩
      by_cases hu : u = t
      · subst hu
        refine ⟨done ++ [op], τ, ?_, ?_⟩
        · simp only [printedBy_snoc, if_true]
          exact run_snoc hrun hstep
        · simp only [upd_same]
          exact ⟨by rw [hPt]; simp, hag⟩
      · obtain ⟨d, s, h1, h2⟩ := B.thread u
        refine ⟨d, s, ?_, ?_⟩
        · simp only [printedBy_snoc, if_neg (Ne.symm hu)]; exact h1
        · simp only [upd_ne hu]; exact h2
    | _ =>
      all_goals
        simp only
        rw [← ha]
        have hagr : ∀ k ∈ touches op, c.strings k = τ k := fun k hk => hag k fun u hu op' hop' hch =>
          hP u t hu op' hop' k hch op hopP hk
        obtain ⟨w1, w2, τ', w3, w4⟩ := once_local hwin hagr
        refine ⟨fun u => ?_, fun k hk => ?_⟩
        · by_cases hu : u = t
          · subst hu
            refine ⟨done, σt, hrun, ?_⟩
            simp only [upd_same]
            exact ⟨op, hPt, w1, τ', w3.trans halone, fun k hk => w4 k (hag k hk)⟩
          · obtain ⟨d, s, h1, h2⟩ := B.thread u
            refine ⟨d, s, h1, ?_⟩
            have hkeep : ∀ k, (∀ v, v ≠ u → ∀ op ∈ P v, changes op ≠ some k) → (a.once c.strings).2 k = c.strings k :=
              fun k hk => w2 k (hk t (Ne.symm hu) op hopP)
            simp only [upd_ne hu]
            cases hru : c.running u with
            | none =>
              rw [hru] at h2
              exact ⟨h2.1, fun k hk => (hkeep k hk).trans (h2.2 k hk)⟩
            | some b =>
              rw [hru] at h2
              obtain ⟨op', g1, g2, τu, g3, g4⟩ := h2
              exact ⟨op', g1, g2, τu, g3, fun k hk => (hkeep k hk).trans (g4 k hk)⟩
        · show (a.once c.strings).2 k = σ k
          rw [w2 k (hk t op hopP)]; exact B.others k hk

end

/-- C60, at any granularity: whatever accesses to memory the statements consist of, and wherever the schedule switches
threads between them, each of several threads that do not share what they change has printed exactly what it prints when
it runs alone (as far as it got; it may be inside the statement `op`); when it is not inside a statement it sees its
strings exactly as alone; strings nobody changes are unchanged. -/
theorem C60_any_granularity {α : Type} [DecidableEq α] (E : Encoding α) (sort : SortFn) (fuel : Nat) (code : Code α)
    (hI : Implements E sort fuel code) (P : Nat → List Op) (hP : RaceFree P) (σ : Nat → List α)
    (hok : ∀ t, ∃ σt os, E.run sort fuel σ (P t) = .ok (σt, os)) (ts : List Nat) :
    let c := (Config.start P σ).exec code ts
    (∀ t, ∃ done σt, E.run sort fuel σ done = .ok (σt, printedBy t c.printed) ∧
      ((∃ op, P t = done ++ op :: c.todo t ∧ c.running t ≠ none) ∨
       P t = done ++ c.todo t ∧ c.running t = none ∧ ∀ op ∈ P t, ∀ k ∈ touches op, c.strings k = σt k)) ∧
    ∀ k, (∀ t, ∀ op ∈ P t, changes op ≠ some k) → c.strings k = σ k := by
  intro c
  have hB : ∀ (ts : List Nat) (c : Config α), Between E sort fuel code P σ c →
      Between E sort fuel code P σ (c.exec code ts) := by
    intro ts
    induction ts with
    | nil => intro c h; exact h
    | cons t ts ih =>
      intro c h
      exact ih _ (go_between hI hP (fun t => by obtain ⟨a, b, h⟩ := hok t; exact ⟨_, h⟩) h t)
  have B := hB ts (Config.start P σ) ⟨fun t => ⟨[], σ, rfl, rfl, fun _ _ => rfl⟩, fun _ _ => rfl⟩
  refine ⟨fun t => ?_, B.others⟩
  obtain ⟨done, σt, h1, h2⟩ := B.thread t
  refine ⟨done, σt, h1, ?_⟩
  cases hr : c.running t with
  | none =>
    have hr' : ((Config.start P σ).exec code ts).running t = none := hr
    rw [hr'] at h2
    exact .inr ⟨h2.1, rfl, fun op hop k hk => h2.2 k fun u hu op' hop' hch => hP u t hu op' hop' k hch op hop hk⟩
  | some a =>
    have hr' : ((Config.start P σ).exec code ts).running t = some a := hr
    rw [hr'] at h2
    obtain ⟨op, h2, _⟩ := h2
    exact .inl ⟨op, h2, by simp⟩

/-- C60, at any granularity, finished: when every thread has finished, the strings and what each thread printed are
those of a schedule of whole statements. -/
theorem C60_statements_suffice {α : Type} [DecidableEq α] (E : Encoding α) (sort : SortFn) (fuel : Nat) (code : Code α)
    (hI : Implements E sort fuel code) (P : Nat → List Op) (hP : RaceFree P) (σ : Nat → List α)
    (hok : ∀ t, ∃ σt os, E.run sort fuel σ (P t) = .ok (σt, os)) (ts ts' : List Nat)
    (hfin : ∀ t, ((Config.start P σ).exec code ts).running t = none ∧ ((Config.start P σ).exec code ts).todo t = [])
    (σ' : Nat → List α) (os : List (Nat × Obs)) (h' : E.sched sort fuel ts' P σ = .ok (σ', fun _ => [], os)) :
    ((Config.start P σ).exec code ts).strings = σ' ∧
    ∀ t, printedBy t ((Config.start P σ).exec code ts).printed = printedBy t os := by
  obtain ⟨h1, h2⟩ := C60_any_granularity E sort fuel code hI P hP σ hok ts
  obtain ⟨g1, g2⟩ := C60_each_thread_as_alone E sort fuel P _ hP ts' σ σ' os h'
  have key : ∀ t, printedBy t ((Config.start P σ).exec code ts).printed = printedBy t os ∧
      ∀ op ∈ P t, ∀ k ∈ touches op, ((Config.start P σ).exec code ts).strings k = σ' k := by
    intro t
    obtain ⟨done, σt, r1, hc⟩ := h1 t
    rcases hc with ⟨_, _, hne⟩ | ⟨e1, _, k1⟩
    · exact absurd (hfin t).1 hne
    obtain ⟨d', τt, e2, r2, k2⟩ := g1 t
    rw [(hfin t).2, List.append_nil] at e1
    rw [List.append_nil] at e2
    rw [← e1] at r1
    rw [← e2] at r2
    rw [r1] at r2
    simp only [Res.ok.injEq, Prod.mk.injEq] at r2
    exact ⟨r2.2, fun op hop k hk => by rw [k1 op hop k hk, k2 op hop k hk, r2.1]⟩
  refine ⟨funext fun k => ?_, fun t => (key t).1⟩
  by_cases hk : ∃ t, ∃ op ∈ P t, k ∈ touches op
  · obtain ⟨t, op, hop, hk⟩ := hk
    exact (key t).2 op hop k hk
  · have hn : ∀ t, ∀ op ∈ P t, changes op ≠ some k := fun t op hop h => hk ⟨t, op, hop, changes_touches h⟩
    rw [h2 k hn, g2 k hn]

/-! ### There are such implementations -/

/-- Read elements `i`, `i + 1`, … of string `k`, `n` of them, then go on with what was found. -/
def loadFrom (k : Nat) : Nat → Nat → List α → (List α → Access α) → Access α
  | 0, _, acc, next => next acc
  | n + 1, i, acc, next => .load k i fun x => loadFrom k n (i + 1) (acc ++ x.toList) next

/-- Read all of the given strings. -/
def loadAll : List Nat → (Nat → List α) → ((Nat → List α) → Access α) → Access α
  | [], m, next => next m
  | k :: ks, m, next => .size k fun n => loadFrom k n 0 [] fun x => loadAll ks (upd m k x) next

/-- Append the elements to string `d`. -/
def pushAll (d : Nat) : List α → Access α → Access α
  | [], next => next
  | v :: vs, next => .push d v (pushAll d vs next)

/-- One way to execute every statement: read what it touches, element by element, and write what it changes, element by
element. -/
def copyingCode {α : Type} [DecidableEq α] (E : Encoding α) (sort : SortFn) (fuel : Nat) : Code α := fun op =>
  loadAll (touches op) (fun _ => []) fun m =>
    match E.step sort fuel m op with
    | .ok (m', o) =>
      match changes op with
      | some d => .clear d (pushAll d (m' d) (.finished o))
      | none => .finished o
    | _ => .finished .none

theorem loadFrom_alone {α : Type} (k : Nat) (next : List α → Access α) (σ : Nat → List α) (n : Nat) : ∀ (i : Nat)
    (acc : List α), (loadFrom k n i acc next).alone σ = (next (acc ++ ((σ k).drop i).take n)).alone σ := by
  induction n with
  | zero => intro i acc; simp [loadFrom]
  | succ n ih =>
    intro i acc
    rw [loadFrom, Access.alone, ih]
    congr 2
    rw [List.append_assoc]
    congr 1
    by_cases hi : i < (σ k).length
    · rw [List.getElem?_eq_getElem hi, List.drop_eq_getElem_cons hi, List.take_succ_cons]; rfl
    · rw [List.getElem?_eq_none (by omega), List.drop_of_length_le (by omega), List.drop_of_length_le (by omega)]
      simp

theorem loadAll_alone {α : Type} (next : (Nat → List α) → Access α) (σ : Nat → List α) (ks : List Nat) :
    ∀ m : Nat → List α, (loadAll ks m next).alone σ = (next fun j => if j ∈ ks then σ j else m j).alone σ := by
  induction ks with
  | nil => intro m; simp [loadAll]
  | cons k ks ih =>
    intro m
    rw [loadAll, Access.alone, loadFrom_alone, ih]
    simp only [List.nil_append, List.drop_zero, List.take_length]
    congr 2
    funext j
    by_cases h1 : j ∈ ks
    · simp [h1]
    · by_cases h2 : j = k
      · subst h2; simp [h1, upd_same]
      · simp [h1, h2, upd_ne]

theorem pushAll_alone {α : Type} (d : Nat) (next : Access α) (vs : List α) : ∀ σ : Nat → List α,
    (pushAll d vs next).alone σ = next.alone (upd σ d (σ d ++ vs)) := by
  induction vs with
  | nil =>
    intro σ
    have : upd σ d (σ d ++ []) = σ := by
      funext k
      by_cases h : k = d
      · subst h; rw [upd_same, List.append_nil]
      · rw [upd_ne h]
    rw [pushAll, this]
  | cons v vs ih =>
    intro σ
    rw [pushAll, Access.alone, ih]
    congr 1
    funext k
    by_cases h : k = d
    · subst h; simp [upd_same]
    · simp [upd_ne h]

theorem loadFrom_within {α : Type} {r : List Nat} {w : Option Nat} {k : Nat} (hk : k ∈ r) {next : List α → Access α}
    (h : ∀ x, Within r w (next x)) (n : Nat) : ∀ i acc, Within r w (loadFrom k n i acc next) := by
  induction n with
  | zero => intro i acc; exact h _
  | succ n ih => intro i acc; exact ⟨hk, fun x => ih _ _⟩

theorem loadAll_within {α : Type} {r : List Nat} {w : Option Nat} {next : (Nat → List α) → Access α}
    (h : ∀ m, Within r w (next m)) (ks : List Nat) (hks : ∀ k ∈ ks, k ∈ r) : ∀ m, Within r w (loadAll ks m next) := by
  induction ks with
  | nil => intro m; exact h m
  | cons k ks ih =>
    intro m
    exact ⟨hks k (by simp), fun n => loadFrom_within (hks k (by simp))
      (fun x => ih (fun j hj => hks j (by simp [hj])) _) n 0 []⟩

theorem pushAll_within {α : Type} {r : List Nat} {d : Nat} (hd : d ∈ r) {next : Access α}
    (h : Within r (some d) next) (vs : List α) : Within r (some d) (pushAll d vs next) := by
  induction vs with
  | nil => exact h
  | cons v vs ih => exact ⟨rfl, hd, ih⟩

/-- For every encoding and sort there is an implementation by single accesses. -/
theorem C60_implementation_exists {α : Type} [DecidableEq α] (E : Encoding α) (sort : SortFn) (fuel : Nat) :
    Implements E sort fuel (copyingCode E sort fuel) := by
  intro op
  constructor
  · refine loadAll_within (fun m => ?_) _ (fun k hk => hk) _
    split
    · cases hd : changes op with
      | none => trivial
      | some d =>
        exact ⟨rfl, changes_touches hd, pushAll_within (next := .finished _) (changes_touches hd) True.intro _⟩
    · trivial
  · intro σ σ' o h
    rw [copyingCode, loadAll_alone]
    have hag : ∀ k ∈ touches op, σ k = (fun j => if j ∈ touches op then σ j else []) k := by
      intro k hk; simp [hk]
    have hs := step_frame E sort fuel hag h
    rw [hs]
    simp only
    have hself := step_self E sort fuel h
    cases hd : changes op with
    | none =>
      rw [patch_none hd] at hself
      rw [hself]; rfl
    | some d =>
      simp only [patch_some hd, upd_same, Access.alone, pushAll_alone, List.nil_append]
      rw [patch_some hd] at hself
      congr 1
      funext k
      by_cases hk : k = d
      · subst hk; rw [upd_same]
      · rw [upd_ne hk, upd_ne hk, hself, upd_ne hk]

/-- The sample threads all run alone to their end. -/
theorem sampleThreads_run (t : Nat) : ∃ σt os, enc8.run insSort 20
    (fun k => encodeText (if k = 0 then [0x65, 0x301] else [])) (sampleThreads t) = .ok (σt, os) := by
  have key : ∀ t, t < 3 → (match enc8.run insSort 20
      (fun k => encodeText (if k = 0 then [0x65, 0x301] else [])) (sampleThreads t) with
      | .ok _ => true | _ => false) = true := by
    intro t ht
    have h : t = 0 ∨ t = 1 ∨ t = 2 := by omega
    rcases h with rfl | rfl | rfl <;> decide +kernel
  by_cases ht : t < 3
  · have := key t ht
    split at this
    · next r h => exact ⟨r.1, r.2, h⟩
    · cases this
  · rw [show sampleThreads t = [] from by match t, ht with | (m + 3), _ => rfl]; exact ⟨_, _, rfl⟩

/-- Instance: the sample threads, under any schedule of accesses. -/
example (ts : List Nat) := C60_any_granularity enc8 insSort 20 _ (C60_implementation_exists enc8 insSort 20)
  sampleThreads sampleThreads_raceFree (fun k => encodeText (if k = 0 then [0x65, 0x301] else [])) sampleThreads_run ts

example (ts ts' : List Nat) := C60_statements_suffice enc8 insSort 20 _ (C60_implementation_exists enc8 insSort 20)
  sampleThreads sampleThreads_raceFree (fun k => encodeText (if k = 0 then [0x65, 0x301] else [])) sampleThreads_run ts ts'

/-- A schedule that switches after every access: after 30 of them some thread is inside a statement, after 300 all
have finished, with the strings of the schedule of whole statements in Properties/Threads.lean. -/
example :
    let go (n : Nat) := (Config.start sampleThreads (fun k => encodeText (if k = 0 then [0x65, 0x301] else []))).exec
      (copyingCode enc8 insSort 20) ((List.range n).map (· % 3))
    (∃ t < 3, ((go 30).running t).isSome = true) ∧
    (∀ t < 3, ((go 300).running t).isNone = true ∧ (go 300).todo t = []) ∧
    (go 300).strings 1 = encodeText [0xE9] ∧ (go 300).strings 2 = encodeText [0x65, 0x20AC] ∧
    printedBy 1 (go 300).printed = [.none, .none, .codepoints [0x20AC, 0x65], .bool false] := by decide +kernel

end U5e
