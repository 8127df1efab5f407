import Verif.Spec.HeldThrow
import Verif.Properties.HeldViews
import Verif.Properties.ViewThrow
/-!
# C79: programs that catch exceptions and go on
-/
namespace U5e
open Spec

variable {τ : Nat → Spec.Kind} {w : HeldWorld} {M : HeldMachine}

/-- A statement does to the strings what the statement of Model/ViewThrow.lean does that has the sources put in. -/
theorem HeldRel.stepX_eq (r : HeldRel τ w M) {U : Ucd} {op : HeldOp} {op' : VOp} (h : w.plain op = some op')
    (hp : U.Permitted τ w.strings op') (sort : SortFn) (fuel k : Nat) :
    M.stepX sort fuel k op = viewStepX sort fuel M.strings k op' := by
  have hst := r.step_eq h hp sort fuel
  cases op with
  | appendCps d v => obtain rfl := Option.some.inj h; rfl
  | convert d pl =>
    obtain ⟨src, hs, rfl⟩ := Option.map_eq_some_iff.mp h
    obtain ⟨p, q, h1, h2⟩ := r.opened_eq hs hp.2.1
    simp only [HeldMachine.stepX, viewStepX, h1, h2, Res.bind_ok]
    rfl
  | normalize F d pl =>
    obtain ⟨src, hs, rfl⟩ := Option.map_eq_some_iff.mp h
    obtain ⟨p, q, h1, h2⟩ := r.opened_eq hs hp.2.1
    simp only [HeldMachine.stepX, viewStepX, h1, h2, Res.bind_ok]
    rfl
  | copy d s => obtain rfl := Option.some.inj h; simp only [HeldMachine.stepX, viewStepX, hst]
  | clear d => obtain rfl := Option.some.inj h; simp only [HeldMachine.stepX, viewStepX, hst]
  | write s i c => obtain rfl := Option.some.inj h; simp only [HeldMachine.stepX, viewStepX, hst]
  | transform s f => obtain rfl := Option.some.inj h; simp only [HeldMachine.stepX, viewStepX, hst]
  | append d pl =>
    obtain ⟨src, hs, rfl⟩ := Option.map_eq_some_iff.mp h; simp only [HeldMachine.stepX, viewStepX, hst]
  | appendGraphemes d pl i j =>
    obtain ⟨src, hs, rfl⟩ := Option.map_eq_some_iff.mp h; simp only [HeldMachine.stepX, viewStepX, hst]
  | read pl =>
    obtain ⟨src, hs, rfl⟩ := Option.map_eq_some_iff.mp h; simp only [HeldMachine.stepX, viewStepX, hst]
  | readBack pl =>
    obtain ⟨src, hs, rfl⟩ := Option.map_eq_some_iff.mp h; simp only [HeldMachine.stepX, viewStepX, hst]
  | readGraphemes pl =>
    obtain ⟨src, hs, rfl⟩ := Option.map_eq_some_iff.mp h; simp only [HeldMachine.stepX, viewStepX, hst]
  | countIf pl f =>
    obtain ⟨src, hs, rfl⟩ := Option.map_eq_some_iff.mp h; simp only [HeldMachine.stepX, viewStepX, hst]
  | equal a b =>
    simp only [HeldWorld.plain] at h
    split at h
    · obtain rfl := Option.some.inj h; simp only [HeldMachine.stepX, viewStepX, hst]
    · cases h
  | less a b =>
    simp only [HeldWorld.plain] at h
    split at h
    · obtain rfl := Option.some.inj h; simp only [HeldMachine.stepX, viewStepX, hst]
    · cases h

theorem HeldMachine.after_some {op : HeldOp} {d : Nat} (h : storesIn op = some d) (σ : Nat → Text) :
    M.after op σ = { M with strings := σ, gen := upd M.gen d (M.gen d + 1) } := by
  rw [HeldMachine.after, invalidates_held, h]

theorem HeldMachine.after_none {op : HeldOp} (h : storesIn op = none) (σ : Nat → Text) :
    M.after op σ = { M with strings := σ } := by
  rw [HeldMachine.after, invalidates_held, h]

theorem small_put {σ : Nat → List Nat} (h : Small σ) (d : Nat) {cs : List Nat} (hc : ∀ c ∈ cs, c < 2 ^ 31) :
    Small (Spec.put σ d (σ d ++ cs)) := by
  intro s c hm
  by_cases e : s = d
  · subst e
    simp only [Spec.put, if_true, List.mem_append] at hm
    exact hm.elim (h _ c) (hc c)
  · simp only [Spec.put, e, if_false] at hm; exact h s c hm

/-- An interrupted statement stores into a string, changes no other, and leaves codepoints below 2^31. -/
theorem interrupted_frame {sort : SortFn} {op : HeldOp} {op' : VOp} (hσ : Small w.strings) (h : w.plain op = some op')
    (hp : (libraryData sort).Permitted τ w.strings op') {k : Nat} {σ : Nat → List Nat}
    (hi : (libraryData sort).InterruptedV τ w.strings op' k σ) :
    ∃ d, storesIn op = some d ∧ Small σ ∧ ∀ s, s ≠ d → σ s = w.strings s := by
  have hput : ∀ (d : Nat) (cs : List Nat) s, s ≠ d → Spec.put w.strings d cs s = w.strings s := by
    intro d cs s hs; simp [Spec.put, hs]
  cases op with
  | copy d s => obtain rfl := Option.some.inj h; obtain ⟨_, rfl⟩ := hi; exact ⟨d, rfl, hσ, fun _ _ => rfl⟩
  | append d pl =>
    obtain ⟨src, hs, rfl⟩ := Option.map_eq_some_iff.mp h; obtain ⟨_, rfl⟩ := hi; exact ⟨d, rfl, hσ, fun _ _ => rfl⟩
  | appendGraphemes d pl i j =>
    obtain ⟨src, hs, rfl⟩ := Option.map_eq_some_iff.mp h; obtain ⟨_, rfl⟩ := hi; exact ⟨d, rfl, hσ, fun _ _ => rfl⟩
  | appendCps d v =>
    obtain rfl := Option.some.inj h
    obtain ⟨cs, rfl, _, rfl⟩ := hi
    obtain ⟨cs', he, hh⟩ := hp
    obtain rfl := ints_injective he
    exact ⟨d, rfl, small_put hσ d fun c hc => holds_lt (hh c (List.mem_of_mem_take hc)), hput d _⟩
  | convert d pl =>
    obtain ⟨src, hs, rfl⟩ := Option.map_eq_some_iff.mp h
    obtain ⟨_, rfl⟩ := hi
    exact ⟨d, rfl, small_put hσ d fun c hc => holds_lt (hp.2.2 c (List.mem_of_mem_take hc)), hput d _⟩
  | normalize F d pl =>
    obtain ⟨src, hs, rfl⟩ := Option.map_eq_some_iff.mp h
    obtain ⟨p, g, q, hg, _, _, rfl⟩ := hi
    have hh := hp.2.2.2.2 _ hg
    have hn : ∀ g', g' ∈ p ++ g :: q → ∀ c ∈ (libraryData sort).normalForm F g', c < 2 ^ 31 := by
      intro g' hg' c hc
      obtain ⟨x, hx, rfl⟩ := List.mem_map.mp hc
      obtain ⟨n, rfl, hn⟩ := hh g' hg' x hx
      exact holds_lt hn
    refine ⟨d, rfl, ?_, hput d _⟩
    rw [List.append_assoc]
    refine small_put hσ d fun c hc => ?_
    rcases List.mem_append.mp hc with hc | hc
    · obtain ⟨g', hg', hc⟩ := List.mem_flatMap.mp hc
      exact hn g' (List.mem_append_left _ hg') c hc
    · exact hn g (by simp) c (List.mem_of_mem_take hc)
  | clear d => obtain rfl := Option.some.inj h; exact hi.elim
  | write s i c => obtain rfl := Option.some.inj h; exact hi.elim
  | transform s f => obtain rfl := Option.some.inj h; exact hi.elim
  | read pl => obtain ⟨src, hs, rfl⟩ := Option.map_eq_some_iff.mp h; exact hi.elim
  | readBack pl => obtain ⟨src, hs, rfl⟩ := Option.map_eq_some_iff.mp h; exact hi.elim
  | readGraphemes pl => obtain ⟨src, hs, rfl⟩ := Option.map_eq_some_iff.mp h; exact hi.elim
  | countIf pl f => obtain ⟨src, hs, rfl⟩ := Option.map_eq_some_iff.mp h; exact hi.elim
  | equal a b =>
    simp only [HeldWorld.plain] at h
    split at h
    · obtain rfl := Option.some.inj h; exact hi.elim
    · cases h
  | less a b =>
    simp only [HeldWorld.plain] at h
    split at h
    · obtain rfl := Option.some.inj h; exact hi.elim
    · cases h

theorem formCalls_append (U : Ucd) (A : Appending) (F : Form) (a b : List (List Nat)) :
    U.formCalls A F (a ++ b) = U.formCalls A F a + U.formCalls A F b := by
  simp [Ucd.formCalls]

/-- The point at which a normalization is interrupted is determined. -/
theorem interrupted_split (U : Ucd) (A : Appending) (F : Form) (r : Nat) {p q p' q' : List (List Nat)} {g g' : List Nat}
    (e : p ++ g :: q = p' ++ g' :: q') (h1 : U.formCalls A F p ≤ r) (h2 : r < U.formCalls A F (p ++ [g]))
    (h1' : U.formCalls A F p' ≤ r) (h2' : r < U.formCalls A F (p' ++ [g'])) : p = p' ∧ g = g' := by
  have key : ∀ {p q p' q' : List (List Nat)} {g g' : List Nat}, p ++ g :: q = p' ++ g' :: q' →
      r < U.formCalls A F (p ++ [g]) → U.formCalls A F p' ≤ r → p'.length ≤ p.length := by
    intro p q p' q' g g' e h2 h1'
    refine Nat.le_of_not_lt fun hlt => ?_
    rcases List.append_eq_append_iff.mp e with ⟨t, ht, hg⟩ | ⟨t, ht, hg⟩
    · cases t with
      | nil => subst ht; simp at hlt
      | cons x t =>
        simp only [List.cons_append, List.cons.injEq] at hg
        obtain ⟨rfl, _⟩ := hg
        subst ht
        rw [List.append_cons p g t, formCalls_append] at h1'
        omega
    · subst ht; simp at hlt; omega
  have hlen : p.length = p'.length := Nat.le_antisymm (key e.symm h2' h1) (key e h2 h1')
  obtain ⟨rfl, h⟩ := List.append_inj e hlen
  exact ⟨rfl, (List.cons.inj h).1⟩

theorem interruptedV_unique {sort : SortFn} {σ : Nat → List Nat} {op : VOp} {k : Nat} {σ1 σ2 : Nat → List Nat}
    (h1 : (libraryData sort).InterruptedV τ σ op k σ1) (h2 : (libraryData sort).InterruptedV τ σ op k σ2) : σ1 = σ2 := by
  cases op with
  | copy d s => exact h1.2.trans h2.2.symm
  | append d src => exact h1.2.trans h2.2.symm
  | appendGraphemes d src i j => exact h1.2.trans h2.2.symm
  | appendCps d v =>
    obtain ⟨cs, e, _, rfl⟩ := h1
    obtain ⟨cs', e', _, rfl⟩ := h2
    obtain rfl := ints_injective (e.symm.trans e')
    rfl
  | convert d src => exact h1.2.trans h2.2.symm
  | normalize F d src =>
    obtain ⟨p, g, q, hg, a1, a2, rfl⟩ := h1
    obtain ⟨p', g', q', hg', a1', a2', rfl⟩ := h2
    rw [graphemesOf_spec] at hg hg'
    obtain ⟨rfl, rfl⟩ := interrupted_split _ _ _ k (hg.trans hg'.symm) a1 a2 a1' a2'
    rfl
  | clear d => exact h1.elim
  | write s i c => exact h1.elim
  | transform s f => exact h1.elim
  | read src => exact h1.elim
  | readBack src => exact h1.elim
  | readGraphemes src => exact h1.elim
  | equal a b => exact h1.elim
  | less a b => exact h1.elim
  | countIf src f => exact h1.elim

theorem needsV_unique {sort : SortFn} {σ : Nat → List Nat} {op : VOp} {n m : Nat}
    (h1 : (libraryData sort).NeedsV τ σ op n) (h2 : (libraryData sort).NeedsV τ σ op m) : n = m := by
  cases op with
  | appendCps d v =>
    obtain ⟨cs, e, rfl⟩ := h1
    obtain ⟨cs', e', rfl⟩ := h2
    obtain rfl := ints_injective (e.symm.trans e')
    rfl
  | normalize F d src =>
    obtain ⟨gs, hg, rfl⟩ := h1
    obtain ⟨gs', hg', rfl⟩ := h2
    rw [graphemesOf_spec] at hg hg'
    rw [hg, hg']
  | copy | clear | append | convert | appendGraphemes | write | transform | read | readBack | readGraphemes | equal | less
  | countIf => exact Eq.trans h1 (Eq.symm h2)

/-- A statement is only interrupted if it needs more calls. -/
theorem interruptedV_needs {sort : SortFn} {σ : Nat → List Nat} {op : VOp} {k n : Nat} {σ1 : Nat → List Nat}
    (h1 : (libraryData sort).InterruptedV τ σ op k σ1) (h2 : (libraryData sort).NeedsV τ σ op n) : k < n := by
  cases op with
  | copy d s => obtain ⟨rfl, _⟩ := h1; obtain rfl : n = 1 := h2; exact Nat.one_pos
  | append d src => obtain ⟨rfl, _⟩ := h1; obtain rfl : n = 1 := h2; exact Nat.one_pos
  | appendGraphemes d src i j => obtain ⟨rfl, _⟩ := h1; obtain rfl : n = 1 := h2; exact Nat.one_pos
  | appendCps d v =>
    obtain ⟨cs, e, h, _⟩ := h1
    obtain ⟨cs', e', rfl⟩ := h2
    obtain rfl := ints_injective (e.symm.trans e')
    exact h
  | convert d src => obtain ⟨h, _⟩ := h1; rw [show n = _ from h2]; exact h
  | normalize F d src =>
    obtain ⟨p, g, q, hg, _, h, _⟩ := h1
    obtain ⟨gs, hgs, rfl⟩ := h2
    rw [graphemesOf_spec] at hg hgs
    rw [hgs, ← hg, List.append_cons, formCalls_append]
    omega
  | clear d => exact h1.elim
  | write s i c => exact h1.elim
  | transform s f => exact h1.elim
  | read src => exact h1.elim
  | readBack src => exact h1.elim
  | readGraphemes src => exact h1.elim
  | equal a b => exact h1.elim
  | less a b => exact h1.elim
  | countIf src f => exact h1.elim

/-- What a statement does is determined. -/
theorem does_catch_unique {sort : SortFn} {st : HeldStmt} {k : Nat} {w1 w2 : HeldWorld} {o1 o2 : Option Obs}
    (h1 : (libraryData sort).DoesCatch τ w st k w1 o1) (h2 : (libraryData sort).DoesCatch τ w st k w2 o2) :
    w1 = w2 ∧ o1 = o2 := by
  rcases h1 with ⟨a, rfl, hd, hn⟩ | ⟨op, op', σ, rfl, hpl, hi, rfl, rfl⟩
  · rcases h2 with ⟨b, rfl, hd', hn'⟩ | ⟨op, op', σ, rfl, hpl, hi, rfl, rfl⟩
    · obtain ⟨rfl, rfl⟩ := does_held_unique sort w st hd hd'
      exact ⟨rfl, rfl⟩
    · obtain ⟨n, h3, h4⟩ := hn op op' rfl hpl
      exact absurd (interruptedV_needs hi h3) (by omega)
  · rcases h2 with ⟨b, rfl, hd', hn'⟩ | ⟨op2, op2', σ2, e, hpl', hi', rfl, rfl⟩
    · obtain ⟨n, h3, h4⟩ := hn' op op' rfl hpl
      exact absurd (interruptedV_needs hi h3) (by omega)
    · obtain rfl := HeldStmt.op.inj e
      obtain rfl : op' = op2' := Option.some.inj (hpl.symm.trans hpl')
      obtain rfl := interruptedV_unique hi hi'
      exact ⟨rfl, rfl⟩

/-- One allowed statement inside `try`. -/
theorem execX_held (r : HeldRel τ w M) {sort : SortFn} (hs : ConformingSort sort) (st : HeldStmt)
    (ha : (libraryData sort).MayHeld τ w st) (k : Nat) :
    ∃ w1 o M1 N, (libraryData sort).DoesCatch τ w st k w1 o ∧ HeldRel τ w1 M1 ∧
      ∀ fuel, N ≤ fuel → M.execX sort fuel k st = .ok (M1, o) := by
  have simple : (∀ op, st ≠ .op op) → (∀ fuel, M.execX sort fuel k st = (M.exec sort fuel st >>= fun r => .ok (r.1, some r.2))) →
      ∃ w1 o M1 N, (libraryData sort).DoesCatch τ w st k w1 o ∧ HeldRel τ w1 M1 ∧
        ∀ fuel, N ≤ fuel → M.execX sort fuel k st = .ok (M1, o) := by
    intro hno heq
    obtain ⟨w1, o, hd⟩ := does_held_exists sort w st ha
    obtain ⟨M1, N, r1, hN⟩ := exec_held r hs st ha w1 o hd
    refine ⟨w1, some o, M1, N, .inl ⟨o, rfl, hd, fun op _ e => absurd e (hno op)⟩, r1, fun fuel hf => ?_⟩
    rw [heq, hN fuel hf]; rfl
  cases st with
  | op op =>
    obtain ⟨w1, o, op', σ, hpl, hid, rfl⟩ := does_held_exists sort w _ ha
    obtain ⟨⟨op2, hp2, hperm⟩, _⟩ := ha
    obtain rfl : op' = op2 := Option.some.inj (hpl.symm.trans hp2)
    obtain ⟨N, K, hK, hN⟩ := viewStepX_refines τ hs w.strings r.small op' hperm σ o hid
    obtain ⟨hsm, _⟩ := viewStep_refines τ hs w.strings r.small op' hperm σ o hid
    have hfr := plain_frame hpl hperm hid
    rcases Nat.lt_or_ge k K with hk | hk
    · obtain ⟨σ', hint, _⟩ := (hN N (Nat.le_refl _) k).2 hk
      obtain ⟨d, hst, hsm', hfr'⟩ := interrupted_frame r.small hpl hperm hint
      refine ⟨_, none, M.after op (memory τ σ'), N, .inr ⟨op, op', σ', rfl, hpl, hint, rfl, rfl⟩, ?_, fun fuel hf => ?_⟩
      · rw [hst, HeldMachine.after_some hst]; exact r.store hsm' d hfr'
      · obtain ⟨σ2, h2, h3⟩ := (hN fuel hf k).2 hk
        obtain rfl := interruptedV_unique hint h2
        simp only [HeldMachine.execX, r.stepX_eq hpl hperm, r.strings, h3, Res.bind_ok, Res.pure_eq]
    · refine ⟨_, some o, M.after op (memory τ σ), N, .inl ⟨o, rfl, ⟨op', σ, hpl, hid, rfl⟩, ?_⟩, ?_, fun fuel hf => ?_⟩
      · intro op1 op1' e h1
        obtain rfl := (HeldStmt.op.inj e)
        obtain rfl : op' = op1' := Option.some.inj (hpl.symm.trans h1)
        exact ⟨K, hK, hk⟩
      · cases hst : storesIn op with
        | some d => rw [hst] at hfr; rw [HeldMachine.after_some hst]; exact r.store hsm d hfr
        | none => rw [hst] at hfr; rw [HeldMachine.after_none hst]; exact r.keep hsm hfr
      · simp only [HeldMachine.execX, r.stepX_eq hpl hperm, r.strings, (hN fuel hf k).1 hk, Res.bind_ok, Res.pure_eq]
  | _ => exact simple (fun _ e => by cases e) (fun _ => rfl)

theorem run_catch {sort : SortFn} (hs : ConformingSort sort) (client : CatchClient) (calls : Nat → Nat) (n : Nat) :
    ∀ (w : HeldWorld) (M : HeldMachine) (os : List (Option Obs)), HeldRel τ w M →
    (libraryData sort).MayRunCatch τ client calls n w os →
    ∃ w' M' os' N, (libraryData sort).RunsCatch τ client calls n w os w' os' ∧ HeldRel τ w' M' ∧
      ∀ fuel, N ≤ fuel → HeldMachine.runX sort fuel client calls n M os = .ok (M', os') := by
  induction n with
  | zero => intro w M os r _; exact ⟨w, M, os, 0, .limit w os, r, fun _ _ => rfl⟩
  | succ n ih =>
    intro w M os r ha
    cases hc : client os with
    | none => exact ⟨w, M, os, 0, .finished n w os hc, r, fun _ _ => by simp only [HeldMachine.runX, hc]⟩
    | some st =>
      obtain ⟨hm, hrest⟩ := ha st hc
      obtain ⟨w1, o, M1, N, hd, r1, hN⟩ := execX_held r hs st hm (calls os.length)
      obtain ⟨w2, M2, os2, N2, hrun, r2, hN2⟩ := ih w1 M1 (os ++ [o]) r1 (hrest w1 o hd)
      refine ⟨w2, M2, os2, max N N2, .step n w os st w1 o w2 os2 hc hd hrun, r2, fun fuel hf => ?_⟩
      simp only [HeldMachine.runX, hc, hN fuel (by omega), Res.bind_ok, hN2 fuel (by omega)]

/-- C79. Any program as in C78 that catches the exceptions its statements throw and goes on, the next statement depending
on what was printed and what threw so far, whichever calls fail (`calls i` calls succeed in statement number `i`): as
long as its statements are allowed where it gets to them, its first `n` statements have no undefined behaviour, print and
throw what they should, and leave in every string the encoding of what it should hold. A statement that throws has
changed only the string it appends to, which has got a prefix of the codepoints to be appended; all views and iterators
of other strings stay valid. -/
theorem C79_programs (τ : Nat → Spec.Kind) (sort : SortFn) (hs : ConformingSort sort) (client : CatchClient)
    (calls : Nat → Nat) (n : Nat) (σ : Nat → List Nat) (hσ : ∀ k, ∀ c ∈ σ k, c < 2 ^ 31)
    (ha : (libraryData sort).MayRunCatch τ client calls n (HeldWorld.start σ) []) :
    ∃ w os N, (libraryData sort).RunsCatch τ client calls n (HeldWorld.start σ) [] w os ∧ ∀ fuel, N ≤ fuel → ∃ M,
      HeldMachine.runX sort fuel client calls n (HeldMachine.start fun s => Spec.stored (τ s) (σ s)) [] = .ok (M, os) ∧
      M.strings = fun s => Spec.stored (τ s) (w.strings s) := by
  obtain ⟨w, M, os, N, h1, r, h2⟩ := run_catch hs client calls n _ _ [] (held_start τ σ hσ) ha
  exact ⟨w, os, N, h1, fun fuel hf => ⟨M, h2 fuel hf, r.strings⟩⟩

/-- C79: the ideal run is determined by the program, the calls that fail, and the initial texts. -/
theorem C79_deterministic (τ : Nat → Spec.Kind) (sort : SortFn) (client : CatchClient) (calls : Nat → Nat) (n : Nat)
    (w w1 w2 : HeldWorld) (os os1 os2 : List (Option Obs))
    (h1 : (libraryData sort).RunsCatch τ client calls n w os w1 os1)
    (h2 : (libraryData sort).RunsCatch τ client calls n w os w2 os2) : w1 = w2 ∧ os1 = os2 := by
  induction h1 with
  | limit w os => cases h2; exact ⟨rfl, rfl⟩
  | finished n w os hc =>
    cases h2 with
    | finished _ _ _ _ => exact ⟨rfl, rfl⟩
    | step _ _ _ st _ _ _ _ hc' _ _ => rw [hc] at hc'; cases hc'
  | step n w os st w1 o w' os' hc hd _ ih =>
    cases h2 with
    | finished _ _ _ hc' => rw [hc] at hc'; cases hc'
    | step _ _ _ st' v1 o' _ _ hc' hd' hrest =>
      obtain rfl := Option.some.inj (hc.symm.trans hc')
      obtain ⟨rfl, rfl⟩ := does_catch_unique hd hd'
      exact ih hrest

/-- What normalizing graphemes has appended when `r` calls succeed. -/
def stopAt (U : Ucd) (A : Appending) (F : Form) : List (List Nat) → Nat → List Nat
  | [], _ => []
  | g :: gs, r =>
    if r < g.length + A.calls (U.normalForm F g) then (U.normalForm F g).take (A.written (r - g.length))
    else U.normalForm F g ++ stopAt U A F gs (r - (g.length + A.calls (U.normalForm F g)))

theorem stopAt_spec (U : Ucd) (A : Appending) (F : Form) (gs : List (List Nat)) (r : Nat) (h : r < U.formCalls A F gs) :
    ∃ p g q, gs = p ++ g :: q ∧ U.formCalls A F p ≤ r ∧ r < U.formCalls A F (p ++ [g]) ∧
      stopAt U A F gs r = p.flatMap (U.normalForm F) ++
        (U.normalForm F g).take (A.written (r - U.formCalls A F p - g.length)) := by
  induction gs generalizing r with
  | nil => simp [Ucd.formCalls] at h
  | cons g gs ih =>
    have hone : U.formCalls A F [g] = g.length + A.calls (U.normalForm F g) := by simp [Ucd.formCalls]
    have hnil : U.formCalls A F [] = 0 := rfl
    have hc : ∀ l, U.formCalls A F (g :: l) = g.length + A.calls (U.normalForm F g) + U.formCalls A F l := fun l => by
      rw [← List.singleton_append, formCalls_append, hone]
    rw [hc] at h
    simp only [stopAt]
    split
    · rename_i hr
      exact ⟨[], g, gs, rfl, Nat.zero_le _, by rw [List.nil_append, hone]; exact hr, by simp [hnil]⟩
    · rename_i hr
      obtain ⟨p, g', q, rfl, h1, h2, h3⟩ := ih (r - (g.length + A.calls (U.normalForm F g))) (by omega)
      refine ⟨g :: p, g', q, rfl, by rw [hc]; omega, by rw [List.cons_append, hc]; omega, ?_⟩
      rw [h3, hc, List.flatMap_cons, List.append_assoc]
      congr 4
      omega

/-- `NeedsV` as a function. -/
def needsF (sort : SortFn) (τ : Nat → Spec.Kind) (σ : Nat → List Nat) : VOp → Nat
  | .copy _ _ | .append _ _ | .appendGraphemes _ _ _ _ => 1
  | .appendCps d v => (τ d).appending.calls (v.map Int.toNat)
  | .convert d src => (τ d).appending.calls (text σ src)
  | .normalize F d src => (libraryData sort).formCalls (τ d).appending F (graphemesOf (text σ src))
  | _ => 0

theorem needsF_spec {sort : SortFn} {σ : Nat → List Nat} {op : VOp} (ha : (libraryData sort).Permitted τ σ op) :
    (libraryData sort).NeedsV τ σ op (needsF sort τ σ op) := by
  cases op with
  | appendCps d v =>
    obtain ⟨cs, rfl, _⟩ := ha
    exact ⟨cs, rfl, by simp [needsF, ints, List.map_map, Function.comp_def]⟩
  | normalize F d src => exact ⟨_, (graphemesOf_spec sort _ _).mpr rfl, rfl⟩
  | copy | clear | append | convert | appendGraphemes | write | transform | read | readBack | readGraphemes | equal | less
  | countIf => exact rfl

/-- `InterruptedV` as a function. -/
def interruptedF (sort : SortFn) (τ : Nat → Spec.Kind) (σ : Nat → List Nat) (k : Nat) : VOp → Nat → List Nat
  | .appendCps d v => put σ d (σ d ++ (v.map Int.toNat).take ((τ d).appending.written k))
  | .convert d src => put σ d (σ d ++ (text σ src).take ((τ d).appending.written k))
  | .normalize F d src => put σ d (σ d ++ stopAt (libraryData sort) (τ d).appending F (graphemesOf (text σ src)) k)
  | _ => σ

theorem interruptedF_spec {sort : SortFn} {σ : Nat → List Nat} {op : VOp} {k : Nat}
    (ha : (libraryData sort).Permitted τ σ op) (hk : k < needsF sort τ σ op) :
    (libraryData sort).InterruptedV τ σ op k (interruptedF sort τ σ k op) := by
  cases op with
  | appendCps d v =>
    obtain ⟨cs, rfl, _⟩ := ha
    have e : (ints cs).map Int.toNat = cs := by simp [ints, List.map_map, Function.comp_def]
    simp only [needsF, e] at hk
    exact ⟨cs, rfl, hk, by simp only [interruptedF, e]⟩
  | convert d src => exact ⟨hk, rfl⟩
  | normalize F d src =>
    obtain ⟨p, g, q, h0, h1, h2, h3⟩ := stopAt_spec _ _ _ _ k hk
    exact ⟨p, g, q, (graphemesOf_spec sort _ _).mpr h0.symm, h1, h2, by simp only [interruptedF, h3, List.append_assoc]⟩
  | copy | append | appendGraphemes => exact ⟨by simp [needsF] at hk; exact hk, rfl⟩
  | clear | write | transform | read | readBack | readGraphemes | equal | less | countIf => simp [needsF] at hk

/-- `DoesCatch` as a function. -/
def doesCatchF (sort : SortFn) (τ : Nat → Spec.Kind) (w : HeldWorld) (k : Nat) (st : HeldStmt) : HeldWorld × Option Obs :=
  match st with
  | .op op => match w.plain op with
    | some op' => if k < needsF sort τ w.strings op' then (w.stored (interruptedF sort τ w.strings k op') (storesIn op), none)
        else ((doesHeldF sort w st).1, some (doesHeldF sort w st).2)
    | none => (w, none)
  | _ => ((doesHeldF sort w st).1, some (doesHeldF sort w st).2)

theorem doesCatchF_spec {sort : SortFn} {k : Nat} {st : HeldStmt} (ha : (libraryData sort).MayHeld τ w st) :
    (libraryData sort).DoesCatch τ w st k (doesCatchF sort τ w k st).1 (doesCatchF sort τ w k st).2 := by
  have hd := doesHeldF_spec sort w st ha
  cases st with
  | op op =>
    obtain ⟨⟨op', hpl, hperm⟩, _⟩ := ha
    simp only [doesCatchF, hpl]
    split
    · rename_i hk
      exact .inr ⟨op, op', _, rfl, hpl, interruptedF_spec hperm hk, rfl, rfl⟩
    · rename_i hk
      refine .inl ⟨_, rfl, hd, fun op1 op1' e h1 => ?_⟩
      obtain rfl := HeldStmt.op.inj e
      obtain rfl : op' = op1' := Option.some.inj (hpl.symm.trans h1)
      exact ⟨_, needsF_spec hperm, by omega⟩
  | _ => exact .inl ⟨_, rfl, hd, fun _ _ e => by cases e⟩

/-- `MayRunCatch` as a function. -/
def mayRunCatchB (sort : SortFn) (τ : Nat → Spec.Kind) (client : CatchClient) (calls : Nat → Nat) :
    Nat → HeldWorld → List (Option Obs) → Bool
  | 0, _, _ => true
  | n + 1, w, os => match client os with
    | none => true
    | some st => mayHeldB sort τ w st && mayRunCatchB sort τ client calls n
        (doesCatchF sort τ w (calls os.length) st).1 (os ++ [(doesCatchF sort τ w (calls os.length) st).2])

/-- C79: whether a program is allowed can be computed along its ideal run. -/
theorem C79_allowed_checkable (sort : SortFn) (τ : Nat → Spec.Kind) (client : CatchClient) (calls : Nat → Nat) (n : Nat)
    (w : HeldWorld) (os : List (Option Obs)) :
    mayRunCatchB sort τ client calls n w os = true ↔ (libraryData sort).MayRunCatch τ client calls n w os := by
  induction n generalizing w os with
  | zero => simp [mayRunCatchB, Ucd.MayRunCatch]
  | succ n ih =>
    simp only [mayRunCatchB, Ucd.MayRunCatch]
    cases hc : client os with
    | none => simp
    | some st =>
      simp only [Bool.and_eq_true, mayHeldB_iff, ih, Option.some.injEq, forall_eq']
      constructor
      · rintro ⟨h1, h2⟩
        refine ⟨h1, fun w1 o hd => ?_⟩
        obtain ⟨rfl, rfl⟩ := does_catch_unique hd (doesCatchF_spec h1)
        exact h2
      · rintro ⟨h1, h2⟩
        exact ⟨h1, h2 _ _ (doesCatchF_spec h1)⟩

/-- Non-vacuity: a program that normalizes a view into a UTF-8 string, prints what is there, and tries again until
nothing is thrown. -/
def retry : CatchClient := fun os =>
  match os with
  | [] => some (.op (.appendCps 1 [0x65, 0x301, 0x20AC, 0x62, 0x63]))
  | [_] => some (.hold 0 (.view 1 0 4))
  | _ => match (os.length - 2) % 3 with
    | 0 => if os.length = 2 ∨ os[os.length - 2]? = some none then some (.op (.clear 0)) else none
    | 1 => some (.op (.normalize .C 0 (.held 0)))
    | _ => some (.op (.read (.whole 0)))

theorem retry_allowed :
    (libraryData insSort).MayRunCatch sampleKinds retry (fun i => i / 2 + 1) 40 (HeldWorld.start fun _ => []) [] ∧
    (libraryData insSort).MayRunCatch sampleKinds retry (fun _ => 7) 40 (HeldWorld.start fun _ => []) [] :=
  ⟨(C79_allowed_checkable ..).mp (by decide +kernel), (C79_allowed_checkable ..).mp (by decide +kernel)⟩

/-- Seven calls are needed: one for each of the four codepoints read and one for each of the three written. With more and
more calls succeeding there are three failures: appending "é", appending the euro sign, decomposing "b"; the view of
string 1 stays valid all the time. -/
example : (match HeldMachine.runX insSort 20 retry (fun i => i / 2 + 1) 40
      (HeldMachine.start fun s => Spec.stored (sampleKinds s) []) [] with | .ok (_, os) => os | _ => []) =
      [some .none, some .none, some .none, none, some (.codepoints []), some .none, none, some (.codepoints [0xE9]),
       some .none, none, some (.codepoints [0xE9, 0x20AC]), some .none, some (.number 3),
       some (.codepoints [0xE9, 0x20AC, 0x62])] ∧
    (match HeldMachine.runX insSort 20 retry (fun _ => 7) 40
      (HeldMachine.start fun s => Spec.stored (sampleKinds s) []) [] with | .ok (_, os) => os | _ => []) =
      [some .none, some .none, some .none, some (.number 3), some (.codepoints [0xE9, 0x20AC, 0x62])] := by
  decide +kernel

example := C79_programs sampleKinds insSort insSort_stable.1 retry (fun i => i / 2 + 1) 40 (fun _ => []) (by simp)
  retry_allowed.1

end U5e
