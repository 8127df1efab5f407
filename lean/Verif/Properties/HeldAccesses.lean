import Verif.Spec.HeldAccesses
import Verif.Properties.HeldThreads
import Verif.Proofs.HeldCopy
/-!
# C81: threads that hold views and iterators, switched between any two accesses to memory
-/
namespace U5e
open Spec

section names
variable {τ : Nat → Spec.Kind} {w : HeldWorld} {M : HeldMachine}

theorem HeldRel.placeOf (r : HeldRel τ w M) {pl : Place} {x : Src} (h : w.source pl = some x) :
    ∀ s ∈ placeOf M.vars pl, s = x.string := by
  have hv : ∀ v y, w.views v = some y → M.vars.views v = some (y.string, M.gen y.string,
      place (τ y.string) (w.strings y.string) y.first, place (τ y.string) (w.strings y.string) y.last) :=
    fun v y hy => (r.view v y hy).2.2
  have hi : ∀ i y, w.its i = some y → M.vars.its i = some (y.string, M.gen y.string,
      place (τ y.string) (w.strings y.string) y.index) := fun i y hy => (r.it i y hy).2
  cases pl with
  | whole s | view s i j =>
    obtain rfl := Option.some.inj h
    intro s hs; simpa [Spec.placeOf, Src.string] using hs
  | held v | part v i j =>
    simp only [HeldWorld.source] at h
    split at h
    · rename_i y hy
      obtain rfl := Option.some.inj h
      intro s hs; simpa [Spec.placeOf, Src.string, hv v y hy] using hs
    · cases h
  | between i j =>
    simp only [HeldWorld.source] at h
    split at h
    · rename_i a b ha hb
      split at h
      · rename_i e
        obtain rfl := Option.some.inj h
        intro s hs
        simp only [Spec.placeOf, hi i a ha, hi j b hb, List.cons_append, List.nil_append, List.mem_cons, List.not_mem_nil,
          or_false, ← e, or_self] at hs
        exact hs
      · cases h
    · cases h

/-- What a statement names is what it touches. -/
theorem HeldRel.names (r : HeldRel τ w M) {U : Ucd} {st : HeldStmt} (ha : U.MayHeld τ w st) :
    ∀ s ∈ names M.vars st, s ∈ touchesHeld w st := by
  have hi : ∀ i y, w.its i = some y → M.vars.its i = some (y.string, M.gen y.string,
      place (τ y.string) (w.strings y.string) y.index) := fun i y hy => (r.it i y hy).2
  have hg : ∀ i y, w.gits i = some y → ∃ x, M.vars.gits i = some (y.string, M.gen y.string, x) :=
    fun i y hy => ⟨_, (r.git i y hy).2⟩
  have hm : ∀ i y, w.mits i = some y → ∃ x, M.vars.mits i = some (y.string, M.gen y.string, x) :=
    fun i y hy => by obtain ⟨p, h, _⟩ := r.mit i y hy; exact ⟨p, h⟩
  cases st with
  | op op =>
    obtain ⟨⟨op', hp, _⟩, _⟩ := ha
    simp only [touchesHeld, hp]
    cases op with
    | copy | clear | appendCps | write | transform =>
      obtain rfl := Option.some.inj hp
      intro s hs; exact hs
    | append d src | convert d src | appendGraphemes d src | normalize F d src =>
      obtain ⟨x, hx, rfl⟩ := Option.map_eq_some_iff.mp hp
      intro s hs
      simp only [Spec.names, List.mem_cons] at hs
      simp only [touchesV, List.mem_cons, List.not_mem_nil, or_false]
      exact hs.imp id (r.placeOf hx s)
    | read src | readBack src | readGraphemes src | countIf src =>
      obtain ⟨x, hx, rfl⟩ := Option.map_eq_some_iff.mp hp
      intro s hs
      simp only [touchesV, List.mem_cons, List.not_mem_nil, or_false]
      exact r.placeOf hx s hs
    | equal a b | less a b =>
      simp only [HeldWorld.plain] at hp
      split at hp
      · rename_i x y hx hy
        obtain rfl := Option.some.inj hp
        intro s hs
        simp only [Spec.names, List.mem_append] at hs
        simp only [touchesV, List.mem_cons, List.not_mem_nil, or_false]
        exact hs.imp (r.placeOf hx s) (r.placeOf hy s)
      · cases hp
  | hold _ pl | first _ pl | last _ pl | gfirst _ pl | glast _ pl =>
    obtain ⟨⟨x, hx, _⟩, _⟩ := ha
    intro s hs
    simp only [touchesHeld, hx, List.mem_singleton]
    exact r.placeOf hx s hs
  | mfirst | mlast => intro s hs; exact hs
  | next i | get i | prev i =>
    obtain ⟨x, hx, _⟩ := ha
    intro s hs
    simpa [Spec.names, touchesHeld, hi i x hx, hx] using hs
  | assign _ i =>
    obtain ⟨x, hx⟩ := ha
    intro s hs
    simpa [Spec.names, touchesHeld, hi i x hx, hx] using hs
  | same i j =>
    obtain ⟨x, y, hx, hy, e⟩ := ha
    intro s hs
    simpa [Spec.names, touchesHeld, hi i x hx, hi j y hy, hx, ← e] using hs
  | gassign _ i | gnext i | gget i | gstart _ i | gstop _ i =>
    obtain ⟨x, hx⟩ := ha
    obtain ⟨z, hz⟩ := hg i x hx
    intro s hs
    simpa [Spec.names, touchesHeld, hz, hx] using hs
  | gsame i j =>
    obtain ⟨x, y, hx, hy, e, _⟩ := ha
    obtain ⟨z, hz⟩ := hg i x hx
    obtain ⟨z', hz'⟩ := hg j y hy
    intro s hs
    simpa [Spec.names, touchesHeld, hz, hz', hx, ← e] using hs
  | mnext i | mget i | mprev i =>
    obtain ⟨x, hx, _⟩ := ha
    obtain ⟨z, hz⟩ := hm i x hx
    intro s hs
    simpa [Spec.names, touchesHeld, hz, hx] using hs
  | massign _ i =>
    obtain ⟨x, hx⟩ := ha
    obtain ⟨z, hz⟩ := hm i x hx
    intro s hs
    simpa [Spec.names, touchesHeld, hz, hx] using hs
  | msame i j =>
    obtain ⟨x, y, hx, hy, e⟩ := ha
    obtain ⟨z, hz⟩ := hm i x hx
    obtain ⟨z', hz'⟩ := hm j y hy
    intro s hs
    simpa [Spec.names, touchesHeld, hz, hz', hx, ← e] using hs
  | mset i c =>
    obtain ⟨x, hx, _⟩ := ha
    obtain ⟨z, hz⟩ := hm i x hx
    intro s hs
    simpa [Spec.names, touchesHeld, hz, hx] using hs

/-- What a statement names as its target is what it may change. -/
theorem HeldRel.target (r : HeldRel τ w M) {U : Ucd} {st : HeldStmt} (ha : U.MayHeld τ w st) :
    target M.vars st = changesHeld w st := by
  cases st with
  | op op =>
    obtain ⟨⟨op', hp, _⟩, _⟩ := ha
    simp only [changesHeld, hp]
    cases op with
    | copy | clear | appendCps | write | transform => obtain rfl := Option.some.inj hp; rfl
    | append | convert | appendGraphemes | normalize | read | readBack | readGraphemes | countIf =>
      obtain ⟨x, hx, rfl⟩ := Option.map_eq_some_iff.mp hp; rfl
    | equal a b | less a b =>
      simp only [HeldWorld.plain] at hp
      split at hp
      · obtain rfl := Option.some.inj hp; rfl
      · cases hp
  | mset m c =>
    obtain ⟨x, hx, _⟩ := ha
    obtain ⟨p, h, _⟩ := r.mit m x hx
    have h' : M.vars.mits m = some (x.string, M.gen x.string, p) := h
    simp only [Spec.target, changesHeld, hx, h', Option.map_some]
  | hold | first | last | assign | next | prev | get | same | gfirst | glast | gassign | gnext | gget | gsame | gstart
  | gstop | mfirst | mlast | massign | mnext | mprev | mget | msame => rfl

end names

section accesses
variable {r : List Nat} {w : Option Nat} {a : Accesses}

theorem Spec.Keeps.alone (h : Keeps r w a) {s : Nat} (hs : w ≠ some s) : ∀ (μ : Nat → HeldCell), (a.alone μ).1 s = μ s := by
  induction a with
  | finished V o => intro μ; rfl
  | read k g next ih => intro μ; exact ih _ (h.2 _) μ
  | change k f next ih =>
    intro μ
    rw [Accesses.alone, ih h.2.2]
    exact upd_ne fun e => hs (by rw [h.1, e])

/-- Where two memories agree on the strings accessed, the result is the same. -/
theorem Spec.Keeps.agree (h : Keeps r w a) : ∀ {μ ν : Nat → HeldCell}, (∀ s ∈ r, μ s = ν s) →
    (a.alone μ).2 = (a.alone ν).2 ∧ ∀ s, μ s = ν s → (a.alone μ).1 s = (a.alone ν).1 s := by
  induction a with
  | finished V o => intro μ ν _; exact ⟨rfl, fun _ h => h⟩
  | read k g next ih =>
    intro μ ν hag
    simp only [Accesses.alone, hag k h.1]
    exact ih _ (h.2 _) hag
  | change k f next ih =>
    intro μ ν hag
    simp only [Accesses.alone, hag k h.2.1]
    have e : ∀ s, μ s = ν s → upd μ k ((ν k).stroke f) s = upd ν k ((ν k).stroke f) s := by
      intro s hs
      by_cases e : s = k
      · subst e; rw [upd_same, upd_same]
      · rw [upd_ne e, upd_ne e, hs]
    obtain ⟨h1, h2⟩ := ih h.2.2 fun s hs => e s (hag s hs)
    exact ⟨h1, fun s hs => h2 s (e s hs)⟩

/-- One access of a statement, seen from the local state. -/
theorem Spec.Keeps.once (h : Keeps r w a) {μ ν : Nat → HeldCell} (hag : ∀ s ∈ r, μ s = ν s) :
    Keeps r w (a.once μ).1 ∧ (∀ s, w ≠ some s → (a.once μ).2 s = μ s) ∧
      ∃ ν', (a.once μ).1.alone ν' = a.alone ν ∧ ∀ s, μ s = ν s → (a.once μ).2 s = ν' s := by
  cases a with
  | finished V o => exact ⟨trivial, fun _ _ => rfl, ν, rfl, fun _ h => h⟩
  | read k g next =>
    refine ⟨h.2 _, fun _ _ => rfl, ν, ?_, fun _ h => h⟩
    simp only [Accesses.once, Accesses.alone, hag k h.1]
  | change k f next =>
    refine ⟨h.2.2, fun s hs => upd_ne fun e => hs (by rw [h.1, e]), upd ν k ((ν k).stroke f), rfl, fun s hs => ?_⟩
    simp only [Accesses.once, hag k h.2.1]
    by_cases e : s = k
    · subst e; rw [upd_same, upd_same]
    · rw [upd_ne e, upd_ne e, hs]

end accesses

/-- The memory of a pool. -/
def HeldPool.cells (p : HeldPool) : Nat → HeldCell := fun s => ⟨p.strings s, p.gen s⟩

theorem runs_snoc {U : Ucd} {τ : Nat → Spec.Kind} {client : CatchClient} {calls : Nat → Nat} {n : Nat}
    {w0 w w1 : HeldWorld} {os0 os : List (Option Obs)} {st : HeldStmt} {o : Option Obs}
    (h : U.RunsCatch τ client calls n w0 os0 w os) (hc : client os = some st)
    (hd : U.DoesCatch τ w st (calls os.length) w1 o) :
    U.RunsCatch τ client calls (n + 1) w0 os0 w1 (os ++ [o]) := by
  induction h with
  | limit w os => exact .step _ _ _ _ _ _ _ _ hc hd (.limit _ _)
  | finished n w os hn => rw [hn] at hc; cases hc
  | step n w os st' w' o' w2 os2 hc' hd' _ ih => exact .step _ _ _ _ _ _ _ _ hc' hd' (ih hc hd)

theorem mayRunOwned_le {U : Ucd} {τ : Nat → Spec.Kind} {owner : Nat → Option Nat} {t : Nat} {client : CatchClient}
    {calls : Nat → Nat} {n : Nat} : ∀ {m : Nat} {w : HeldWorld} {os : List (Option Obs)}, n ≤ m →
    U.MayRunOwned τ owner t client calls m w os → U.MayRunOwned τ owner t client calls n w os := by
  induction n with
  | zero => intros; trivial
  | succ n ih =>
    intro m w os hm h
    obtain ⟨m, rfl⟩ : ∃ k, m = k + 1 := ⟨m - 1, by omega⟩
    intro st hst
    obtain ⟨h1, h2, h3⟩ := h st hst
    exact ⟨h1, h2, fun w1 o hd => ih (by omega) (h3 w1 o hd)⟩

/-- What holds between any two accesses. The pool `p` is where the threads would be had they executed whole statements
only, `left t` how many turns thread `t` will still have. -/
structure Amid (sort : SortFn) (τ : Nat → Spec.Kind) (owner : Nat → Option Nat) (code : HeldCode) (P : Nat → CatchClient)
    (calls : Nat → Nat → Nat) (σ : Nat → List Nat) (W0 : Nat → HeldWorld) (W : Nat → HeldWorld) (p : HeldPool)
    (left : Nat → Nat) (c : HeldConfig) : Prop where
  pool : PoolRel τ owner σ W p
  printed : c.printed = p.printed
  runs : ∀ t, (libraryData sort).RunsCatch τ (P t) (calls t) (c.printed t).length (W0 t) [] (W t) (c.printed t)
  idle : ∀ t, c.running t = none → c.vars t = (p.own t).vars ∧ (∀ s, owner s = some t → c.memory s = p.cells s) ∧
    (libraryData sort).MayRunOwned τ owner t (P t) (calls t) (left t) (W t) (c.printed t)
  busy : ∀ t a, c.running t = some a → ∃ st r d, P t (c.printed t) = some st ∧
    (libraryData sort).MayHeld τ (W t) st ∧ Respects owner t (W t) st ∧ Keeps r d a ∧
    (∀ s ∈ r, mayRead owner t s = true) ∧ (∀ s, d = some s → owner s = some t) ∧
    (∃ μ ν, a.alone μ = (code (p.own t).vars (calls t (c.printed t).length) st).alone ν ∧
      ∀ s, mayRead owner t s = true → c.memory s = μ s ∧ ν s = p.cells s) ∧
    (libraryData sort).MayRunOwned τ owner t (P t) (calls t) (left t + 1) (W t) (c.printed t)
  shared : ∀ s, owner s = none → c.memory s = p.cells s

theorem mayRead_own {owner : Nat → Option Nat} {t s : Nat} (h : owner s = some t) : mayRead owner t s = true := by
  simp [mayRead, h]

theorem mayRead_not {owner : Nat → Option Nat} {t u s : Nat} (h : mayRead owner u s = true) (hu : u ≠ t) : owner s ≠ some t := by
  intro e
  simp only [mayRead, e, Bool.or_eq_true, beq_iff_eq, reduceCtorEq, Option.some.injEq, false_or] at h
  exact hu h.symm

variable {sort : SortFn} {τ : Nat → Spec.Kind} {owner : Nat → Option Nat} {code : HeldCode} {P : Nat → CatchClient}
  {calls : Nat → Nat → Nat} {σ : Nat → List Nat} {W0 W : Nat → HeldWorld} {p : HeldPool} {left : Nat → Nat} {c : HeldConfig}

theorem Amid.turns (h : Amid sort τ owner code P calls σ W0 W p left c) {left' : Nat → Nat} (hl : ∀ t, left' t ≤ left t) :
    Amid sort τ owner code P calls σ W0 W p left' c :=
  ⟨h.pool, h.printed, h.runs, fun t ht => ⟨(h.idle t ht).1, (h.idle t ht).2.1, mayRunOwned_le (hl t) (h.idle t ht).2.2⟩,
    fun t a hta => by
      obtain ⟨st, r, d, h1, h2, h3, h4, h5, h6, h7, h8⟩ := h.busy t a hta
      exact ⟨st, r, d, h1, h2, h3, h4, h5, h6, h7, mayRunOwned_le (by have := hl t; omega) h8⟩, h.shared⟩

theorem Amid.footprint (h : Amid sort τ owner code P calls σ W0 W p left c) {t : Nat} {st : HeldStmt}
    (hm : (libraryData sort).MayHeld τ (W t) st) (hr : Respects owner t (W t) st) :
    (∀ s ∈ names (p.own t).vars st, mayRead owner t s = true) ∧
    ∀ s, target (p.own t).vars st = some s → owner s = some t := by
  have hag : ∀ s ∈ touchesHeld (W t) st, (W t).strings s = together owner σ W s := fun s h' => h.pool.agree (hr.1 s h')
  have hm' := may_local hag hm
  refine ⟨fun s hs => hr.1 s ?_, fun s hs => hr.2 s ?_⟩
  · have := (h.pool.rel t).names hm' s hs
    rwa [touches_strings] at this
  · have e : target (p.machine t).vars st = some s := hs
    rw [(h.pool.rel t).target hm', changes_strings] at e
    exact e

theorem Amid.go (hs : ConformingSort sort) (hI : Compiles sort τ code) (h : Amid sort τ owner code P calls σ W0 W p left c)
    (t : Nat) (ht : 0 < left t) :
    ∃ W' p', Amid sort τ owner code P calls σ W0 W' p' (upd left t (left t - 1)) (c.go code P calls t) := by
  have hl : ∀ u, upd left t (left t - 1) u ≤ left u := by
    intro u
    by_cases hu : u = t
    · subst hu; rw [upd_same]; omega
    · rw [upd_ne hu]; exact Nat.le_refl _
  rw [HeldConfig.go]
  cases hr : c.running t with
  | none =>
    obtain ⟨hv, hmem, hmay⟩ := h.idle t hr
    cases hc : P t (c.printed t) with
    | none => exact ⟨W, p, by simpa using h.turns hl⟩
    | some st =>
      simp only
      refine ⟨W, p, h.pool, h.printed, h.runs, fun u hu => ?_, fun u a hua => ?_, h.shared⟩
      · by_cases e : u = t
        · subst e; simp only [upd_same, reduceCtorEq] at hu
        · simp only [upd_ne e] at hu ⊢; exact h.idle u hu
      · by_cases e : u = t
        · subst e
          simp only [upd_same, Option.some.injEq] at hua
          subst hua
          have hmay' := hmay
          obtain ⟨n, hn⟩ : ∃ n, left u = n + 1 := ⟨left u - 1, by omega⟩
          rw [hn] at hmay'
          obtain ⟨h1, h2, -⟩ := hmay' st hc
          obtain ⟨f1, f2⟩ := h.footprint h1 h2
          rw [hv]
          refine ⟨st, _, _, hc, h1, h2, (hI _ _ _).1, f1, f2, ⟨p.cells, p.cells, rfl, fun s hs' => ⟨?_, rfl⟩⟩, ?_⟩
          · simp only [mayRead, Bool.or_eq_true, beq_iff_eq] at hs'
            exact hs'.elim (h.shared s) (hmem s)
          · rw [upd_same, hn, Nat.add_sub_cancel, ← hn]; exact hmay
        · simp only [upd_ne e] at hua ⊢; exact h.busy u a hua
  | some a =>
    obtain ⟨st, r, d, hc, hmay, hres, hk, hread, hown, ⟨μ, ν, halone, hag⟩, hbud⟩ := h.busy t a hr
    have other : ∀ (m : Nat → HeldCell) (vs : Nat → HeldVars) (q : HeldPool) (os : Nat → List (Option Obs)) (x : Option Accesses)
        (W' : Nat → HeldWorld), (∀ s, owner s ≠ some t → m s = c.memory s ∧ q.cells s = p.cells s) →
        (∀ u, u ≠ t → W' u = W u ∧ q.own u = p.own u ∧ vs u = c.vars u ∧ os u = c.printed u) →
        ∀ u, u ≠ t →
        (upd c.running t x u = none → vs u = (q.own u).vars ∧ (∀ s, owner s = some u → m s = q.cells s) ∧
          (libraryData sort).MayRunOwned τ owner u (P u) (calls u) (upd left t (left t - 1) u) (W' u) (os u)) ∧
        ∀ b, upd c.running t x u = some b → ∃ st r d, P u (os u) = some st ∧
          (libraryData sort).MayHeld τ (W' u) st ∧ Respects owner u (W' u) st ∧ Keeps r d b ∧
          (∀ s ∈ r, mayRead owner u s = true) ∧ (∀ s, d = some s → owner s = some u) ∧
          (∃ μ ν, b.alone μ = (code (q.own u).vars (calls u (os u).length) st).alone ν ∧
            ∀ s, mayRead owner u s = true → m s = μ s ∧ ν s = q.cells s) ∧
          (libraryData sort).MayRunOwned τ owner u (P u) (calls u) (upd left t (left t - 1) u + 1) (W' u) (os u) := by
      intro m vs q os x W' hm hW u e
      obtain ⟨w1, w2, w3, w4⟩ := hW u e
      rw [w1, w2, w3, w4, upd_ne e, upd_ne e]
      refine ⟨fun hu => ?_, fun b hb => ?_⟩
      · obtain ⟨g1, g2, g3⟩ := h.idle u hu
        refine ⟨g1, fun s hs' => ?_, g3⟩
        obtain ⟨k1, k2⟩ := hm s (by rw [hs']; simpa using e)
        rw [k1, k2]; exact g2 s hs'
      · obtain ⟨st', r', d', g1, g2, g3, g4, g5, g6, ⟨μ', ν', g7, g8⟩, g9⟩ := h.busy u b hb
        refine ⟨st', r', d', g1, g2, g3, g4, g5, g6, ⟨μ', ν', g7, fun s hs' => ?_⟩, g9⟩
        obtain ⟨k1, k2⟩ := hm s (mayRead_not hs' e)
        rw [k1, k2]; exact g8 s hs'
    cases ha : a with
    | finished V o =>
      subst ha
      simp only
      obtain ⟨w1, o1, M1, N, hd, hN, hrel⟩ := h.pool.step hs t st (calls t (p.printed t).length) hmay hres
      rw [← h.printed] at hd hN
      have hcode := hI (p.own t).vars (calls t (c.printed t).length) st
      have hkind : ∀ s, kindOf (p.cells s).text = τ s := by
        intro s
        have : (p.cells s).text = Spec.stored (τ s) (together owner σ W s) := congrFun (h.pool.rel t).strings s
        rw [this]; cases τ s <;> rfl
      have heff := hcode.2 p.cells M1 o1 N hkind hN
      obtain ⟨f1, f2⟩ := h.footprint hmay hres
      obtain ⟨q1, q2⟩ := hcode.1.agree (μ := ν) (ν := p.cells) fun s hs' => (hag s (f1 s hs')).2
      rw [heff] at q1 q2
      rw [← halone] at q1 q2
      simp only [Accesses.alone, Prod.mk.injEq] at q1 q2
      obtain ⟨rfl, rfl⟩ := q1
      have hstay : ∀ s, owner s ≠ some t → M1.cells s = p.cells s := by
        intro s hs'
        have := hcode.1.alone (s := s) (fun e => hs' (f2 s e)) p.cells
        rw [heff] at this; exact this
      have hP1 := hrel (upd p.printed t (p.printed t ++ [o]))
      have oth := other c.memory (upd c.vars t M1.vars) ⟨M1.strings, M1.gen, upd p.own t M1, upd p.printed t (p.printed t ++ [o])⟩
        (upd c.printed t (c.printed t ++ [o])) none (upd W t w1) (fun s hs' => ⟨rfl, hstay s hs'⟩)
        fun u e => ⟨upd_ne e, upd_ne e, upd_ne e, upd_ne e⟩
      refine ⟨upd W t w1, _, hP1, ?_, fun u => ?_, fun u hu => ?_, fun u b hub => ?_, fun s hs' => ?_⟩
      · simp only [h.printed]
      · by_cases e : u = t
        · subst e
          simp only [upd_same, List.length_append, List.length_cons, List.length_nil]
          exact runs_snoc (h.runs u) hc hd
        · simp only [upd_ne e]; exact h.runs u
      · by_cases e : u = t
        · subst e
          simp only [upd_same]
          refine ⟨trivial, fun s hs' => ?_, mayRunOwned_le (by omega) ((hbud st hc).2.2 w1 o hd)⟩
          have := hag s (mayRead_own hs')
          rw [this.1]
          exact q2 s this.2
        · exact (oth u e).1 hu
      · by_cases e : u = t
        · subst e; simp only [upd_same, reduceCtorEq] at hub
        · exact (oth u e).2 b hub
      · exact (h.shared s hs').trans (hstay s (by rw [hs']; simp)).symm
    | _ =>
      all_goals
        simp only
        rw [← ha]
        obtain ⟨k1, k2, μ', k3, k4⟩ := hk.once (μ := c.memory) (ν := μ) fun s hs' => (hag s (hread s hs')).1
        have hkeep : ∀ s, owner s ≠ some t → (a.once c.memory).2 s = c.memory s := fun s hs' => k2 s fun e => hs' (hown s e)
        have oth := other (a.once c.memory).2 c.vars p c.printed (some (a.once c.memory).1) W
          (fun s hs' => ⟨hkeep s hs', rfl⟩) fun u e => ⟨rfl, rfl, rfl, rfl⟩
        refine ⟨W, p, h.pool, h.printed, h.runs, fun u hu => ?_, fun u b hub => ?_, fun s hs' => ?_⟩
        · by_cases e : u = t
          · subst e; simp only [upd_same, reduceCtorEq] at hu
          · exact (oth u e).1 hu
        · by_cases e : u = t
          · subst e
            simp only [upd_same, Option.some.injEq] at hub
            subst hub
            refine ⟨st, r, d, hc, hmay, hres, k1, hread, hown, ⟨μ', ν, k3.trans halone, fun s hs' => ?_⟩,
              mayRunOwned_le (by rw [upd_same]; omega) hbud⟩
            exact ⟨k4 s (hag s hs').1, (hag s hs').2⟩
          · exact (oth u e).2 b hub
        · show (a.once c.memory).2 s = _
          rw [hkeep s (by rw [hs']; simp)]; exact h.shared s hs'

theorem Amid.exec (hs : ConformingSort sort) (hI : Compiles sort τ code) (ts : List Nat) :
    ∀ {W : Nat → HeldWorld} {p : HeldPool} {c : HeldConfig},
      Amid sort τ owner code P calls σ W0 W p (fun t => ts.count t) c →
      ∃ W' p', Amid sort τ owner code P calls σ W0 W' p' (fun _ => 0) (c.exec code P calls ts) := by
  induction ts with
  | nil => intro W p c h; exact ⟨W, p, h⟩
  | cons t ts ih =>
    intro W p c h
    obtain ⟨W1, p1, h1⟩ := h.go hs hI t (by simp)
    have e : upd (fun u => (t :: ts).count u) t ((t :: ts).count t - 1) = fun u => ts.count u := by
      funext u
      by_cases hu : u = t
      · subst hu; rw [upd_same, List.count_cons_self]; rfl
      · rw [upd_ne hu]; exact List.count_cons_of_ne (by simpa using fun e => hu e.symm)
    rw [e] at h1
    exact ih h1

/-- Two runs of a program that both get to its end are the same. -/
theorem runs_both_finished {client : CatchClient} {calls : Nat → Nat} {n m : Nat} {w w1 w2 : HeldWorld}
    {os os1 os2 : List (Option Obs)} (f1 : client os1 = none) (f2 : client os2 = none)
    (h1 : (libraryData sort).RunsCatch τ client calls n w os w1 os1)
    (h2 : (libraryData sort).RunsCatch τ client calls m w os w2 os2) : w1 = w2 ∧ os1 = os2 := by
  induction h1 generalizing m with
  | limit w os =>
    cases h2 with
    | limit => exact ⟨rfl, rfl⟩
    | finished => exact ⟨rfl, rfl⟩
    | step n _ _ st w1 o _ _ hc => rw [f1] at hc; cases hc
  | finished n w os hn =>
    cases h2 with
    | limit => exact ⟨rfl, rfl⟩
    | finished => exact ⟨rfl, rfl⟩
    | step n _ _ st w1 o _ _ hc => rw [f1] at hc; cases hc
  | step n w os st w' o' w2' os2' hc hd _ ih =>
    cases h2 with
    | limit => rw [f2] at hc; cases hc
    | finished _ _ _ hn => rw [hn] at hc; cases hc
    | step n _ _ st2 w1 o _ _ hc2 hd2 h2 =>
      rw [hc] at hc2
      obtain rfl := Option.some.inj hc2
      obtain ⟨rfl, rfl⟩ := does_catch_unique hd hd2
      exact ih f1 h2

theorem spawned (τ : Nat → Spec.Kind) (sort : SortFn) (hs : ConformingSort sort) (client0 : CatchClient)
    (calls0 : Nat → Nat) (n0 : Nat) (σ : Nat → List Nat) (hσ : ∀ k, ∀ c ∈ σ k, c < 2 ^ 31)
    (ha0 : (libraryData sort).MayRunCatch τ client0 calls0 n0 (HeldWorld.start σ) [])
    (w0 : HeldWorld) (os0 : List (Option Obs))
    (hr0 : (libraryData sort).RunsCatch τ client0 calls0 n0 (HeldWorld.start σ) [] w0 os0)
    (owner : Nat → Option Nat) (P : Nat → CatchClient) (calls : Nat → Nat → Nat) :
    ∃ M N, (∀ fuel, N ≤ fuel →
        HeldMachine.runX sort fuel client0 calls0 n0 (HeldMachine.start fun s => Spec.stored (τ s) (σ s)) [] = .ok (M, os0)) ∧
      ∀ code ts, (∀ t, (libraryData sort).MayRunOwned τ owner t (P t) (calls t) (List.count t ts) (w0.given (mayRead owner t)) []) →
        Amid sort τ owner code P calls w0.strings (fun t => w0.given (mayRead owner t))
          (fun t => w0.given (mayRead owner t)) (M.fork (mayRead owner)) (fun t => List.count t ts) (M.spawn (mayRead owner)) := by
  obtain ⟨w, M, os0', N0, h0, r0, hN0⟩ := run_catch hs client0 calls0 n0 _ _ [] (held_start τ σ hσ) ha0
  obtain ⟨rfl, rfl⟩ := C79_deterministic τ sort client0 calls0 n0 _ _ _ _ _ _ h0 hr0
  have hrel : PoolRel τ owner w.strings (fun t => w.given (mayRead owner t)) (M.fork (mayRead owner)) := by
    refine ⟨fun t => ?_, fun _ _ _ => rfl, fun t => given_confined w _⟩
    have e : together owner w.strings (fun t => w.given (mayRead owner t)) = w.strings := by
      funext s; simp only [together]; cases owner s <;> rfl
    rw [e]
    exact r0.given _
  exact ⟨M, N0, hN0, fun code ts ha =>
    ⟨hrel, rfl, fun t => .limit _ _, fun t _ => ⟨rfl, fun _ _ => rfl, ha t⟩, fun t a h => (by simp [HeldMachine.spawn] at h), fun _ _ => rfl⟩⟩

/-- C81. As C80, but a statement is any sequence of single accesses to the elements of the strings that, made undisturbed,
has its effect, and the schedule switches threads between any two accesses: each thread has printed and thrown what it
does alone on plain sequences of codepoints (as far as it got; it may be inside its next statement); the strings of a
thread that is not inside a statement hold the encoding of what they hold when it runs alone; the strings nobody owns
are unchanged. -/
theorem C81_any_granularity (τ : Nat → Spec.Kind) (sort : SortFn) (hs : ConformingSort sort) (client0 : CatchClient)
    (calls0 : Nat → Nat) (n0 : Nat) (σ : Nat → List Nat) (hσ : ∀ k, ∀ c ∈ σ k, c < 2 ^ 31)
    (ha0 : (libraryData sort).MayRunCatch τ client0 calls0 n0 (HeldWorld.start σ) [])
    (w0 : HeldWorld) (os0 : List (Option Obs))
    (hr0 : (libraryData sort).RunsCatch τ client0 calls0 n0 (HeldWorld.start σ) [] w0 os0)
    (owner : Nat → Option Nat) (P : Nat → CatchClient) (calls : Nat → Nat → Nat) (ts : List Nat)
    (ha : ∀ t, (libraryData sort).MayRunOwned τ owner t (P t) (calls t) (ts.count t) (w0.given (mayRead owner t)) []) :
    ∃ M N, (∀ fuel, N ≤ fuel →
        HeldMachine.runX sort fuel client0 calls0 n0 (HeldMachine.start fun s => Spec.stored (τ s) (σ s)) [] = .ok (M, os0)) ∧
      ∀ code, Compiles sort τ code →
        let c := (M.spawn (mayRead owner)).exec code P calls ts
        (∀ t, ∃ w, (libraryData sort).RunsCatch τ (P t) (calls t) (c.printed t).length (w0.given (mayRead owner t)) [] w
            (c.printed t) ∧
          (c.running t = none → ∀ s, owner s = some t → (c.memory s).text = Spec.stored (τ s) (w.strings s))) ∧
        ∀ s, owner s = none → (c.memory s).text = Spec.stored (τ s) (w0.strings s) := by
  obtain ⟨M, N0, hN0, hA⟩ := spawned τ sort hs client0 calls0 n0 σ hσ ha0 w0 os0 hr0 owner P calls
  refine ⟨M, N0, hN0, fun code hI => ?_⟩
  obtain ⟨W, p, h⟩ := (hA code ts ha).exec hs hI ts
  have hstr : ∀ s, (p.cells s).text = Spec.stored (τ s) (match owner s with | some t => (W t).strings s | none => w0.strings s) :=
    fun s => congrFun (h.pool.rel 0).strings s
  refine ⟨fun t => ⟨W t, h.runs t, fun hr s ho => ?_⟩, fun s ho => ?_⟩
  · rw [(h.idle t hr).2.1 s ho, hstr s, ho]
  · rw [h.shared s ho, hstr s, ho]

/-- C81: once every thread has finished, the strings and what each thread has printed and thrown are those of any schedule of
whole statements (C80) under which every thread has finished. -/
theorem C81_statements_suffice (τ : Nat → Spec.Kind) (sort : SortFn) (hs : ConformingSort sort) (client0 : CatchClient)
    (calls0 : Nat → Nat) (n0 : Nat) (σ : Nat → List Nat) (hσ : ∀ k, ∀ c ∈ σ k, c < 2 ^ 31)
    (ha0 : (libraryData sort).MayRunCatch τ client0 calls0 n0 (HeldWorld.start σ) [])
    (w0 : HeldWorld) (os0 : List (Option Obs))
    (hr0 : (libraryData sort).RunsCatch τ client0 calls0 n0 (HeldWorld.start σ) [] w0 os0)
    (owner : Nat → Option Nat) (P : Nat → CatchClient) (calls : Nat → Nat → Nat) (ts ts' : List Nat)
    (ha : ∀ t n, (libraryData sort).MayRunOwned τ owner t (P t) (calls t) n (w0.given (mayRead owner t)) []) :
    ∃ M N, (∀ fuel, N ≤ fuel →
        HeldMachine.runX sort fuel client0 calls0 n0 (HeldMachine.start fun s => Spec.stored (τ s) (σ s)) [] = .ok (M, os0)) ∧
      ∀ code, Compiles sort τ code →
        let c := (M.spawn (mayRead owner)).exec code P calls ts
        (∀ t, c.running t = none ∧ P t (c.printed t) = none) →
        ∃ N', ∀ fuel, N' ≤ fuel → ∀ p, HeldPool.sched sort fuel P calls ts' (M.fork (mayRead owner)) = .ok p →
          (∀ t, P t (p.printed t) = none) → p.printed = c.printed ∧ ∀ s, p.strings s = (c.memory s).text := by
  obtain ⟨M, N, h1, h2⟩ := C81_any_granularity τ sort hs client0 calls0 n0 σ hσ ha0 w0 os0 hr0 owner P calls ts fun t => ha t _
  refine ⟨M, N, h1, fun code hI => ?_⟩
  intro c hfin
  obtain ⟨g1, g2⟩ := h2 code hI
  obtain ⟨W, os, N', k1, k2⟩ := C80_threads τ sort hs client0 calls0 n0 σ hσ ha0 w0 os0 hr0 owner P calls ts' fun t => ha t _
  refine ⟨max N N', fun fuel hf p hp hpf => ?_⟩
  obtain ⟨M', p', q1, q2, q3, q4⟩ := k2 fuel (by omega)
  rw [h1 fuel (by omega)] at q1
  simp only [Res.ok.injEq, Prod.mk.injEq, and_true] at q1
  subst q1
  rw [hp] at q2
  simp only [Res.ok.injEq] at q2
  subst q2
  have key : ∀ t, ∃ w, (c.running t = none → ∀ s, owner s = some t → (c.memory s).text = Spec.stored (τ s) (w.strings s)) ∧
      w = W t ∧ c.printed t = os t := by
    intro t
    obtain ⟨w, r1, r2⟩ := g1 t
    refine ⟨w, r2, ?_⟩
    have := k1 t
    rw [← q3 t] at this
    have e := runs_both_finished (hfin t).2 (hpf t) r1 this
    exact ⟨e.1, e.2.trans (q3 t)⟩
  refine ⟨funext fun t => ?_, fun s => ?_⟩
  · obtain ⟨_, _, _, e⟩ := key t; rw [e, q3]
  · rw [q4 s]
    cases ho : owner s with
    | none => exact (g2 s ho).symm
    | some t =>
      obtain ⟨w, r2, rfl, _⟩ := key t
      exact (r2 (hfin t).1 s ho).symm

/-- C81: no data race. A string that one thread is about to change at some time under some schedule is not accessed by
another thread at any time under any schedule. (So on a machine that is sequentially consistent for programs without data
races, as C++ promises, nothing is lost by taking memory to be sequentially consistent.) -/
theorem C81_race_free (τ : Nat → Spec.Kind) (sort : SortFn) (hs : ConformingSort sort) (client0 : CatchClient)
    (calls0 : Nat → Nat) (n0 : Nat) (σ : Nat → List Nat) (hσ : ∀ k, ∀ c ∈ σ k, c < 2 ^ 31)
    (ha0 : (libraryData sort).MayRunCatch τ client0 calls0 n0 (HeldWorld.start σ) [])
    (w0 : HeldWorld) (os0 : List (Option Obs))
    (hr0 : (libraryData sort).RunsCatch τ client0 calls0 n0 (HeldWorld.start σ) [] w0 os0)
    (owner : Nat → Option Nat) (P : Nat → CatchClient) (calls : Nat → Nat → Nat) (ts ts' : List Nat)
    (ha : ∀ t n, (libraryData sort).MayRunOwned τ owner t (P t) (calls t) n (w0.given (mayRead owner t)) []) :
    ∃ M N, (∀ fuel, N ≤ fuel →
        HeldMachine.runX sort fuel client0 calls0 n0 (HeldMachine.start fun s => Spec.stored (τ s) (σ s)) [] = .ok (M, os0)) ∧
      ∀ code, Compiles sort τ code →
        let c := (M.spawn (mayRead owner)).exec code P calls ts
        let c' := (M.spawn (mayRead owner)).exec code P calls ts'
        ∀ t u s x a b, c.running t = some a → nextAccess a = some (s, true) →
          c'.running u = some b → nextAccess b = some (s, x) → t = u := by
  obtain ⟨M, N, hN0, hA⟩ := spawned τ sort hs client0 calls0 n0 σ hσ ha0 w0 os0 hr0 owner P calls
  refine ⟨M, N, hN0, fun code hI => ?_⟩
  intro c c' t u s x a b h1 h2 h3 h4
  obtain ⟨W, p, h⟩ := (hA code ts fun t => ha t _).exec hs hI ts
  obtain ⟨W', p', h'⟩ := (hA code ts' fun t => ha t _).exec hs hI ts'
  obtain ⟨_, r, d, _, _, _, k1, _, k2, _⟩ := h.busy t a h1
  obtain ⟨_, r', d', _, _, _, l1, l2, l3, _⟩ := h'.busy u b h3
  have e1 : owner s = some t := by
    cases a with
    | finished | read => simp [nextAccess] at h2
    | change k f next =>
      simp only [nextAccess, Option.some.injEq, Prod.mk.injEq, and_true] at h2
      subst h2
      exact k2 _ k1.1
  have e2 : mayRead owner u s = true := by
    cases b with
    | finished => simp [nextAccess] at h4
    | read k g next =>
      simp only [nextAccess, Option.some.injEq, Prod.mk.injEq] at h4
      obtain ⟨rfl, _⟩ := h4
      exact l2 _ l1.1
    | change k f next =>
      simp only [nextAccess, Option.some.injEq, Prod.mk.injEq] at h4
      obtain ⟨rfl, _⟩ := h4
      exact l2 _ l1.2.1
  exact Decidable.byContradiction fun hne => mayRead_not e2 (fun e => hne e.symm) e1

/-- A thread inside a statement that gets turns finishes it. -/
theorem finishes (code : HeldCode) (P : Nat → CatchClient) (calls : Nat → Nat → Nat) (t : Nat) (a : Accesses) :
    ∀ c : HeldConfig, c.running t = some a → ∃ n o,
      (c.exec code P calls (List.replicate n t)).running t = none ∧
      (c.exec code P calls (List.replicate n t)).printed t = c.printed t ++ [o] := by
  induction a with
  | finished V o =>
    intro c h
    exact ⟨1, o, by simp [HeldConfig.exec, HeldConfig.go, h, upd_same]⟩
  | read s g next ih =>
    intro c h
    obtain ⟨n, o, h1, h2⟩ := ih ((c.memory s).glance g) (c.go code P calls t) (by
      simp only [HeldConfig.go, h, Accesses.once, upd_same])
    refine ⟨n + 1, o, ?_, ?_⟩
    · simpa [List.replicate_succ, HeldConfig.exec] using h1
    · have e : (c.go code P calls t).printed = c.printed := by simp [HeldConfig.go, h]
      rw [e] at h2
      simpa [List.replicate_succ, HeldConfig.exec] using h2
  | change s k next ih =>
    intro c h
    obtain ⟨n, o, h1, h2⟩ := ih (c.go code P calls t) (by
      simp only [HeldConfig.go, h, Accesses.once, upd_same])
    refine ⟨n + 1, o, ?_, ?_⟩
    · simpa [List.replicate_succ, HeldConfig.exec] using h1
    · have e : (c.go code P calls t).printed = c.printed := by simp [HeldConfig.go, h]
      rw [e] at h2
      simpa [List.replicate_succ, HeldConfig.exec] using h2

/-- C81: wherever the threads are, a thread that has a next statement, or is inside one, finishes it if it gets enough
turns. -/
theorem C81_progress (code : HeldCode) (P : Nat → CatchClient) (calls : Nat → Nat → Nat) (c : HeldConfig) (t : Nat)
    (h : c.running t ≠ none ∨ P t (c.printed t) ≠ none) : ∃ n o,
      (c.exec code P calls (List.replicate n t)).running t = none ∧
      (c.exec code P calls (List.replicate n t)).printed t = c.printed t ++ [o] := by
  cases hr : c.running t with
  | some a => exact finishes code P calls t a c hr
  | none =>
    cases hc : P t (c.printed t) with
    | none => simp [hr, hc] at h
    | some st =>
      obtain ⟨n, o, h1, h2⟩ := finishes code P calls t _ (c.go code P calls t) (by
        simp only [HeldConfig.go, hr, hc, upd_same]; rfl)
      refine ⟨n + 1, o, ?_, ?_⟩
      · simpa [List.replicate_succ, HeldConfig.exec] using h1
      · have e : (c.go code P calls t).printed = c.printed := by simp [HeldConfig.go, hr, hc]
        rw [e] at h2
        simpa [List.replicate_succ, HeldConfig.exec] using h2

/-- C81: for all encodings of the strings there is an implementation of all statements by single accesses. -/
theorem C81_implementation_exists (sort : SortFn) (τ : Nat → Spec.Kind) : ∃ code, Compiles sort τ code := by
  classical
  refine ⟨copyHeld τ fun M k st =>
    if h : ∃ r N, ∀ fuel, N ≤ fuel → M.execX sort fuel k st = .ok r then some h.choose else none, ?_⟩
  refine copyHeld_compiles sort τ _ fun M k st r N h => ?_
  have hex : ∃ r N, ∀ fuel, N ≤ fuel → M.execX sort fuel k st = .ok r := ⟨r, N, h⟩
  rw [dif_pos hex]
  obtain ⟨N', h'⟩ := hex.choose_spec
  have e1 := h' (max N N') (by omega)
  rw [h (max N N') (by omega)] at e1
  simp only [Res.ok.injEq] at e1
  rw [← e1]

/-- Non-vacuity: the threads of Properties/HeldThreads.lean. -/
example (ts : List Nat) (h : ∀ t, ts.count t ≤ forkSchedule.count t) :=
  C81_any_granularity sampleKinds insSort insSort_stable.1 forkFirst (fun _ => 9) 9 (fun _ => []) (by simp)
  forkFirst_allowed forkWorld.1 forkWorld.2 (idealCatch_spec _ _ _ _ _ _ forkFirst_allowed) forkOwner forkThreads forkCalls
  ts fun t => mayRunOwned_le (h t) (forkThreads_allowed t)

/-- The implementation of `C81_implementation_exists`, for loops of at most 20 rounds. -/
def copyAt (τ : Nat → Spec.Kind) : HeldCode := copyHeld τ fun M k st =>
  match M.execX insSort 20 k st with
  | .ok r => some r
  | _ => none

/-- Run a first program and threads access by access; what each of the threads prints, and which are inside a statement. -/
def accessPrints (first : CatchClient) (P : Nat → CatchClient) (calls : Nat → Nat → Nat) (can : Nat → Nat → Bool)
    (ts : List Nat) : Option (List (List (Option Obs)) × List Bool) :=
  match HeldMachine.runX insSort 20 first (fun _ => 9) 9 (HeldMachine.start fun s => Spec.stored (sampleKinds s) []) [] with
  | .ok (M, _) =>
    let c := (M.spawn can).exec (copyAt sampleKinds) P calls ts
    some ([0, 1, 2, 3].map c.printed, [0, 1, 2, 3].map fun t => (c.running t).isSome)
  | _ => none

/-- A schedule that switches after every access: after 53 turns three threads are inside a statement, after 500 all have
finished and have printed what they print in Properties/HeldThreads.lean. -/
example :
    (accessPrints forkFirst forkThreads forkCalls (mayRead forkOwner) ((List.range 53).map (· % 4))).map (·.2) =
      some [false, true, true, true] ∧
    (accessPrints forkFirst forkThreads forkCalls (mayRead forkOwner) ((List.range 500).map (· % 4))) = some ([[],
    [none, some .none, none, some .none, some (.number 3)],
    [some (.codepoints [0x65]), some .none, some .none, some (.codepoints [0x20AC]), some .none, some .none, some .none,
     some .none, some (.codepoints [0x79, 0xE8]), some .none, some (.codepoints [0x79, 0xE8, 0x7A])],
    [some (.codepoints [0x65, 0x301]), some .none, some (.codepoints [0x20AC]), some (.number 2)]],
    [false, false, false, false]) := by decide +kernel

/-- C81: the owners are needed. A thread reads a string that another changes by `transform`. Whole statements give one of
two texts; switched between accesses, the reader sees a third, which the string never held before or after a statement. -/
theorem C81_needs_owners :
    let P : Nat → CatchClient := fun t os =>
      if t = 0 then ([.op (.transform 0 fun c => if c < 0x80 then c + 1 else c)] : List HeldStmt)[os.length]?
      else if t = 1 then ([.op (.read (.whole 0))] : List HeldStmt)[os.length]? else none
    let whole := fun ts => forkPrints forkFirst P (fun _ _ => 9) (fun _ _ => true) ts
    let split := fun ts => (accessPrints forkFirst P (fun _ _ => 9) (fun _ _ => true) ts).map (·.1)
    whole [0, 1] = some [[some .none], [some (.codepoints [0x66, 0x301, 0x20AC, 0x62, 0x63])], [], []] ∧
    whole [1, 0] = some [[some .none], [some (.codepoints [0x65, 0x301, 0x20AC, 0x61, 0x62])], [], []] ∧
    split (List.replicate 18 0 ++ List.replicate 30 1 ++ List.replicate 30 0) =
      some [[some .none], [some (.codepoints [0x66, 0x301, 0x20AC])], [], []] := by decide +kernel

/-- What an element of a string of this kind keeps of a value: of a UTF-8 string its low 8 bits. -/
def keeps : Text → Int → Int
  | .utf8 _, v => v.toNat % 256
  | .utf32 _, v => v

/-- C81: the memory the accesses work on. A change of one element, one more element, the removal of all and the
invalidation of the views change what they say they change and nothing else, as far as reads can tell. -/
theorem C81_accesses (c : HeldCell) (i : Nat) (v : Int) (g : Glance) (n : Nat)
    (hn : c.glance .size = some (n : Int)) :
    (c.stroke (.store i v)).glance g = (if g = .unit i ∧ i < n then some (keeps c.text v) else c.glance g) ∧
    (c.stroke (.push v)).glance g = (if g = .size then some ((n : Int) + 1) else
      if g = .unit n then some (keeps c.text v) else c.glance g) ∧
    (c.stroke .clear).glance g = (match g with
      | .size => some 0
      | .unit _ => none
      | .count => c.glance .count) ∧
    (c.stroke .invalidate).glance g = (if g = .count then (c.glance .count).map (· + 1) else c.glance g) := by
  obtain ⟨t, m⟩ := c
  cases t with
  | utf8 l =>
    have hn' : l.length = n := by
      simp only [HeldCell.glance, Text.size, Option.some.injEq] at hn
      exact Int.ofNat.inj hn
    subst hn'
    refine ⟨?_, ?_, ?_, ?_⟩ <;> cases g <;> simp [HeldCell.glance, HeldCell.stroke, Text.size, keeps]
    · rename_i k
      by_cases h : k = i
      · subst h
        by_cases hk : k < l.length
        · simp [hk]
        · simp [hk]
      · simp [h, List.getElem?_set, Ne.symm h]
    · rename_i k
      by_cases h : k = l.length
      · subst h; simp
      · simp only [h, if_false]
        by_cases hk : k < l.length
        · rw [List.getElem?_append_left hk]
        · rw [List.getElem?_eq_none (by simp; omega), List.getElem?_eq_none (by omega)]
  | utf32 l =>
    have hn' : l.length = n := by
      simp only [HeldCell.glance, Text.size, Option.some.injEq] at hn
      exact Int.ofNat.inj hn
    subst hn'
    refine ⟨?_, ?_, ?_, ?_⟩ <;> cases g <;> simp [HeldCell.glance, HeldCell.stroke, Text.size, keeps]
    · rename_i k
      by_cases h : k = i
      · subst h
        by_cases hk : k < l.length
        · simp [hk]
        · simp [hk]
      · simp [h, List.getElem?_set, Ne.symm h]
    · rename_i k
      by_cases h : k = l.length
      · subst h; simp
      · simp only [h, if_false]
        by_cases hk : k < l.length
        · rw [List.getElem?_append_left hk]
        · rw [List.getElem?_eq_none (by simp; omega), List.getElem?_eq_none (by omega)]

example := C81_accesses ⟨.utf8 [0x61, 0xC3, 0xA9], 4⟩ 1 0x141 (.unit 1) 3 rfl

end U5e
