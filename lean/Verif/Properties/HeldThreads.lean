import Verif.Model.HeldThreads
import Verif.Spec.HeldThreads
import Verif.Properties.HeldThrow
import Verif.Properties.ViewThreads
/-!
# C80: threads whose programs hold views and iterators and catch exceptions
-/
namespace U5e
open Spec

/-- The same variables, other strings. -/
abbrev withStrings (w : HeldWorld) (σ : Nat → List Nat) : HeldWorld := { w with strings := σ }

section locality
variable {σ σ' : Nat → List Nat} {w : HeldWorld}

theorem text_congr {src : Src} (h : σ src.string = σ' src.string) : text σ src = text σ' src := by
  cases src <;> simp only [Src.string] at h <;> simp only [text, h]

theorem inside_congr {src : Src} (h : σ src.string = σ' src.string) : Spec.Inside σ src ↔ Spec.Inside σ' src := by
  cases src <;> simp only [Src.string] at h <;> simp only [Spec.Inside, h]

theorem after_congr {src : Src} (h : σ src.string = σ' src.string) : Spec.after σ src = Spec.after σ' src := by
  cases src <;> simp only [Src.string] at h <;> simp only [Spec.after, h]

theorem delimited_congr {U : Ucd} {src : Src} (h : σ src.string = σ' src.string) :
    U.Delimited σ src ↔ U.Delimited σ' src := by simp only [Ucd.Delimited, text_congr h, after_congr h]

theorem slice_congr {src : Src} (h : σ src.string = σ' src.string) : slice σ src = slice σ' src := by
  cases src <;> simp only [Src.string] at h <;> simp only [slice, h]

theorem slice_string (σ : Nat → List Nat) (src : Src) : (slice σ src).string = src.string := by cases src <;> rfl

theorem permitted_congr {U : Ucd} {τ : Nat → Spec.Kind} {op : VOp} (h : ∀ s ∈ touchesV op, σ s = σ' s) :
    U.Permitted τ σ op ↔ U.Permitted τ σ' op := by
  cases op <;> simp only [touchesV, List.mem_cons, List.not_mem_nil, or_false, forall_eq_or_imp, forall_eq] at h
  case normalize F d src =>
    simp only [Ucd.Permitted, text_congr h.2, inside_congr h.2, delimited_congr h.2]
  all_goals first
    | exact Iff.rfl
    | (simp only [Ucd.Permitted, h]; done)
    | (simp only [Ucd.Permitted, text_congr h, inside_congr h, delimited_congr h]; done)
    | (simp only [Ucd.Permitted, text_congr h, inside_congr h]; done)
    | (simp only [Ucd.Permitted, inside_congr h]; done)
    | (simp only [Ucd.Permitted, text_congr h.2, inside_congr h.2]; done)
    | (simp only [Ucd.Permitted, inside_congr h.2]; done)
    | (simp only [Ucd.Permitted, inside_congr h.1, inside_congr h.2]; done)

/-- `σ'` with the string `d` as in `σ`. -/
def take1 (σ σ' : Nat → List Nat) (d : Option Nat) : Nat → List Nat := fun s => if d = some s then σ s else σ' s

theorem take1_put {d : Nat} {cs : List Nat} : take1 (Spec.put σ d cs) σ' (some d) = Spec.put σ' d cs := by
  funext s
  by_cases h : s = d
  · simp [take1, Spec.put, h]
  · simp only [take1, Spec.put, h, if_false, Option.some.injEq]; exact if_neg fun e => h e.symm

theorem take1_none : take1 σ σ' none = σ' := by funext s; simp [take1]

theorem take1_self {d : Option Nat} : take1 σ σ d = σ := by funext s; simp [take1]

theorem ideal_local {U : Ucd} {op : VOp} {σ1 : Nat → List Nat} {o : Obs} (h : ∀ s ∈ touchesV op, σ s = σ' s)
    (hi : U.IdealV σ op σ1 o) : U.IdealV σ' op (take1 σ1 σ' (changesV op)) o := by
  cases op <;> simp only [touchesV, List.mem_cons, List.not_mem_nil, or_false, forall_eq_or_imp, forall_eq] at h
  case copy => obtain ⟨rfl, rfl⟩ := hi; exact ⟨by simp only [changesV, take1_put, h], rfl⟩
  case clear => obtain ⟨rfl, rfl⟩ := hi; exact ⟨by simp only [changesV, take1_put], rfl⟩
  case append => obtain ⟨rfl, rfl⟩ := hi; exact ⟨by simp only [changesV, take1_put, h.1, text_congr h.2], rfl⟩
  case convert => obtain ⟨rfl, rfl⟩ := hi; exact ⟨by simp only [changesV, take1_put, h.1, text_congr h.2], rfl⟩
  case appendCps => obtain ⟨⟨cs, hc, rfl⟩, rfl⟩ := hi; exact ⟨⟨cs, hc, by simp only [changesV, take1_put, h]⟩, rfl⟩
  case appendGraphemes =>
    obtain ⟨⟨gs, hg, rfl⟩, rfl⟩ := hi
    exact ⟨⟨gs, by rwa [← text_congr h.2], by simp only [changesV, take1_put, h.1]⟩, rfl⟩
  case normalize =>
    obtain ⟨gs, ns, hg, hn, rfl, rfl⟩ := hi
    exact ⟨gs, ns, by rwa [← text_congr h.2], hn, by simp only [changesV, take1_put, h.1], rfl⟩
  case write => obtain ⟨⟨n, hc, rfl⟩, rfl⟩ := hi; exact ⟨⟨n, hc, by simp only [changesV, take1_put, h]⟩, rfl⟩
  case transform =>
    obtain ⟨⟨cs, hc, rfl⟩, rfl⟩ := hi
    exact ⟨⟨cs, by rwa [← h], by simp only [changesV, take1_put]⟩, rfl⟩
  case readGraphemes =>
    obtain ⟨rfl, gs, hg, rfl⟩ := hi
    exact ⟨take1_none, gs, by rwa [← text_congr h], rfl⟩
  case equal => obtain ⟨rfl, rfl⟩ := hi; exact ⟨take1_none, by rw [text_congr h.1, text_congr h.2]⟩
  case less => obtain ⟨rfl, rfl⟩ := hi; exact ⟨take1_none, by rw [text_congr h.1, text_congr h.2]⟩
  case read => obtain ⟨rfl, rfl⟩ := hi; exact ⟨take1_none, by rw [text_congr h]⟩
  case readBack => obtain ⟨rfl, rfl⟩ := hi; exact ⟨take1_none, by rw [text_congr h]⟩
  case countIf => obtain ⟨rfl, rfl⟩ := hi; exact ⟨take1_none, by rw [text_congr h]⟩

theorem needs_congr {U : Ucd} {τ : Nat → Spec.Kind} {op : VOp} {n : Nat} (h : ∀ s ∈ touchesV op, σ s = σ' s) :
    U.NeedsV τ σ op n ↔ U.NeedsV τ σ' op n := by
  cases op <;> simp only [touchesV, List.mem_cons, List.not_mem_nil, or_false, forall_eq_or_imp, forall_eq] at h
  case convert => simp only [Ucd.NeedsV, text_congr h.2]
  case normalize => simp only [Ucd.NeedsV, text_congr h.2]
  all_goals exact Iff.rfl

theorem interrupted_local {U : Ucd} {τ : Nat → Spec.Kind} {op : VOp} {k : Nat} {σ1 : Nat → List Nat}
    (h : ∀ s ∈ touchesV op, σ s = σ' s) (hi : U.InterruptedV τ σ op k σ1) :
    U.InterruptedV τ σ' op k (take1 σ1 σ' (changesV op)) := by
  have same : ∀ d, (σ d = σ' d) → take1 σ σ' (some d) = σ' := by
    intro d hd; funext s; simp only [take1]; split
    · rename_i e; obtain rfl := Option.some.inj e; exact hd
    · rfl
  cases op <;> simp only [touchesV, List.mem_cons, List.not_mem_nil, or_false, forall_eq_or_imp, forall_eq] at h
  case copy => obtain ⟨hk, rfl⟩ := hi; exact ⟨hk, same _ h.1⟩
  case append => obtain ⟨hk, rfl⟩ := hi; exact ⟨hk, same _ h.1⟩
  case appendGraphemes => obtain ⟨hk, rfl⟩ := hi; exact ⟨hk, same _ h.1⟩
  case appendCps => obtain ⟨cs, hc, hk, rfl⟩ := hi; exact ⟨cs, hc, hk, by simp only [changesV, take1_put, h]⟩
  case convert =>
    obtain ⟨hk, rfl⟩ := hi
    exact ⟨by rwa [← text_congr h.2], by simp only [changesV, take1_put, h.1, text_congr h.2]⟩
  case normalize =>
    obtain ⟨p, g, q, hg, h1, h2, rfl⟩ := hi
    exact ⟨p, g, q, by rwa [← text_congr h.2], h1, h2, by simp only [changesV, take1_put, h.1]⟩
  all_goals exact hi.elim

theorem source_strings (pl : Place) : (withStrings w σ).source pl = w.source pl := by cases pl <;> rfl

theorem plain_strings (op : HeldOp) : (withStrings w σ).plain op = w.plain op := by
  cases op <;> simp only [HeldWorld.plain, source_strings]

theorem touches_strings (st : HeldStmt) : touchesHeld (withStrings w σ) st = touchesHeld w st := by
  cases st <;> simp only [touchesHeld, source_strings, plain_strings]

theorem changes_strings (st : HeldStmt) : changesHeld (withStrings w σ) st = changesHeld w st := by
  cases st <;> simp only [changesHeld, plain_strings]

theorem fits_strings (pl : Place) : (withStrings w σ).Fits pl ↔ w.Fits pl := by cases pl <;> exact Iff.rfl

theorem may_local {U : Ucd} {τ : Nat → Spec.Kind} {st : HeldStmt} (h : ∀ s ∈ touchesHeld w st, w.strings s = σ s)
    (ha : U.MayHeld τ w st) : U.MayHeld τ (withStrings w σ) st := by
  cases st with
  | op op =>
    obtain ⟨⟨op', hp, hperm⟩, hf⟩ := ha
    simp only [touchesHeld, hp] at h
    exact ⟨⟨op', by rw [plain_strings]; exact hp, (permitted_congr h).mp hperm⟩, fun src hs => (fits_strings src).mpr (hf src hs)⟩
  | hold _ pl | first _ pl | last _ pl | gfirst _ pl =>
    obtain ⟨⟨x, hx, hin⟩, hf⟩ := ha
    simp only [touchesHeld, hx, List.mem_singleton, forall_eq] at h
    exact ⟨⟨x, by rw [source_strings]; exact hx, (inside_congr h).mp hin⟩, (fits_strings pl).mpr hf⟩
  | glast g pl =>
    obtain ⟨⟨x, hx, hin, hd⟩, hf⟩ := ha
    simp only [touchesHeld, hx, List.mem_singleton, forall_eq] at h
    exact ⟨⟨x, by rw [source_strings]; exact hx, (inside_congr h).mp hin, (delimited_congr h).mp hd⟩, (fits_strings pl).mpr hf⟩
  | next i | get i | mnext i | mget i =>
    obtain ⟨x, hx, hlt⟩ := ha
    simp only [touchesHeld, hx, List.mem_singleton, forall_eq] at h
    exact ⟨x, hx, by simp only [← h]; exact hlt⟩
  | mset m c =>
    obtain ⟨x, hx, hperm, hw⟩ := ha
    simp only [touchesHeld, hx, List.mem_singleton, forall_eq] at h
    refine ⟨x, hx, (permitted_congr (by simpa [touchesV] using h)).mp hperm, ?_⟩
    show _ → _ → ∀ old, (σ x.string)[x.index]? = some old → _
    rw [← h]; exact hw
  | assign | prev | same | gassign | gnext | gget | gstart | gstop | gsame | mfirst | mlast | massign | mprev | msame => exact ha

theorem stored_strings (d : Option Nat) (σ1 σ2 σ3 : Nat → List Nat) :
    withStrings (w.stored σ1 d) σ2 = (withStrings w σ3).stored σ2 d := by cases d <;> rfl

/-- What a statement does depends only on the strings it touches. -/
theorem does_local {U : Ucd} {st : HeldStmt} {w1 : HeldWorld} {o : Obs} (h : ∀ s ∈ touchesHeld w st, w.strings s = σ s)
    (hd : U.DoesHeld w st w1 o) :
    U.DoesHeld (withStrings w σ) st (withStrings w1 (take1 w1.strings σ (changesHeld w st))) o := by
  cases st with
  | op op =>
    obtain ⟨op', σ1, hp, hi, rfl⟩ := hd
    simp only [touchesHeld, hp] at h
    refine ⟨op', take1 σ1 σ (changesV op'), by rw [plain_strings]; exact hp, ideal_local h hi, ?_⟩
    have e : (w.stored σ1 (storesIn op)).strings = σ1 := by cases storesIn op <;> rfl
    simp only [changesHeld, hp, e]
    exact stored_strings _ _ _ _
  | mset m c =>
    obtain ⟨x, σ1, hx, hi, rfl⟩ := hd
    simp only [touchesHeld, hx, List.mem_singleton, forall_eq] at h
    refine ⟨x, take1 σ1 σ (some x.string), hx, ideal_local (by simpa [touchesV] using h) hi, ?_⟩
    simp only [changesHeld, hx]
    rfl
  | hold _ pl | first _ pl | last _ pl | glast _ pl =>
    obtain ⟨x, hx, rfl, rfl⟩ := hd
    simp only [touchesHeld, hx, List.mem_singleton, forall_eq] at h
    refine ⟨x, by rw [source_strings]; exact hx, ?_, rfl⟩
    simp only [changesHeld, take1_none, ← slice_congr h]
    rfl
  | gfirst _ pl =>
    obtain ⟨x, n, hx, hl, rfl, rfl⟩ := hd
    simp only [touchesHeld, hx, List.mem_singleton, forall_eq] at h
    refine ⟨x, n, by rw [source_strings]; exact hx, by rw [← text_congr h]; exact hl, ?_, rfl⟩
    simp only [changesHeld, take1_none, ← slice_congr h]
    rfl
  | assign | next | prev | gassign | gstart | gstop | massign | mnext | mprev =>
    obtain ⟨x, hx, rfl, rfl⟩ := hd
    refine ⟨x, hx, ?_, rfl⟩
    simp only [changesHeld, take1_none]
    rfl
  | get | mget =>
    obtain ⟨x, c, hx, hc, rfl, rfl⟩ := hd
    simp only [touchesHeld, hx, List.mem_singleton, forall_eq] at h
    refine ⟨x, c, hx, by simp only [← h]; exact hc, ?_, rfl⟩
    simp only [changesHeld, take1_none]
  | gget =>
    obtain ⟨x, hx, rfl, rfl⟩ := hd
    simp only [touchesHeld, hx, List.mem_singleton, forall_eq] at h
    refine ⟨x, hx, ?_, by simp only [h]⟩
    simp only [changesHeld, take1_none]
  | gnext =>
    obtain ⟨x, n, hx, hl, rfl, rfl⟩ := hd
    simp only [touchesHeld, hx, List.mem_singleton, forall_eq] at h
    refine ⟨x, n, hx, by simp only [← h]; exact hl, ?_, rfl⟩
    simp only [changesHeld, take1_none]
    rfl
  | same | msame =>
    obtain ⟨x, y, hx, hy, rfl, rfl⟩ := hd
    exact ⟨x, y, hx, hy, by simp only [changesHeld, take1_none], rfl⟩
  | gsame =>
    obtain ⟨x, y, b, hx, hy, hb, rfl, rfl⟩ := hd
    exact ⟨x, y, b, hx, hy, hb, by simp only [changesHeld, take1_none], rfl⟩
  | mfirst m s =>
    obtain ⟨rfl, rfl⟩ := hd
    refine ⟨?_, rfl⟩
    simp only [changesHeld, take1_none]
    rfl
  | mlast m s =>
    obtain ⟨rfl, rfl⟩ := hd
    simp only [touchesHeld, List.mem_singleton, forall_eq] at h
    refine ⟨?_, rfl⟩
    simp only [changesHeld, take1_none, h]
    rfl

/-- The same when exceptions are caught. -/
theorem catch_local {U : Ucd} {τ : Nat → Spec.Kind} {st : HeldStmt} {k : Nat} {w1 : HeldWorld} {o : Option Obs}
    (h : ∀ s ∈ touchesHeld w st, w.strings s = σ s) (hd : U.DoesCatch τ w st k w1 o) :
    U.DoesCatch τ (withStrings w σ) st k (withStrings w1 (take1 w1.strings σ (changesHeld w st))) o := by
  rcases hd with ⟨o1, rfl, hd, hn⟩ | ⟨op, op', σ1, rfl, hp, hi, rfl, rfl⟩
  · refine .inl ⟨o1, rfl, does_local h hd, fun op op' e hp => ?_⟩
    rw [plain_strings] at hp
    obtain ⟨n, h1, h2⟩ := hn op op' e hp
    subst e
    simp only [touchesHeld, hp] at h
    exact ⟨n, (needs_congr h).mp h1, h2⟩
  · simp only [touchesHeld, hp] at h
    refine .inr ⟨op, op', take1 σ1 σ (changesV op'), rfl, by rw [plain_strings]; exact hp, interrupted_local h hi, ?_, rfl⟩
    have e : (w.stored σ1 (storesIn op)).strings = σ1 := by cases storesIn op <;> rfl
    simp only [changesHeld, hp, e]
    exact stored_strings _ _ _ _

/-- Nothing changes but the string the statement may change. -/
theorem catch_frame {sort : SortFn} {τ : Nat → Spec.Kind} {st : HeldStmt} {k : Nat} {w1 : HeldWorld} {o : Option Obs}
    (hd : (libraryData sort).DoesCatch τ w st k w1 o) :
    w1.strings = take1 w1.strings w.strings (changesHeld w st) := by
  have h1 := catch_local (σ := w.strings) (fun _ _ => rfl) hd
  obtain ⟨e, _⟩ := does_catch_unique hd h1
  exact congrArg HeldWorld.strings e

/-- All variables with a value belong to strings of `can`. -/
structure Confined (can : Nat → Bool) (w : HeldWorld) : Prop where
  view : ∀ v x, w.views v = some x → can x.string = true
  it : ∀ v x, w.its v = some x → can x.string = true
  git : ∀ v x, w.gits v = some x → can x.string = true
  mit : ∀ v x, w.mits v = some x → can x.string = true

theorem Confined.stored {can : Nat → Bool} (c : Confined can w) (σ : Nat → List Nat) (d : Option Nat) :
    Confined can (w.stored σ d) := by
  cases d with
  | none => exact ⟨c.view, c.it, c.git, c.mit⟩
  | some d =>
    exact ⟨fun v x h => c.view v x (Option.filter_eq_some_iff.mp h).1, fun v x h => c.it v x (Option.filter_eq_some_iff.mp h).1,
      fun v x h => c.git v x (Option.filter_eq_some_iff.mp h).1, fun v x h => c.mit v x (Option.filter_eq_some_iff.mp h).1⟩

theorem ite_some {α : Type} {P : α → Prop} {f : Nat → Option α} {i v : Nat} {x y : α} (hy : P y)
    (h : ∀ v x, f v = some x → P x) (e : (if v = i then some y else f v) = some x) : P x := by
  split at e
  · obtain rfl := Option.some.inj e; exact hy
  · exact h v x e

theorem Confined.setView {can : Nat → Bool} (c : Confined can w) (v : Nat) {x : Slice} (h : can x.string = true) :
    Confined can (w.setView v x) := ⟨fun _ _ e => ite_some (P := fun x => can x.string = true) h c.view e, c.it, c.git, c.mit⟩

theorem Confined.setIt {can : Nat → Bool} (c : Confined can w) (v : Nat) {x : Mark} (h : can x.string = true) :
    Confined can (w.setIt v x) := ⟨c.view, fun _ _ e => ite_some (P := fun x => can x.string = true) h c.it e, c.git, c.mit⟩

theorem Confined.setGit {can : Nat → Bool} (c : Confined can w) (v : Nat) {x : Sweep} (h : can x.string = true) :
    Confined can (w.setGit v x) := ⟨c.view, c.it, fun _ _ e => ite_some (P := fun x => can x.string = true) h c.git e, c.mit⟩

theorem Confined.setMit {can : Nat → Bool} (c : Confined can w) (v : Nat) {x : Pen} (h : can x.string = true) :
    Confined can (w.setMit v x) := ⟨c.view, c.it, c.git, fun _ _ e => ite_some (P := fun x => can x.string = true) h c.mit e⟩

theorem Confined.does {can : Nat → Bool} (c : Confined can w) {U : Ucd} {st : HeldStmt} {w1 : HeldWorld} {o : Obs}
    (h : ∀ s ∈ touchesHeld w st, can s = true) (hd : U.DoesHeld w st w1 o) : Confined can w1 := by
  cases st with
  | op op => obtain ⟨op', σ1, hp, hi, rfl⟩ := hd; exact c.stored _ _
  | mset m _ => obtain ⟨x, σ1, hx, hi, rfl⟩ := hd; exact (c.stored _ _).setMit _ (c.mit _ x hx)
  | hold _ pl =>
    obtain ⟨x, hx, rfl, rfl⟩ := hd
    simp only [touchesHeld, hx, List.mem_singleton, forall_eq] at h
    exact c.setView _ (by rw [slice_string]; exact h)
  | first _ pl | last _ pl =>
    obtain ⟨x, hx, rfl, rfl⟩ := hd
    simp only [touchesHeld, hx, List.mem_singleton, forall_eq] at h
    exact c.setIt _ (by simp only [slice_string]; exact h)
  | glast _ pl =>
    obtain ⟨x, hx, rfl, rfl⟩ := hd
    simp only [touchesHeld, hx, List.mem_singleton, forall_eq] at h
    exact c.setGit _ (by simp only [slice_string]; exact h)
  | gfirst _ pl =>
    obtain ⟨x, n, hx, hl, rfl, rfl⟩ := hd
    simp only [touchesHeld, hx, List.mem_singleton, forall_eq] at h
    exact c.setGit _ (by simp only [slice_string]; exact h)
  | assign | next | prev => obtain ⟨x, hx, rfl, rfl⟩ := hd; exact c.setIt _ (c.it _ x hx)
  | gassign => obtain ⟨x, hx, rfl, rfl⟩ := hd; exact c.setGit _ (c.git _ x hx)
  | gstart | gstop => obtain ⟨x, hx, rfl, rfl⟩ := hd; exact c.setIt _ (c.git _ x hx)
  | massign | mnext | mprev => obtain ⟨x, hx, rfl, rfl⟩ := hd; exact c.setMit _ (c.mit _ x hx)
  | gnext => obtain ⟨x, n, hx, hl, rfl, rfl⟩ := hd; exact c.setGit _ (c.git _ x hx)
  | get | mget => obtain ⟨x, y, _, _, rfl, rfl⟩ := hd; exact c
  | same | msame => obtain ⟨x, y, _, _, rfl, rfl⟩ := hd; exact c
  | gget => obtain ⟨x, _, rfl, rfl⟩ := hd; exact c
  | gsame => obtain ⟨x, y, b, _, _, _, rfl, rfl⟩ := hd; exact c
  | mfirst m s => obtain ⟨rfl, rfl⟩ := hd; exact c.setMit _ (by simpa [touchesHeld] using h)
  | mlast m s => obtain ⟨rfl, rfl⟩ := hd; exact c.setMit _ (by simpa [touchesHeld] using h)

theorem Confined.catch {can : Nat → Bool} (c : Confined can w) {U : Ucd} {τ : Nat → Spec.Kind} {st : HeldStmt} {k : Nat}
    {w1 : HeldWorld} {o : Option Obs} (h : ∀ s ∈ touchesHeld w st, can s = true) (hd : U.DoesCatch τ w st k w1 o) :
    Confined can w1 := by
  rcases hd with ⟨o1, rfl, hd, hn⟩ | ⟨op, op', σ1, rfl, hp, hi, rfl, rfl⟩
  · exact c.does h hd
  · exact c.stored _ _

end locality

/-- A statement stores only into the string it may change. -/
theorem stores_changes {op : HeldOp} {op' : VOp} {w : HeldWorld} (hp : w.plain op = some op') {d : Nat}
    (h : storesIn op = some d) : changesHeld w (.op op) = some d := by
  simp only [changesHeld, hp]
  cases op <;> simp only [storesIn, Option.some.injEq, reduceCtorEq] at h
  all_goals first
    | (obtain rfl := Option.some.inj hp; simp only [changesV, h]; done)
    | (obtain ⟨src, _, rfl⟩ := Option.map_eq_some_iff.mp hp; simp only [changesV, h])

/-- The counts of the strings that are not stored into stay. -/
theorem exec_gen {sort : SortFn} {fuel k : Nat} {st : HeldStmt} {M M1 : HeldMachine} {o : Option Obs}
    (h : M.execX sort fuel k st = .ok (M1, o)) (s : Nat) :
    M.gen s ≤ M1.gen s ∧ ((∀ op, st = .op op → storesIn op ≠ some s) → M1.gen s = M.gen s) := by
  have aft : ∀ op σ, M.gen s ≤ (M.after op σ).gen s ∧ (storesIn op ≠ some s → (M.after op σ).gen s = M.gen s) := by
    intro op σ
    cases hst : storesIn op with
    | none => rw [HeldMachine.after_none hst]; exact ⟨Nat.le_refl _, fun _ => rfl⟩
    | some d =>
      rw [HeldMachine.after_some hst]
      by_cases e : s = d
      · subst e; simp [upd]
      · simp [upd, e]
  cases st with
  | op op =>
    simp only [HeldMachine.execX] at h
    obtain ⟨c, _, h⟩ := Res.bind_eq_ok.mp h
    cases c with
    | threw σ =>
      simp only [Res.pure_eq, Res.ok.injEq, Prod.mk.injEq] at h
      obtain ⟨rfl, _⟩ := h
      exact ⟨(aft op σ).1, fun hno => (aft op σ).2 (hno op rfl)⟩
    | ret o1 σ k1 =>
      simp only [Res.pure_eq, Res.ok.injEq, Prod.mk.injEq] at h
      obtain ⟨rfl, _⟩ := h
      exact ⟨(aft op σ).1, fun hno => (aft op σ).2 (hno op rfl)⟩
  | _ =>
    suffices e : M1.gen = M.gen by rw [e]; exact ⟨Nat.le_refl _, fun _ => rfl⟩
    simp only [HeldMachine.execX] at h
    obtain ⟨⟨M2, o2⟩, hx, h⟩ := Res.bind_eq_ok.mp h
    simp only [Res.pure_eq, Res.ok.injEq, Prod.mk.injEq] at h
    obtain ⟨rfl, _⟩ := h
    simp only [HeldMachine.exec] at hx
    repeat' (first
      | (obtain ⟨_, _, hx⟩ := Res.bind_eq_ok.mp hx)
      | (split at hx)
      | cases hx; done)
    all_goals first
      | (simp only [Res.pure_eq, Res.ok.injEq, Prod.mk.injEq] at hx; obtain ⟨rfl, _⟩ := hx; rfl)
      | cases hx

variable {τ : Nat → Spec.Kind} {w : HeldWorld} {M : HeldMachine}

/-- Another thread's step: strings and counts may change where the variables do not point. -/
theorem HeldRel.elsewhere (r : HeldRel τ w M) {can : Nat → Bool} (c : Confined can w) {σ : Nat → List Nat} {gen : Nat → Nat}
    (hσ : Small σ) (hs : ∀ s, can s = true → σ s = w.strings s) (hg : ∀ s, can s = true → gen s = M.gen s)
    (hle : ∀ s, M.gen s ≤ gen s) :
    HeldRel τ (withStrings w σ) { M with strings := memory τ σ, gen := gen } := by
  refine ⟨rfl, hσ, fun v x hx => ?_, fun v hv s g p q hm => ?_, fun v x hx => ?_, fun v hv s g p hm => ?_,
    fun v x hx => ?_, fun v hv s g p hm => ?_, fun v x hx => ?_, fun v hv s g p hm => ?_⟩
  · simp only [hs _ (c.view v x hx), hg _ (c.view v x hx)]; exact r.view v x hx
  · exact Nat.lt_of_lt_of_le (r.noView v hv s g p q hm) (hle s)
  · simp only [hs _ (c.it v x hx), hg _ (c.it v x hx)]; exact r.it v x hx
  · exact Nat.lt_of_lt_of_le (r.noIt v hv s g p hm) (hle s)
  · simp only [hs _ (c.git v x hx), hg _ (c.git v x hx)]; exact r.git v x hx
  · exact Nat.lt_of_lt_of_le (r.noGit v hv s g p hm) (hle s)
  · simp only [hs _ (c.mit v x hx), hg _ (c.mit v x hx)]; exact r.mit v x hx
  · exact Nat.lt_of_lt_of_le (r.noMit v hv s g p hm) (hle s)

theorem filter_none {α : Type} {a : Option α} {f : α → Bool} (h : a.filter f = none) : a = none ∨ ∃ x, a = some x ∧ f x = false := by
  cases a with
  | none => exact .inl rfl
  | some x =>
    refine .inr ⟨x, rfl, ?_⟩
    rw [Option.filter_some] at h
    cases hf : f x
    · rfl
    · rw [hf] at h; cases h

/-- Copying the variables of some of the strings. -/
theorem HeldRel.given (r : HeldRel τ w M) (can : Nat → Bool) : HeldRel τ (w.given can) (M.given can) := by
  refine ⟨r.strings, r.small, fun v x hx => ?_, fun v hv s g p q hm => ?_, fun v x hx => ?_, fun v hv s g p hm => ?_,
    fun v x hx => ?_, fun v hv s g p hm => ?_, fun v x hx => ?_, fun v hv s g p hm => ?_⟩
  · obtain ⟨h1, h2⟩ := Option.filter_eq_some_iff.mp hx
    obtain ⟨h3, h4, h5⟩ := r.view v x h1
    exact ⟨h3, h4, by simp only [HeldMachine.given, h5, Option.filter_some, h2, if_true]; rfl⟩
  · obtain ⟨h1, h2⟩ := Option.filter_eq_some_iff.mp hm
    rcases filter_none hv with h3 | ⟨x, h3, h4⟩
    · exact r.noView v h3 s g p q h1
    · have := (r.view v x h3).2.2
      rw [h1] at this
      obtain ⟨rfl, _⟩ := Prod.mk.inj (Option.some.inj this)
      simp [h4] at h2
  · obtain ⟨h1, h2⟩ := Option.filter_eq_some_iff.mp hx
    obtain ⟨h3, h5⟩ := r.it v x h1
    exact ⟨h3, by simp only [HeldMachine.given, h5, Option.filter_some, h2, if_true]; rfl⟩
  · obtain ⟨h1, h2⟩ := Option.filter_eq_some_iff.mp hm
    rcases filter_none hv with h3 | ⟨x, h3, h4⟩
    · exact r.noIt v h3 s g p h1
    · have := (r.it v x h3).2
      rw [h1] at this
      obtain ⟨rfl, _⟩ := Prod.mk.inj (Option.some.inj this)
      simp [h4] at h2
  · obtain ⟨h1, h2⟩ := Option.filter_eq_some_iff.mp hx
    obtain ⟨h3, h5⟩ := r.git v x h1
    exact ⟨h3, by simp only [HeldMachine.given, h5, Option.filter_some, h2, if_true]; rfl⟩
  · obtain ⟨h1, h2⟩ := Option.filter_eq_some_iff.mp hm
    rcases filter_none hv with h3 | ⟨x, h3, h4⟩
    · exact r.noGit v h3 s g p h1
    · have := (r.git v x h3).2
      rw [h1] at this
      obtain ⟨rfl, _⟩ := Prod.mk.inj (Option.some.inj this)
      simp [h4] at h2
  · obtain ⟨h1, h2⟩ := Option.filter_eq_some_iff.mp hx
    obtain ⟨q, h5, h3⟩ := r.mit v x h1
    exact ⟨q, by simp only [HeldMachine.given, h5, Option.filter_some, h2, if_true], h3⟩
  · obtain ⟨h1, h2⟩ := Option.filter_eq_some_iff.mp hm
    rcases filter_none hv with h3 | ⟨x, h3, h4⟩
    · exact r.noMit v h3 s g p h1
    · obtain ⟨q, this, _⟩ := r.mit v x h3
      rw [h1] at this
      obtain ⟨rfl, _⟩ := Prod.mk.inj (Option.some.inj this)
      simp [h4] at h2

theorem given_confined (w : HeldWorld) (can : Nat → Bool) : Confined can (w.given can) :=
  ⟨fun _ _ h => (Option.filter_eq_some_iff.mp h).2, fun _ _ h => (Option.filter_eq_some_iff.mp h).2,
    fun _ _ h => (Option.filter_eq_some_iff.mp h).2, fun _ _ h => (Option.filter_eq_some_iff.mp h).2⟩

/-- The strings of all threads together, `σ` being those nobody changes and `W t` the world of thread `t` alone. -/
def together (owner : Nat → Option Nat) (σ : Nat → List Nat) (W : Nat → HeldWorld) : Nat → List Nat := fun s =>
  match owner s with
  | some t => (W t).strings s
  | none => σ s

/-- The threads on the shared strings, and each thread alone. -/
structure PoolRel (τ : Nat → Spec.Kind) (owner : Nat → Option Nat) (σ : Nat → List Nat) (W : Nat → HeldWorld) (p : HeldPool) :
    Prop where
  rel : ∀ t, HeldRel τ (withStrings (W t) (together owner σ W)) (p.machine t)
  base : ∀ t s, owner s = none → (W t).strings s = σ s
  confined : ∀ t, Confined (mayRead owner t) (W t)

theorem PoolRel.agree {owner : Nat → Option Nat} {σ : Nat → List Nat} {W : Nat → HeldWorld} {p : HeldPool}
    (r : PoolRel τ owner σ W p) {t s : Nat} (h : mayRead owner t s = true) : (W t).strings s = together owner σ W s := by
  simp only [mayRead, Bool.or_eq_true, beq_iff_eq] at h
  rcases h with h | h
  · simp only [together, h]; exact r.base t s h
  · simp only [together, h]

/-- One statement of thread `t`. -/
theorem PoolRel.step {owner : Nat → Option Nat} {σ : Nat → List Nat} {W : Nat → HeldWorld} {p : HeldPool}
    (r : PoolRel τ owner σ W p) {sort : SortFn} (hs : ConformingSort sort) (t : Nat) (st : HeldStmt) (k : Nat)
    (ha : (libraryData sort).MayHeld τ (W t) st) (hr : Respects owner t (W t) st) :
    ∃ w1 o M1 N, (libraryData sort).DoesCatch τ (W t) st k w1 o ∧
      (∀ fuel, N ≤ fuel → (p.machine t).execX sort fuel k st = .ok (M1, o)) ∧
      ∀ os, PoolRel τ owner σ (upd W t w1) ⟨M1.strings, M1.gen, upd p.own t M1, os⟩ := by
  have hag : ∀ s ∈ touchesHeld (W t) st, (W t).strings s = together owner σ W s := fun s h => r.agree (hr.1 s h)
  obtain ⟨wg, o, M1, N, hd, r1, hN⟩ := execX_held (r.rel t) hs st (may_local hag ha) k
  have hch : changesHeld (withStrings (W t) (together owner σ W)) st = changesHeld (W t) st := changes_strings st
  have hto : touchesHeld (withStrings (W t) (together owner σ W)) st = touchesHeld (W t) st := touches_strings st
  have hfr := catch_frame hd
  rw [hch] at hfr
  have hloc := catch_local (σ := (W t).strings) (fun s h => (hag s (hto ▸ h)).symm) hd
  rw [hch] at hloc
  refine ⟨withStrings wg (take1 wg.strings (W t).strings (changesHeld (W t) st)), o, M1, N, hloc, hN, fun os => ?_⟩
  have hglob : wg.strings = together owner σ (upd W t (withStrings wg (take1 wg.strings (W t).strings (changesHeld (W t) st)))) := by
    funext s
    by_cases hc : changesHeld (W t) st = some s
    · simp only [together, hr.2 s hc, upd, if_true, take1, hc]
    · have e1 := congrFun hfr s
      simp only [take1, hc, if_false] at e1
      rw [e1]
      simp only [together]
      cases ho : owner s with
      | none => rfl
      | some u =>
        by_cases hu : u = t
        · subst hu; simp only [upd, if_true, take1, hc, if_false]
        · simp only [upd, hu, if_false]
  have hgen := exec_gen (hN N (Nat.le_refl _))
  have hstay : ∀ s, owner s ≠ some t → M1.gen s = p.gen s := by
    intro s ho
    refine (hgen s).2 fun op e hst => ho (hr.2 s ?_)
    subst e
    obtain ⟨⟨op', hp, _⟩, _⟩ := ha
    exact stores_changes hp hst
  refine ⟨fun u => ?_, fun u s ho => ?_, fun u => ?_⟩
  · by_cases hu : u = t
    · subst hu
      have e : withStrings (upd W u (withStrings wg (take1 wg.strings (W u).strings (changesHeld (W u) st))) u)
          (together owner σ (upd W u (withStrings wg (take1 wg.strings (W u).strings (changesHeld (W u) st))))) = wg := by
        rw [← hglob, upd_same]
      rw [e]
      simp only [HeldPool.machine, upd_same]
      exact r1
    · have e : together owner σ (upd W t (withStrings wg (take1 wg.strings (W t).strings (changesHeld (W t) st)))) = wg.strings :=
        hglob.symm
      rw [e, upd_ne hu]
      simp only [HeldPool.machine, upd_ne hu, r1.strings]
      have hnot : ∀ s, mayRead owner u s = true → owner s ≠ some t := by
        intro s h e
        simp only [mayRead, e, Bool.or_eq_true, beq_iff_eq, reduceCtorEq, Option.some.injEq, false_or] at h
        exact hu h.symm
      refine (r.rel u).elsewhere (can := mayRead owner u) ⟨(r.confined u).view, (r.confined u).it, (r.confined u).git,
        (r.confined u).mit⟩ r1.small (fun s h => ?_) (fun s h => hstay s (hnot s h)) (fun s => (hgen s).1)
      have e1 := congrFun hfr s
      have hc : changesHeld (W t) st ≠ some s := fun e => hnot s h (hr.2 s e)
      simp only [take1, hc, if_false] at e1
      exact e1
  · by_cases hu : u = t
    · subst hu
      have hc : changesHeld (W u) st ≠ some s := fun e => by have := hr.2 s e; rw [ho] at this; cases this
      rw [upd_same]
      simp only [take1, hc, if_false]
      exact r.base u s ho
    · rw [upd_ne hu]; exact r.base u s ho
  · by_cases hu : u = t
    · subst hu
      rw [upd_same]
      exact (r.confined u).catch hr.1 hloc
    · rw [upd_ne hu]; exact r.confined u

theorem runs_finished {U : Ucd} {client : CatchClient} {calls : Nat → Nat} {n : Nat} {w w' : HeldWorld}
    {os os' : List (Option Obs)} (hc : client os = none) (h : U.RunsCatch τ client calls n w os w' os') :
    U.RunsCatch τ client calls (n + 1) w os w' os' := by
  cases h with
  | limit => exact .finished _ _ _ hc
  | finished n _ _ _ => exact .finished _ _ _ hc
  | step n _ _ st w1 o _ _ hc' => rw [hc] at hc'; cases hc'

theorem PoolRel.sched {owner : Nat → Option Nat} {σ : Nat → List Nat} {sort : SortFn} (hs : ConformingSort sort)
    (P : Nat → CatchClient) (calls : Nat → Nat → Nat) (ts : List Nat) :
    ∀ (W : Nat → HeldWorld) (p : HeldPool), PoolRel τ owner σ W p →
    (∀ t, (libraryData sort).MayRunOwned τ owner t (P t) (calls t) (ts.count t) (W t) (p.printed t)) →
    ∃ W' p' N, (∀ t, (libraryData sort).RunsCatch τ (P t) (calls t) (ts.count t) (W t) (p.printed t) (W' t) (p'.printed t)) ∧
      PoolRel τ owner σ W' p' ∧ ∀ fuel, N ≤ fuel → HeldPool.sched sort fuel P calls ts p = .ok p' := by
  induction ts with
  | nil => intro W p r _; exact ⟨W, p, 0, fun t => .limit _ _, r, fun _ _ => rfl⟩
  | cons t ts ih =>
    intro W p r ha
    have hcount : ∀ u, u ≠ t → (t :: ts).count u = ts.count u := fun u hu =>
      List.count_cons_of_ne (by simpa using fun e => hu e.symm)
    cases hc : P t (p.printed t) with
    | none =>
      obtain ⟨W', p', N, h1, h2, h3⟩ := ih W p r fun u => by
        by_cases hu : u = t
        · subst hu
          cases h : ts.count u with
          | zero => trivial
          | succ n => intro st hst; rw [hc] at hst; cases hst
        · have := ha u; rwa [hcount u hu] at this
      refine ⟨W', p', N, fun u => ?_, h2, fun fuel hf => ?_⟩
      · by_cases hu : u = t
        · subst hu; rw [List.count_cons_self]; exact runs_finished hc (h1 u)
        · rw [hcount u hu]; exact h1 u
      · simp only [HeldPool.sched, hc, h3 fuel hf]
    | some st =>
      have hat := ha t
      rw [List.count_cons_self] at hat
      obtain ⟨hm, hr, hrest⟩ := hat st hc
      obtain ⟨w1, o, M1, N, hd, hN, hrel⟩ := r.step hs t st (calls t (p.printed t).length) hm hr
      obtain ⟨W', p', N', h1, h2, h3⟩ := ih (upd W t w1) _ (hrel (upd p.printed t (p.printed t ++ [o]))) fun u => by
        by_cases hu : u = t
        · subst hu; simp only [upd_same]; exact hrest w1 o hd
        · have := ha u; simp only [upd_ne hu]; rwa [hcount u hu] at this
      refine ⟨W', p', max N N', fun u => ?_, h2, fun fuel hf => ?_⟩
      · have := h1 u
        by_cases hu : u = t
        · subst hu
          rw [List.count_cons_self]
          simp only [upd_same] at this
          exact .step _ _ _ st w1 o _ _ hc hd this
        · rw [hcount u hu]; simpa only [upd_ne hu] using this
      · simp only [HeldPool.sched, hc, hN fuel (by omega), Res.bind_ok, h3 fuel (by omega)]

/-- C80. A program as in C79 runs `n0` statements; then threads start, each with its own program of that kind and with
copies of the views and iterators of the strings it may read. Each string is owned by one thread, which alone uses it, or
is read by all and changed by none. If each thread alone, from where the first program got to, is allowed and respects
the owners, then under every schedule and whichever calls throw there is no undefined behaviour, each thread prints and
throws what it does alone on plain sequences of codepoints, and in the end every string holds the encoding of what it
holds when its owner runs alone. -/
theorem C80_threads (τ : Nat → Spec.Kind) (sort : SortFn) (hs : ConformingSort sort) (client0 : CatchClient)
    (calls0 : Nat → Nat) (n0 : Nat) (σ : Nat → List Nat) (hσ : ∀ k, ∀ c ∈ σ k, c < 2 ^ 31)
    (ha0 : (libraryData sort).MayRunCatch τ client0 calls0 n0 (HeldWorld.start σ) [])
    (w0 : HeldWorld) (os0 : List (Option Obs))
    (hr0 : (libraryData sort).RunsCatch τ client0 calls0 n0 (HeldWorld.start σ) [] w0 os0)
    (owner : Nat → Option Nat) (P : Nat → CatchClient) (calls : Nat → Nat → Nat) (ts : List Nat)
    (ha : ∀ t, (libraryData sort).MayRunOwned τ owner t (P t) (calls t) (ts.count t) (w0.given (mayRead owner t)) []) :
    ∃ (W : Nat → HeldWorld) (os : Nat → List (Option Obs)) (N : Nat),
      (∀ t, (libraryData sort).RunsCatch τ (P t) (calls t) (ts.count t) (w0.given (mayRead owner t)) [] (W t) (os t)) ∧
      ∀ fuel, N ≤ fuel → ∃ M p,
        HeldMachine.runX sort fuel client0 calls0 n0 (HeldMachine.start fun s => Spec.stored (τ s) (σ s)) [] = .ok (M, os0) ∧
        HeldPool.sched sort fuel P calls ts (M.fork (mayRead owner)) = .ok p ∧ (∀ t, p.printed t = os t) ∧
        ∀ s, p.strings s = Spec.stored (τ s) (match owner s with | some t => (W t).strings s | none => w0.strings s) := by
  obtain ⟨w, M, os0', N0, h0, r0, hN0⟩ := run_catch hs client0 calls0 n0 _ _ [] (held_start τ σ hσ) ha0
  obtain ⟨rfl, rfl⟩ := C79_deterministic τ sort client0 calls0 n0 _ _ _ _ _ _ h0 hr0
  have hrel : PoolRel τ owner w.strings (fun t => w.given (mayRead owner t)) (M.fork (mayRead owner)) := by
    refine ⟨fun t => ?_, fun _ _ _ => rfl, fun t => given_confined w _⟩
    have e : together owner w.strings (fun t => w.given (mayRead owner t)) = w.strings := by
      funext s; simp only [together]; cases owner s <;> rfl
    rw [e]
    exact r0.given _
  obtain ⟨W, p, N, h1, h2, h3⟩ := PoolRel.sched hs P calls ts _ _ hrel ha
  refine ⟨W, p.printed, max N0 N, h1, fun fuel hf => ⟨M, p, hN0 fuel (by omega), h3 fuel (by omega), fun _ => rfl, fun s => ?_⟩⟩
  exact congrFun (h2.rel 0).strings s

/-- C80: in whatever order the same numbers of statements of the threads are executed, each thread prints the same and the
strings end up the same. -/
theorem C80_schedule_irrelevant (τ : Nat → Spec.Kind) (sort : SortFn) (hs : ConformingSort sort) (client0 : CatchClient)
    (calls0 : Nat → Nat) (n0 : Nat) (σ : Nat → List Nat) (hσ : ∀ k, ∀ c ∈ σ k, c < 2 ^ 31)
    (ha0 : (libraryData sort).MayRunCatch τ client0 calls0 n0 (HeldWorld.start σ) [])
    (w0 : HeldWorld) (os0 : List (Option Obs))
    (hr0 : (libraryData sort).RunsCatch τ client0 calls0 n0 (HeldWorld.start σ) [] w0 os0)
    (owner : Nat → Option Nat) (P : Nat → CatchClient) (calls : Nat → Nat → Nat) (ts ts' : List Nat) (hp : ts.Perm ts')
    (ha : ∀ t, (libraryData sort).MayRunOwned τ owner t (P t) (calls t) (ts.count t) (w0.given (mayRead owner t)) []) :
    ∃ N, ∀ fuel, N ≤ fuel → ∃ M p p',
      HeldMachine.runX sort fuel client0 calls0 n0 (HeldMachine.start fun s => Spec.stored (τ s) (σ s)) [] = .ok (M, os0) ∧
      HeldPool.sched sort fuel P calls ts (M.fork (mayRead owner)) = .ok p ∧
      HeldPool.sched sort fuel P calls ts' (M.fork (mayRead owner)) = .ok p' ∧
      p.printed = p'.printed ∧ p.strings = p'.strings := by
  obtain ⟨W, os, N, h1, h2⟩ := C80_threads τ sort hs client0 calls0 n0 σ hσ ha0 w0 os0 hr0 owner P calls ts ha
  obtain ⟨W', os', N', h1', h2'⟩ := C80_threads τ sort hs client0 calls0 n0 σ hσ ha0 w0 os0 hr0 owner P calls ts'
    fun t => by rw [← hp.count_eq]; exact ha t
  have key : ∀ t, W t = W' t ∧ os t = os' t := fun t => by
    have := h1' t
    rw [← hp.count_eq] at this
    exact C79_deterministic τ sort _ _ _ _ _ _ _ _ _ (h1 t) this
  refine ⟨max N N', fun fuel hf => ?_⟩
  obtain ⟨M, p, a, b, c, d⟩ := h2 fuel (by omega)
  obtain ⟨M', p', a', b', c', d'⟩ := h2' fuel (by omega)
  obtain rfl : M = M' := by rw [a] at a'; simpa using a'
  refine ⟨M, p, p', a, b, b', funext fun t => by rw [c, c', (key t).2], funext fun s => ?_⟩
  rw [d, d']
  cases owner s with
  | none => rfl
  | some t => simp only [(key t).1]

/-- `Respects` as a computation. -/
def respectsB (owner : Nat → Option Nat) (t : Nat) (w : HeldWorld) (st : HeldStmt) : Bool :=
  (touchesHeld w st).all (mayRead owner t) && match changesHeld w st with
    | some s => decide (owner s = some t)
    | none => true

theorem respectsB_iff (owner : Nat → Option Nat) (t : Nat) (w : HeldWorld) (st : HeldStmt) :
    respectsB owner t w st = true ↔ Respects owner t w st := by
  simp only [respectsB, Respects, Bool.and_eq_true, List.all_eq_true]
  refine and_congr Iff.rfl ?_
  cases changesHeld w st <;> simp

/-- `MayRunOwned` as a computation. -/
def mayRunOwnedB (sort : SortFn) (τ : Nat → Spec.Kind) (owner : Nat → Option Nat) (t : Nat) (client : CatchClient)
    (calls : Nat → Nat) : Nat → HeldWorld → List (Option Obs) → Bool
  | 0, _, _ => true
  | n + 1, w, os => match client os with
    | none => true
    | some st => mayHeldB sort τ w st && (respectsB owner t w st && mayRunOwnedB sort τ owner t client calls n
        (doesCatchF sort τ w (calls os.length) st).1 (os ++ [(doesCatchF sort τ w (calls os.length) st).2]))

/-- C80: whether a thread is allowed and respects the owners can be computed from it alone, without the other threads. -/
theorem C80_allowed_checkable (sort : SortFn) (τ : Nat → Spec.Kind) (owner : Nat → Option Nat) (t : Nat)
    (client : CatchClient) (calls : Nat → Nat) (n : Nat) (w : HeldWorld) (os : List (Option Obs)) :
    mayRunOwnedB sort τ owner t client calls n w os = true ↔
      (libraryData sort).MayRunOwned τ owner t client calls n w os := by
  induction n generalizing w os with
  | zero => simp [mayRunOwnedB, Ucd.MayRunOwned]
  | succ n ih =>
    simp only [mayRunOwnedB, Ucd.MayRunOwned]
    cases hc : client os with
    | none => simp
    | some st =>
      simp only [Bool.and_eq_true, mayHeldB_iff, respectsB_iff, ih, Option.some.injEq, forall_eq']
      constructor
      · rintro ⟨h1, h2, h3⟩
        refine ⟨h1, h2, fun w1 o hd => ?_⟩
        obtain ⟨rfl, rfl⟩ := does_catch_unique hd (doesCatchF_spec h1)
        exact h3
      · rintro ⟨h1, h2, h3⟩
        exact ⟨h1, h2, h3 _ _ (doesCatchF_spec h1)⟩

/-- The ideal run as a computation. -/
def idealCatch (sort : SortFn) (τ : Nat → Spec.Kind) (client : CatchClient) (calls : Nat → Nat) :
    Nat → HeldWorld → List (Option Obs) → HeldWorld × List (Option Obs)
  | 0, w, os => (w, os)
  | n + 1, w, os => match client os with
    | none => (w, os)
    | some st => idealCatch sort τ client calls n
        (doesCatchF sort τ w (calls os.length) st).1 (os ++ [(doesCatchF sort τ w (calls os.length) st).2])

theorem idealCatch_spec (sort : SortFn) (client : CatchClient) (calls : Nat → Nat) (n : Nat) :
    ∀ (w : HeldWorld) (os : List (Option Obs)), (libraryData sort).MayRunCatch τ client calls n w os →
    (libraryData sort).RunsCatch τ client calls n w os (idealCatch sort τ client calls n w os).1
      (idealCatch sort τ client calls n w os).2 := by
  induction n with
  | zero => intro w os _; exact .limit w os
  | succ n ih =>
    intro w os ha
    simp only [idealCatch]
    cases hc : client os with
    | none => exact .finished _ _ _ hc
    | some st =>
      obtain ⟨h1, h2⟩ := ha st hc
      exact .step _ _ _ st _ _ _ _ hc (doesCatchF_spec h1) (ih _ _ (h2 _ _ (doesCatchF_spec h1)))

/-- Non-vacuity. The first program stores "é€ab" (accent by itself) in the UTF-8 string 0 and makes view 0, which lacks
the "b", codepoint iterator 0 and grapheme iterator 0. String 0 is read by all, string `t` is owned by
thread `t`. -/
def forkFirst : CatchClient := fun os =>
  ([.op (.appendCps 0 [0x65, 0x301, 0x20AC, 0x61, 0x62]), .op (.appendCps 2 [0x78, 0xE9]), .hold 0 (.view 0 0 4),
    .first 0 (.held 0), .gfirst 0 (.held 0), .hold 1 (.whole 2)] : List HeldStmt)[os.length]?

def forkOwner : Nat → Option Nat := fun s => if s = 0 then none else some s

/-- Thread 1 normalizes the view into its own string until nothing is thrown; thread 2 walks through string 0 by
codepoints and writes over its own string in place, still reading it through view 1, which it got from the first program;
thread 3 walks through string 0 by graphemes. -/
def forkThreads : Nat → CatchClient := fun t os =>
  if t = 1 then
    match os.length % 2, os.getLast? with
    | 0, _ => some (.op (.normalize .C 1 (.held 0)))
    | _, some none => some (.op (.clear 1))
    | _, _ => none
  else if t = 2 then
    ([.get 0, .next 0, .next 0, .get 0, .mfirst 0 2, .mset 0 0x79, .mnext 0, .mset 0 0xE8, .op (.read (.held 1)),
      .op (.appendCps 2 [0x7A]), .op (.read (.whole 2))] : List HeldStmt)[os.length]?
  else if t = 3 then
    ([.gget 0, .gnext 0, .gget 0, .op (.countIf (.held 0) fun c => 127 < c)] : List HeldStmt)[os.length]?
  else none

def forkCalls : Nat → Nat → Nat := fun _ i => i + 3

def forkSchedule : List Nat := [2, 1, 3, 2, 2, 1, 3, 3, 2, 2, 1, 2, 2, 2, 1, 3, 2, 1, 2, 1, 2, 1, 1, 1, 2]

theorem forkFirst_allowed :
    (libraryData insSort).MayRunCatch sampleKinds forkFirst (fun _ => 9) 9 (HeldWorld.start fun _ => []) [] :=
  (C79_allowed_checkable ..).mp (by decide +kernel)

/-- Where the first program gets to. -/
def forkWorld : HeldWorld × List (Option Obs) :=
  idealCatch insSort sampleKinds forkFirst (fun _ => 9) 9 (HeldWorld.start fun _ => []) []

theorem forkThreads_allowed (t : Nat) : (libraryData insSort).MayRunOwned sampleKinds forkOwner t (forkThreads t)
    (forkCalls t) (forkSchedule.count t) (forkWorld.1.given (mayRead forkOwner t)) [] := by
  refine (C80_allowed_checkable ..).mp ?_
  by_cases ht : t < 4
  · have h : t = 0 ∨ t = 1 ∨ t = 2 ∨ t = 3 := by omega
    rcases h with rfl | rfl | rfl | rfl <;> decide +kernel
  · have : forkSchedule.count t = 0 := List.count_eq_zero.mpr fun h => by
      simp only [forkSchedule, List.mem_cons, List.not_mem_nil, or_false] at h
      omega
    rw [this]; rfl

example := C80_threads sampleKinds insSort insSort_stable.1 forkFirst (fun _ => 9) 9 (fun _ => []) (by simp)
  forkFirst_allowed forkWorld.1 forkWorld.2 (idealCatch_spec _ _ _ _ _ _ forkFirst_allowed) forkOwner forkThreads forkCalls
  forkSchedule forkThreads_allowed

example := C80_schedule_irrelevant sampleKinds insSort insSort_stable.1 forkFirst (fun _ => 9) 9 (fun _ => []) (by simp)
  forkFirst_allowed forkWorld.1 forkWorld.2 (idealCatch_spec _ _ _ _ _ _ forkFirst_allowed) forkOwner forkThreads forkCalls
  forkSchedule forkSchedule.mergeSort (List.mergeSort_perm _ _).symm forkThreads_allowed

/-- Run a first program and threads; what each of the threads prints. -/
def forkPrints (first : CatchClient) (P : Nat → CatchClient) (calls : Nat → Nat → Nat) (can : Nat → Nat → Bool) (ts : List Nat) :
    Option (List (List (Option Obs))) :=
  match HeldMachine.runX insSort 20 first (fun _ => 9) 9 (HeldMachine.start fun s => Spec.stored (sampleKinds s) []) [] with
  | .ok (M, _) => match HeldPool.sched insSort 20 P calls ts (M.fork can) with
    | .ok p => some ([0, 1, 2, 3].map p.printed)
    | _ => none
  | _ => none

example : forkPrints forkFirst forkThreads forkCalls (mayRead forkOwner) forkSchedule = some [[],
    [none, some .none, none, some .none, some (.number 3)],
    [some (.codepoints [0x65]), some .none, some .none, some (.codepoints [0x20AC]), some .none, some .none, some .none,
     some .none, some (.codepoints [0x79, 0xE8]), some .none, some (.codepoints [0x79, 0xE8, 0x7A])],
    [some (.codepoints [0x65, 0x301]), some .none, some (.codepoints [0x20AC]), some (.number 2)]] := by decide +kernel

/-- C80: the owners are needed. A thread reads a view of a string to which another appends: what is printed, and whether the
behaviour is defined at all, depends on the schedule. The same with a mutable iterator by which another thread writes. -/
theorem C80_needs_owners :
    let P : Nat → CatchClient := fun t os =>
      if t = 0 then ([.op (.appendCps 0 [0x63])] : List HeldStmt)[os.length]?
      else if t = 1 then ([.op (.read (.held 0))] : List HeldStmt)[os.length]? else none
    let Q : Nat → CatchClient := fun t os =>
      if t = 0 then ([.mfirst 0 0, .mset 0 0x66] : List HeldStmt)[os.length]?
      else if t = 1 then ([.op (.read (.held 0))] : List HeldStmt)[os.length]? else none
    let prints := fun P ts => forkPrints forkFirst P (fun _ _ => 9) (fun _ _ => true) ts
    prints P [1, 0] = some [[some .none], [some (.codepoints [0x65, 0x301, 0x20AC, 0x61])], [], []] ∧
    prints P [0, 1] = none ∧
    prints Q [1, 0, 0] = some [[some .none, some .none], [some (.codepoints [0x65, 0x301, 0x20AC, 0x61])], [], []] ∧
    prints Q [0, 0, 1] = some [[some .none, some .none], [some (.codepoints [0x66, 0x301, 0x20AC, 0x61])], [], []] := by
  decide +kernel

end U5e
