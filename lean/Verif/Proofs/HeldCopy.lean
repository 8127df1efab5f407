import Verif.Proofs.HeldLocal
/-! # An implementation of every statement by single accesses -/
namespace U5e
open Spec

theorem edit_kind {γ : Type} {x t : Text} {o : γ} {f : ∀ {α : Type} [DecidableEq α], Encoding α → List α → Res (List α × γ)}
    (h : x.edit f = .ok (t, o)) : kindOf t = kindOf x := by
  cases x <;> simp only [Text.edit] at h <;> obtain ⟨r, _, h⟩ := Res.bind_eq_ok.mp h <;>
    (simp only [Res.pure_eq, Res.ok.injEq, Prod.mk.injEq] at h; obtain ⟨rfl, _⟩ := h; rfl)

theorem editFrom_kind {x y t : Text} {f : ∀ {α : Type}, Encoding α → List α → List α → Res (List α)}
    (h : x.editFrom y f = .ok t) : kindOf t = kindOf x := by
  cases x <;> cases y <;> simp only [Text.editFrom] at h <;> first
    | cases h; done
    | (obtain ⟨r, _, h⟩ := Res.bind_eq_ok.mp h
       simp only [Res.pure_eq, Res.ok.injEq] at h; subst h; rfl)

/-- The text a call leaves behind. -/
def callLeft {α β : Type} : Call α β → β
  | .threw t => t
  | .ret _ t _ => t

theorem editX_kind {γ : Type} {x : Text} {c : Call γ Text}
    {f : ∀ {α : Type}, (List α → List Int → Nat → Res (Call Unit (List α))) → List α → Res (Call γ (List α))}
    (h : x.editX f = .ok c) : kindOf (callLeft c) = kindOf x := by
  cases x <;> simp only [Text.editX] at h <;> obtain ⟨r, _, h⟩ := Res.bind_eq_ok.mp h <;> cases r <;>
    (simp only [Res.pure_eq, Res.ok.injEq] at h; subst h; rfl)

theorem upd_kind {σ : Nat → Text} {d : Nat} {t : Text} (h : kindOf t = kindOf (σ d)) (s : Nat) :
    kindOf (upd σ d t s) = kindOf (σ s) := by
  by_cases e : s = d
  · subst e; rw [upd_same, h]
  · rw [upd_ne e]

variable {M M1 : HeldMachine} {sort : SortFn} {fuel k : Nat}

theorem step_kind {op : HeldOp} {r : (Nat → Text) × Obs} (h : M.step sort fuel op = .ok r) (s : Nat) :
    kindOf (r.1 s) = kindOf (M.strings s) := by
  cases op <;> simp only [HeldMachine.step] at h
  case copy =>
    obtain ⟨t, ht, h⟩ := Res.bind_eq_ok.mp h
    cases h; exact upd_kind (editFrom_kind ht) s
  case clear | appendCps =>
    obtain ⟨t, ht, h⟩ := Res.bind_eq_ok.mp h
    cases h; exact upd_kind (edit_kind ht) s
  case append =>
    obtain ⟨x, _, h⟩ := Res.bind_eq_ok.mp h
    obtain ⟨t, ht, h⟩ := Res.bind_eq_ok.mp h
    cases h; exact upd_kind (editFrom_kind ht) s
  case appendGraphemes =>
    obtain ⟨x, _, h⟩ := Res.bind_eq_ok.mp h
    obtain ⟨_, _, h⟩ := Res.bind_eq_ok.mp h
    obtain ⟨_, _, h⟩ := Res.bind_eq_ok.mp h
    obtain ⟨t, ht, h⟩ := Res.bind_eq_ok.mp h
    cases h; exact upd_kind (editFrom_kind ht) s
  case convert =>
    obtain ⟨x, _, h⟩ := Res.bind_eq_ok.mp h
    split at h
    · cases h
    · obtain ⟨_, _, h⟩ := Res.bind_eq_ok.mp h
      obtain ⟨t, ht, h⟩ := Res.bind_eq_ok.mp h
      cases h; exact upd_kind (edit_kind ht) s
  case normalize =>
    obtain ⟨x, _, h⟩ := Res.bind_eq_ok.mp h
    split at h
    · cases h
    · obtain ⟨t, ht, h⟩ := Res.bind_eq_ok.mp h
      cases h; exact upd_kind (edit_kind ht) s
  case write =>
    obtain ⟨x, _, h⟩ := Res.bind_eq_ok.mp h
    obtain ⟨t, ht, h⟩ := Res.bind_eq_ok.mp h
    cases h; exact upd_kind (edit_kind ht) s
  case transform =>
    obtain ⟨t, ht, h⟩ := Res.bind_eq_ok.mp h
    cases h; exact upd_kind (edit_kind ht) s
  case read | readBack | readGraphemes | countIf =>
    obtain ⟨x, _, h⟩ := Res.bind_eq_ok.mp h
    obtain ⟨_, _, h⟩ := Res.bind_eq_ok.mp h
    cases h; rfl
  case equal | less =>
    obtain ⟨x, _, h⟩ := Res.bind_eq_ok.mp h
    obtain ⟨_, _, h⟩ := Res.bind_eq_ok.mp h
    obtain ⟨_, _, h⟩ := Res.bind_eq_ok.mp h
    cases h; rfl

theorem stepX_kind {op : HeldOp} {r : Call Obs (Nat → Text)} (h : M.stepX sort fuel k op = .ok r) (s : Nat) :
    kindOf (callLeft r s) = kindOf (M.strings s) := by
  have app : ∀ {o : Obs} {σ : Nat → Text} {r}, appendCall o M.strings σ k = r → (∀ s, kindOf (σ s) = kindOf (M.strings s)) →
      kindOf (callLeft r s) = kindOf (M.strings s) := by
    intro o σ r e hk
    subst e
    cases k with
    | zero => rfl
    | succ k => exact hk s
  cases op <;> simp only [HeldMachine.stepX] at h
  case appendCps =>
    obtain ⟨t, ht, h⟩ := Res.bind_eq_ok.mp h
    have := editX_kind ht
    cases t <;> (simp only [Res.pure_eq, Res.ok.injEq] at h; subst h; exact upd_kind this s)
  case convert =>
    obtain ⟨x, _, h⟩ := Res.bind_eq_ok.mp h
    split at h
    · cases h
    · obtain ⟨_, _, h⟩ := Res.bind_eq_ok.mp h
      obtain ⟨t, ht, h⟩ := Res.bind_eq_ok.mp h
      have := editX_kind ht
      cases t <;> (simp only [Res.pure_eq, Res.ok.injEq] at h; subst h; exact upd_kind this s)
  case normalize =>
    obtain ⟨x, _, h⟩ := Res.bind_eq_ok.mp h
    split at h
    · cases h
    · obtain ⟨t, ht, h⟩ := Res.bind_eq_ok.mp h
      have := editX_kind ht
      cases t <;> (simp only [Res.pure_eq, Res.ok.injEq] at h; subst h; exact upd_kind this s)
  case copy | append | appendGraphemes =>
    obtain ⟨t, ht, h⟩ := Res.bind_eq_ok.mp h
    simp only [Res.pure_eq, Res.ok.injEq] at h
    exact app h (step_kind ht)
  all_goals
    obtain ⟨t, ht, h⟩ := Res.bind_eq_ok.mp h
    simp only [Res.pure_eq, Res.ok.injEq] at h
    subst h
    exact step_kind ht s

theorem exec_kind {st : HeldStmt} {o : Option Obs} (h : M.execX sort fuel k st = .ok (M1, o)) (s : Nat) :
    kindOf (M1.strings s) = kindOf (M.strings s) := by
  cases st with
  | op op =>
    simp only [HeldMachine.execX] at h
    obtain ⟨c, hc, h⟩ := Res.bind_eq_ok.mp h
    have := stepX_kind hc s
    have aft : ∀ σ, (M.after op σ).strings = σ := by intro σ; simp only [HeldMachine.after]; split <;> rfl
    cases c <;>
      (simp only [Res.pure_eq, Res.ok.injEq, Prod.mk.injEq] at h; obtain ⟨rfl, _⟩ := h; rw [aft]; exact this)
  | mset m c =>
    simp only [HeldMachine.execX, HeldMachine.exec] at h
    obtain ⟨⟨M2, o2⟩, hx, h⟩ := Res.bind_eq_ok.mp h
    simp only [Res.pure_eq, Res.ok.injEq, Prod.mk.injEq] at h
    obtain ⟨rfl, _⟩ := h
    obtain ⟨x, _, hx⟩ := Res.bind_eq_ok.mp hx
    obtain ⟨t, ht, hx⟩ := Res.bind_eq_ok.mp hx
    cases hx
    exact upd_kind (edit_kind ht) s
  | _ =>
    suffices e : M1.strings = M.strings by rw [e]
    simp only [HeldMachine.execX] at h
    obtain ⟨⟨M2, o2⟩, hx, h⟩ := Res.bind_eq_ok.mp h
    simp only [Res.pure_eq, Res.ok.injEq, Prod.mk.injEq] at h
    obtain ⟨rfl, _⟩ := h
    simp only [HeldMachine.exec] at hx
    repeat' (first
      | (obtain ⟨_, _, hx⟩ := Res.bind_eq_ok.mp hx)
      | (split at hx)
      | cases hx; done)
    all_goals first
      | (simp only [Res.pure_eq, Res.ok.injEq, Prod.mk.injEq] at hx; obtain ⟨rfl, _⟩ := hx; rfl)
      | cases hx

/-- The elements of a string. -/
def cellUnits : Text → List Int
  | .utf8 m => m.map fun b => Int.ofNat b.toNat
  | .utf32 m => m

/-- A string of these elements. -/
def cellText : Spec.Kind → List Int → Text
  | .utf8, us => .utf8 (us.map fun v => UInt8.ofNat v.toNat)
  | .utf32, us => .utf32 us

theorem textOf_unitsOf (t : Text) : cellText (kindOf t) (cellUnits t) = t := by
  cases t with
  | utf8 m =>
    simp only [kindOf, cellUnits, cellText, List.map_map]
    congr 1
    conv => rhs; rw [← List.map_id m]
    congr 1
    funext b
    simp
  | utf32 m => rfl

theorem glance_size (c : HeldCell) : c.glance .size = some (Int.ofNat (cellUnits c.text).length) := by
  obtain ⟨t, n⟩ := c
  cases t <;> simp [HeldCell.glance, Text.size, cellUnits]

theorem glance_unit (c : HeldCell) (i : Nat) : c.glance (.unit i) = (cellUnits c.text)[i]? := by
  obtain ⟨t, n⟩ := c
  cases t <;> simp [HeldCell.glance, cellUnits]

/-- Read `n` elements of string `s` from number `i` on. -/
def loadUnits (s : Nat) : Nat → Nat → List Int → (List Int → Accesses) → Accesses
  | 0, _, acc, next => next acc
  | n + 1, i, acc, next => .read s (.unit i) fun x => loadUnits s n (i + 1) (acc ++ x.toList) next

/-- Read the strings `ss`. -/
def loadCells (τ : Nat → Spec.Kind) : List Nat → (Nat → HeldCell) → ((Nat → HeldCell) → Accesses) → Accesses
  | [], m, next => next m
  | s :: ss, m, next => .read s .size fun n => loadUnits s (n.getD 0).toNat 0 [] fun us => .read s .count fun c =>
      loadCells τ ss (upd m s ⟨cellText (τ s) us, (c.getD 0).toNat⟩) next

/-- Invalidate `n` times. -/
def bump (d : Nat) : Nat → Accesses → Accesses
  | 0, next => next
  | n + 1, next => .change d .invalidate (bump d n next)

/-- Append the elements `us`, then invalidate `n` times. -/
def storeUnits (d : Nat) : List Int → Nat → Accesses → Accesses
  | [], n, next => bump d n next
  | u :: us, n, next => .change d (.push u) (storeUnits d us n next)

/-- Read what a statement names, element by element, and write what it changes, element by element; `eff` is the effect of
the statement. -/
def copyHeld (τ : Nat → Spec.Kind) (eff : HeldMachine → Nat → HeldStmt → Option (HeldMachine × Option Obs)) : HeldCode :=
  fun V k st => loadCells τ (names V st) (fun _ => ⟨.utf8 [], 0⟩) fun m =>
    match eff (V.on m) k st with
    | some (M1, o) =>
      match target V st with
      | some d => .change d .clear (storeUnits d (cellUnits (M1.strings d)) (M1.gen d - (m d).count) (.finished M1.vars o))
      | none => .finished M1.vars o
    | none => .finished V none

theorem loadUnits_alone (s : Nat) (next : List Int → Accesses) (μ : Nat → HeldCell) (n : Nat) : ∀ (i : Nat) (acc : List Int),
    (loadUnits s n i acc next).alone μ = (next (acc ++ ((cellUnits (μ s).text).drop i).take n)).alone μ := by
  induction n with
  | zero => intro i acc; simp [loadUnits]
  | succ n ih =>
    intro i acc
    rw [loadUnits, Accesses.alone, ih, glance_unit]
    congr 2
    rw [List.append_assoc]
    congr 1
    by_cases hi : i < (cellUnits (μ s).text).length
    · rw [List.getElem?_eq_getElem hi, List.drop_eq_getElem_cons hi, List.take_succ_cons]; rfl
    · rw [List.getElem?_eq_none (by omega), List.drop_of_length_le (by omega), List.drop_of_length_le (by omega)]
      simp

theorem loadCells_alone {τ : Nat → Spec.Kind} (next : (Nat → HeldCell) → Accesses) (μ : Nat → HeldCell)
    (hk : ∀ s, kindOf (μ s).text = τ s) (ss : List Nat) :
    ∀ m : Nat → HeldCell, (loadCells τ ss m next).alone μ = (next fun j => if j ∈ ss then μ j else m j).alone μ := by
  induction ss with
  | nil => intro m; simp [loadCells]
  | cons s ss ih =>
    intro m
    rw [loadCells, Accesses.alone, loadUnits_alone, Accesses.alone, ih, glance_size]
    simp only [List.nil_append, List.drop_zero, Option.getD_some, Int.ofNat_eq_natCast, Int.toNat_natCast, List.take_length, HeldCell.glance]
    congr 2
    funext j
    by_cases h1 : j ∈ ss
    · simp [h1]
    · by_cases h2 : j = s
      · subst h2
        simp only [h1, if_false, upd_same, List.mem_cons, or_false, if_true, ← hk j, textOf_unitsOf]
      · simp [h1, h2, upd_ne]

theorem stroke_push (c : HeldCell) (u : Int) (K : Spec.Kind) (us : List Int) (h : c.text = cellText K us) :
    c.stroke (.push u) = ⟨cellText K (us ++ [u]), c.count⟩ := by
  cases K <;> simp only [HeldCell.stroke, h, cellText, List.map_append, List.map_cons, List.map_nil]

theorem storeUnits_alone (d : Nat) (next : Accesses) (K : Spec.Kind) (vs : List Int) : ∀ (n : Nat) (us : List Int) (μ : Nat → HeldCell),
    (μ d).text = cellText K us →
    (storeUnits d vs n next).alone μ = next.alone (upd μ d ⟨cellText K (us ++ vs), (μ d).count + n⟩) := by
  induction vs with
  | nil =>
    intro n
    simp only [storeUnits]
    induction n with
    | zero =>
      intro us μ h
      rw [bump, List.append_nil, ← h]
      congr 1
      funext s
      by_cases e : s = d
      · subst e; rw [upd_same]; rfl
      · rw [upd_ne e]
    | succ n ih =>
      intro us μ h
      rw [bump, Accesses.alone, ih us _ (by rw [upd_same]; exact h)]
      congr 1
      funext s
      by_cases e : s = d
      · subst e; simp only [upd_same, HeldCell.stroke]; congr 1; omega
      · simp only [upd_ne e]
  | cons v vs ih =>
    intro n us μ h
    have hp := stroke_push (μ d) v K us h
    rw [storeUnits, Accesses.alone, ih n (us ++ [v]) _ (by rw [upd_same, hp])]
    congr 1
    funext s
    by_cases e : s = d
    · subst e; simp only [upd_same, hp, List.append_assoc, List.cons_append, List.nil_append]
    · simp only [upd_ne e]

theorem loadUnits_keeps {r : List Nat} {w : Option Nat} {s : Nat} (hs : s ∈ r) {next : List Int → Accesses}
    (h : ∀ x, Keeps r w (next x)) (n : Nat) : ∀ i acc, Keeps r w (loadUnits s n i acc next) := by
  induction n with
  | zero => intro i acc; exact h _
  | succ n ih => intro i acc; exact ⟨hs, fun x => ih _ _⟩

theorem loadCells_keeps {τ : Nat → Spec.Kind} {r : List Nat} {w : Option Nat} {next : (Nat → HeldCell) → Accesses}
    (h : ∀ m, Keeps r w (next m)) (ss : List Nat) (hss : ∀ s ∈ ss, s ∈ r) : ∀ m, Keeps r w (loadCells τ ss m next) := by
  induction ss with
  | nil => intro m; exact h m
  | cons s ss ih =>
    intro m
    refine ⟨hss s (by simp), fun n => loadUnits_keeps (hss s (by simp)) (fun x => ?_) _ 0 []⟩
    exact ⟨hss s (by simp), fun c => ih (fun j hj => hss j (by simp [hj])) _⟩

theorem storeUnits_keeps {r : List Nat} {d : Nat} (hd : d ∈ r) {next : Accesses}
    (h : Keeps r (some d) next) (vs : List Int) : ∀ n, Keeps r (some d) (storeUnits d vs n next) := by
  induction vs with
  | nil =>
    intro n
    show Keeps r (some d) (bump d n next)
    induction n with
    | zero => exact h
    | succ n ih => exact ⟨rfl, hd, ih⟩
  | cons v vs ih => intro n; exact ⟨rfl, hd, ih n⟩

theorem target_names {V : HeldVars} {st : HeldStmt} {d : Nat} (h : target V st = some d) : d ∈ names V st := by
  cases st with
  | op op => cases op <;> simp only [target, reduceCtorEq, Option.some.injEq] at h <;> simp [names, h]
  | mset m c =>
    obtain ⟨x, hx, rfl⟩ := Option.map_eq_some_iff.mp h
    simp [names, hx]
  | _ => cases h

theorem copyHeld_compiles (sort : SortFn) (τ : Nat → Spec.Kind)
    (eff : HeldMachine → Nat → HeldStmt → Option (HeldMachine × Option Obs))
    (heff : ∀ M k st r N, (∀ fuel, N ≤ fuel → M.execX sort fuel k st = .ok r) → eff M k st = some r) :
    Compiles sort τ (copyHeld τ eff) := by
  intro V k st
  constructor
  · refine loadCells_keeps (fun m => ?_) _ (fun k hk => hk) _
    split
    · cases hd : target V st with
      | none => trivial
      | some d => exact ⟨rfl, target_names hd, storeUnits_keeps (target_names hd) (next := .finished _ _) True.intro _ _⟩
    · trivial
  · intro μ M1 o N hk h
    rw [copyHeld, loadCells_alone _ _ hk]
    generalize hm : (fun j => if j ∈ names V st then μ j else ⟨.utf8 [], 0⟩ : Nat → HeldCell) = m
    have hag : ∀ s ∈ names V st, μ s = m s := by intro s hs; rw [← hm]; simp [hs]
    have hx : ∀ fuel, N ≤ fuel → (V.on m).execX sort fuel k st =
        .ok (M1.vars.on (patchC (target V st) m M1.cells), o) := by
      intro fuel hf; rw [exec_on hag, h fuel hf]; rfl
    have hself : M1.cells = patchC (target V st) μ M1.cells := by
      have := exec_on (μ := μ) (ν := μ) (V := V) (sort := sort) (fuel := N) (k := k) (st := st) fun _ _ => rfl
      rw [h N (Nat.le_refl _)] at this
      simp only [Res.bind_ok, Res.ok.injEq, Prod.mk.injEq, and_true] at this
      exact congrArg HeldMachine.cells this
    rw [heff _ _ _ _ N hx]
    simp only
    cases hd : target V st with
    | none =>
      rw [hd] at hself
      simp only [patchC, Accesses.alone] at hself ⊢
      rw [hself]; rfl
    | some d =>
      have hmd := hag d (target_names hd)
      have hkd : kindOf (M1.strings d) = τ d := by
        rw [← hk d]; exact exec_kind (h N (Nat.le_refl _)) d
      have hgd : (μ d).count ≤ M1.gen d := (exec_gen (h N (Nat.le_refl _)) d).1
      have e1 : (M1.vars.on (patchC (some d) m M1.cells)).strings d = M1.strings d := by
        simp only [HeldVars.on, patchC, upd_same, HeldMachine.cells]
      have e2 : (M1.vars.on (patchC (some d) m M1.cells)).gen d = M1.gen d := by
        simp only [HeldVars.on, patchC, upd_same, HeldMachine.cells]
      simp only [e1, e2, Accesses.alone]
      have hc : ((μ d).stroke .clear).text = cellText (τ d) [] ∧ ((μ d).stroke .clear).count = (μ d).count := by
        rw [← hk d]
        cases hh : (μ d).text <;> simp [HeldCell.stroke, hh, cellText, kindOf]
      rw [storeUnits_alone d _ (τ d) _ _ [] _ (by rw [upd_same]; exact hc.1)]
      simp only [Accesses.alone, Prod.mk.injEq]
      refine ⟨?_, rfl, trivial⟩
      rw [hd] at hself
      rw [hself]
      funext s
      by_cases e : s = d
      · subst e
        simp only [upd_same, patchC, List.nil_append, hc.2, ← hmd, ← hkd, textOf_unitsOf, HeldMachine.cells]
        congr 1
        omega
      · simp only [upd_ne e, patchC]

end U5e
