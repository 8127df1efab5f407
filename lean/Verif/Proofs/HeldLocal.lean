import Verif.Spec.HeldAccesses
import Verif.Properties.HeldThreads
/-! # A statement depends on the strings it names and changes only its target -/
namespace U5e
open Spec

variable {V : HeldVars} {μ ν : Nat → HeldCell} {sort : SortFn} {fuel k : Nat}

/-- `ν`, the string `d` as in `σ`. -/
def patchT (d : Option Nat) (ν : Nat → HeldCell) (σ : Nat → Text) : Nat → Text :=
  match d with
  | some d => upd (fun s => (ν s).text) d (σ d)
  | none => fun s => (ν s).text

theorem on_strings (s : Nat) : (V.on μ).strings s = (μ s).text := rfl
theorem view_def (v : Nat) : (V.on μ).view v = match V.views v with
    | some (s, g, p, q) => if g = (μ s).count then .ok (s, p, q) else .ub
    | none => .ub := rfl
theorem it_def (v : Nat) : (V.on μ).it v = match V.its v with
    | some (s, g, p) => if g = (μ s).count then .ok (s, p) else .ub
    | none => .ub := rfl
theorem git_def (v : Nat) : (V.on μ).git v = match V.gits v with
    | some (s, g, p) => if g = (μ s).count then .ok (s, p) else .ub
    | none => .ub := rfl
theorem mit_def (v : Nat) : (V.on μ).mit v = match V.mits v with
    | some (s, g, p) => if g = (μ s).count then .ok (s, p) else .ub
    | none => .ub := rfl

theorem view_on {v : Nat} (h : ∀ s ∈ placeOf V (.held v), μ s = ν s) : (V.on ν).view v = (V.on μ).view v := by
  simp only [placeOf] at h
  simp only [view_def]
  cases hv : V.views v with
  | none => rfl
  | some x => simp only [hv, List.mem_singleton, forall_eq] at h; obtain ⟨s, g, p, q⟩ := x; simp only at h ⊢; simp only [h]

theorem view_mem {v : Nat} {x : Nat × Nat × Nat} (h : (V.on μ).view v = .ok x) : x.1 ∈ placeOf V (.held v) := by
  simp only [view_def] at h
  simp only [placeOf]
  cases hv : V.views v with
  | none => rw [hv] at h; cases h
  | some y =>
    obtain ⟨s, g, p, q⟩ := y
    rw [hv] at h
    simp only at h
    split at h
    · cases h; simp
    · cases h

theorem it_on {i : Nat} (h : ∀ s ∈ (V.its i).toList.map (·.1), μ s = ν s) : (V.on ν).it i = (V.on μ).it i := by
  simp only [it_def]
  cases hv : V.its i with
  | none => rfl
  | some x =>
    obtain ⟨s, g, p⟩ := x
    simp only [hv, Option.toList_some, List.map_cons, List.map_nil, List.mem_singleton, forall_eq] at h
    simp only [h]

theorem it_mem {i : Nat} {x : Nat × Nat} (h : (V.on μ).it i = .ok x) : x.1 ∈ (V.its i).toList.map (·.1) := by
  simp only [it_def] at h
  cases hv : V.its i with
  | none => rw [hv] at h; cases h
  | some y =>
    obtain ⟨s, g, p⟩ := y
    rw [hv] at h
    simp only at h
    split at h
    · cases h; simp
    · cases h

theorem git_on {i : Nat} (h : ∀ s ∈ (V.gits i).toList.map (·.1), μ s = ν s) : (V.on ν).git i = (V.on μ).git i := by
  simp only [git_def]
  cases hv : V.gits i with
  | none => rfl
  | some x =>
    obtain ⟨s, g, p⟩ := x
    simp only [hv, Option.toList_some, List.map_cons, List.map_nil, List.mem_singleton, forall_eq] at h
    simp only [h]

theorem git_mem {i : Nat} {x : Nat × GIter} (h : (V.on μ).git i = .ok x) : x.1 ∈ (V.gits i).toList.map (·.1) := by
  simp only [git_def] at h
  cases hv : V.gits i with
  | none => rw [hv] at h; cases h
  | some y =>
    obtain ⟨s, g, p⟩ := y
    rw [hv] at h
    simp only at h
    split at h
    · cases h; simp
    · cases h

theorem mit_on {i : Nat} (h : ∀ s ∈ (V.mits i).toList.map (·.1), μ s = ν s) : (V.on ν).mit i = (V.on μ).mit i := by
  simp only [mit_def]
  cases hv : V.mits i with
  | none => rfl
  | some x =>
    obtain ⟨s, g, p⟩ := x
    simp only [hv, Option.toList_some, List.map_cons, List.map_nil, List.mem_singleton, forall_eq] at h
    simp only [h]

theorem mit_mem {i : Nat} {x : Nat × Nat} (h : (V.on μ).mit i = .ok x) : V.mits i = some (x.1, (μ x.1).count, x.2) := by
  simp only [mit_def] at h
  cases hv : V.mits i with
  | none => rw [hv] at h; cases h
  | some y =>
    obtain ⟨s, g, p⟩ := y
    rw [hv] at h
    simp only at h
    split at h
    · rename_i e; cases h; simp [e]
    · cases h

theorem place_its {i j : Nat} : placeOf V (.between i j) = (V.its i).toList.map (·.1) ++ (V.its j).toList.map (·.1) := by
  simp only [placeOf]
  cases V.its i <;> cases V.its j <;> rfl

theorem opened_on {pl : Place} (h : ∀ s ∈ placeOf V pl, μ s = ν s) : (V.on ν).opened pl = (V.on μ).opened pl := by
  cases pl with
  | whole s | view s i j =>
    simp only [placeOf, List.mem_singleton, forall_eq] at h
    simp only [HeldMachine.opened, on_strings, h]
  | held v => exact view_on h
  | part v i j =>
    simp only [HeldMachine.opened, view_on (v := v) h]
    cases hv : (V.on μ).view v with
    | ok x =>
      have := h x.1 (view_mem hv)
      simp only [Res.bind_ok, on_strings, this]
    | _ => rfl
  | between i j =>
    rw [place_its] at h
    simp only [HeldMachine.opened, it_on fun s hs => h s (List.mem_append_left _ hs), it_on fun s hs => h s (List.mem_append_right _ hs)]

theorem opened_mem {pl : Place} {x : Nat × Nat × Nat} (h : (V.on μ).opened pl = .ok x) : x.1 ∈ placeOf V pl := by
  cases pl with
  | whole s => cases h; simp [placeOf]
  | view s i j =>
    simp only [HeldMachine.opened] at h
    obtain ⟨p, _, h⟩ := Res.bind_eq_ok.mp h
    obtain ⟨q, _, h⟩ := Res.bind_eq_ok.mp h
    split at h
    · cases h; simp [placeOf]
    · cases h
  | held v => exact view_mem h
  | part v i j =>
    simp only [HeldMachine.opened] at h
    obtain ⟨y, hy, h⟩ := Res.bind_eq_ok.mp h
    obtain ⟨p, _, h⟩ := Res.bind_eq_ok.mp h
    obtain ⟨q, _, h⟩ := Res.bind_eq_ok.mp h
    split at h
    · cases h; have := view_mem hy; exact this
    · cases h
  | between i j =>
    simp only [HeldMachine.opened] at h
    obtain ⟨y, hy, h⟩ := Res.bind_eq_ok.mp h
    obtain ⟨z, _, h⟩ := Res.bind_eq_ok.mp h
    split at h
    · cases h
      rw [place_its]
      exact List.mem_append_left _ (it_mem hy)
    · cases h

theorem step_on {op : HeldOp} (hag : ∀ s ∈ names V (.op op), μ s = ν s) :
    (V.on ν).step sort fuel op =
      ((V.on μ).step sort fuel op >>= fun r => .ok (patchT (target V (.op op)) ν r.1, r.2)) := by
  cases op with
  | copy d s =>
    have h1 := hag d (by simp [names]); have h2 := hag s (by simp [names])
    simp [HeldMachine.step, patchT, target, upd_same, h1, h2, bind_assoc, HeldVars.on]
  | clear d | appendCps d | write d | transform d =>
    have h1 := hag d (by simp [names])
    simp [HeldMachine.step, patchT, target, upd_same, h1, bind_assoc, HeldVars.on]
  | append d src | appendGraphemes d src =>
    have h1 := hag d (by simp [names])
    have h2 : ∀ s ∈ placeOf V src, μ s = ν s := fun s hs => hag s (by simp [names, hs])
    simp only [HeldMachine.step, opened_on h2]
    cases ho : (V.on μ).opened src with
    | ok x =>
      have h3 := h2 x.1 (opened_mem ho)
      simp [patchT, target, upd_same, h1, h3, bind_assoc, HeldVars.on]
    | _ => rfl
  | convert d src | normalize F d src =>
    have h1 := hag d (by simp [names])
    have h2 : ∀ s ∈ placeOf V src, μ s = ν s := fun s hs => hag s (by simp [names, hs])
    simp only [HeldMachine.step, opened_on h2]
    cases ho : (V.on μ).opened src with
    | ok x =>
      have h3 := h2 x.1 (opened_mem ho)
      simp only [Res.bind_ok]
      split
      · rfl
      · simp [patchT, target, upd_same, h1, h3, bind_assoc, HeldVars.on]
    | _ => rfl
  | read src | readBack src | readGraphemes src | countIf src =>
    have h2 : ∀ s ∈ placeOf V src, μ s = ν s := fun s hs => hag s hs
    simp only [HeldMachine.step, opened_on h2]
    cases ho : (V.on μ).opened src with
    | ok x =>
      have h3 := h2 x.1 (opened_mem ho)
      simp [patchT, target, h3, bind_assoc, HeldVars.on]
    | _ => rfl
  | equal a b | less a b =>
    have h2 : ∀ s ∈ placeOf V a, μ s = ν s := fun s hs => hag s (by simp [names, hs])
    have h2' : ∀ s ∈ placeOf V b, μ s = ν s := fun s hs => hag s (by simp [names, hs])
    simp only [HeldMachine.step, opened_on h2, opened_on h2']
    cases ho : (V.on μ).opened a with
    | ok x =>
      cases ho' : (V.on μ).opened b with
      | ok y =>
        have h3 := h2 x.1 (opened_mem ho)
        have h3' := h2' y.1 (opened_mem ho')
        simp [patchT, target, h3, h3', bind_assoc, HeldVars.on]
      | _ => rfl
    | _ => rfl

/-- The same for what a call that may throw leaves behind. -/
def patchCall (d : Option Nat) (ν : Nat → HeldCell) : Call Obs (Nat → Text) → Call Obs (Nat → Text)
  | .threw σ => .threw (patchT d ν σ)
  | .ret o σ k => .ret o (patchT d ν σ) k

theorem appendCall_patch {d : Option Nat} {o : Obs} {σ : Nat → Text} (h : ∀ s, d = some s → μ s = ν s) :
    appendCall o (V.on ν).strings (patchT d ν σ) k = patchCall d ν (appendCall o (V.on μ).strings σ k) := by
  cases k with
  | succ k => rfl
  | zero =>
    simp only [appendCall, patchCall]
    congr 1
    cases d with
    | none => rfl
    | some d =>
      simp only [patchT]
      funext s
      by_cases e : s = d
      · subst e; rw [upd_same, on_strings, on_strings, h s rfl]
      · rw [upd_ne e]; rfl

theorem stepX_on {op : HeldOp} (hag : ∀ s ∈ names V (.op op), μ s = ν s) :
    (V.on ν).stepX sort fuel k op =
      ((V.on μ).stepX sort fuel k op >>= fun r => .ok (patchCall (target V (.op op)) ν r)) := by
  cases op with
  | appendCps d v =>
    have h1 := hag d (by simp [names])
    simp only [HeldMachine.stepX, on_strings, h1]
    rw [bind_assoc]
    congr 1
    funext r
    cases r <;> simp [patchCall, patchT, target, upd_same, HeldVars.on]
  | convert d src =>
    have h1 := hag d (by simp [names])
    have h2 : ∀ s ∈ placeOf V src, μ s = ν s := fun s hs => hag s (by simp [names, hs])
    simp only [HeldMachine.stepX, opened_on h2]
    cases ho : (V.on μ).opened src with
    | ok x =>
      have h3 := h2 x.1 (opened_mem ho)
      simp only [Res.bind_ok]
      split
      · rfl
      · simp only [on_strings, h1, h3]
        simp only [bind_assoc]
        congr 1
        funext cs
        congr 1
        funext r
        cases r <;> simp [patchCall, patchT, target, upd_same, HeldVars.on]
    | _ => rfl
  | normalize F d src =>
    have h1 := hag d (by simp [names])
    have h2 : ∀ s ∈ placeOf V src, μ s = ν s := fun s hs => hag s (by simp [names, hs])
    simp only [HeldMachine.stepX, opened_on h2]
    cases ho : (V.on μ).opened src with
    | ok x =>
      have h3 := h2 x.1 (opened_mem ho)
      simp only [Res.bind_ok]
      split
      · rfl
      · simp only [on_strings, h1, h3]
        simp only [bind_assoc]
        congr 1
        funext r
        cases r <;> simp [patchCall, patchT, target, upd_same, HeldVars.on]
    | _ => rfl
  | copy d s | append d src | appendGraphemes d src =>
    have hd : ∀ s, some d = some s → μ s = ν s := by
      intro s e; obtain rfl := Option.some.inj e; exact hag d (by simp [names])
    simp only [HeldMachine.stepX, step_on hag, bind_assoc]
    congr 1
    funext r
    simp only [Res.bind_ok, Res.pure_eq, target]
    rw [appendCall_patch hd]
  | clear | write | transform | read | readBack | readGraphemes | equal | less | countIf =>
    simp only [HeldMachine.stepX, step_on hag, bind_assoc]
    congr 1

/-- `ν`, the string `d` as in `μ`. -/
def patchC (d : Option Nat) (ν μ : Nat → HeldCell) : Nat → HeldCell :=
  match d with
  | some d => upd ν d (μ d)
  | none => ν

theorem on_eq {V V' : HeldVars} {μ ν : Nat → HeldCell} (h : V = V') (h' : ∀ s, μ s = ν s) : V.on μ = V'.on ν := by
  rw [h, funext h']

theorem machine_on (M : HeldMachine) : M.vars.on M.cells = M := rfl

theorem after_on {op : HeldOp} {σ : Nat → Text} (hag : ∀ s ∈ names V (.op op), μ s = ν s) :
    (V.on ν).after op (patchT (target V (.op op)) ν σ) =
      V.on (patchC (target V (.op op)) ν ((V.on μ).after op σ).cells) := by
  have key : ∀ d, target V (.op op) = some d → μ d = ν d →
      (V.on ν).after op (upd (fun s => (ν s).text) d (σ d)) = V.on (upd ν d (((V.on μ).after op σ).cells d)) := by
    intro d hd he
    cases hi : op.invalidates with
    | none =>
      simp only [HeldMachine.after, hi, HeldVars.on, HeldMachine.cells, HeldMachine.mk.injEq, and_true]
      refine ⟨funext fun s => ?_, funext fun s => ?_⟩
      · by_cases e : s = d
        · subst e; simp only [upd_same]
        · simp only [upd_ne e]
      · by_cases e : s = d
        · subst e; simp only [upd_same, he]
        · simp only [upd_ne e]
    | some d' =>
      have : d' = d := by
        cases op <;> simp only [HeldOp.invalidates, target, reduceCtorEq, Option.some.injEq] at hi hd
        all_goals (rw [← hi, ← hd])
      subst this
      simp only [HeldMachine.after, hi, HeldVars.on, HeldMachine.cells, HeldMachine.mk.injEq, and_true]
      refine ⟨funext fun s => ?_, funext fun s => ?_⟩
      · by_cases e : s = d'
        · subst e; simp only [upd_same]
        · simp only [upd_ne e]
      · by_cases e : s = d'
        · subst e; simp only [upd_same, he]
        · simp only [upd_ne e]
  cases op with
  | copy d | clear d | append d | appendCps d | convert d | appendGraphemes d | normalize F d | write d | transform d =>
    exact key d rfl (hag d (by simp [names]))
  | read | readBack | readGraphemes | equal | less | countIf => rfl

theorem exec_on {st : HeldStmt} (hag : ∀ s ∈ names V st, μ s = ν s) :
    (V.on ν).execX sort fuel k st =
      ((V.on μ).execX sort fuel k st >>= fun r => .ok (r.1.vars.on (patchC (target V st) ν r.1.cells), r.2)) := by
  cases st with
  | op op =>
    simp only [HeldMachine.execX, stepX_on hag, bind_assoc]
    congr 1
    funext r
    have hv : ∀ σ, ((V.on μ).after op σ).vars = V := by
      intro σ; simp only [HeldMachine.after]; split <;> rfl
    cases r <;> simp only [Res.bind_ok, Res.pure_eq, patchCall, after_on hag, hv]
  | hold v src | first v src | last v src | gfirst v src | glast v src =>
    have h2 : ∀ s ∈ placeOf V src, μ s = ν s := fun s hs => hag s hs
    simp only [HeldMachine.execX, HeldMachine.exec, opened_on h2]
    cases ho : (V.on μ).opened src with
    | ok x =>
      have h3 := h2 x.1 (opened_mem ho)
      simp [patchC, target, on_strings, h3, bind_assoc, HeldVars.on, HeldMachine.setView, HeldMachine.setIt,
        HeldMachine.setGit, HeldMachine.vars]
    | _ => rfl
  | mfirst m s | mlast m s =>
    have h3 := hag s (by simp [names])
    simp [HeldMachine.execX, HeldMachine.exec, patchC, target, HeldVars.on, HeldMachine.setMit, HeldMachine.vars, h3]
  | assign _ i | next i | prev i | get i =>
    have h2 : ∀ s ∈ (V.its i).toList.map (·.1), μ s = ν s := fun s hs => hag s hs
    simp only [HeldMachine.execX, HeldMachine.exec, it_on h2]
    cases ho : (V.on μ).it i with
    | ok x =>
      have h3 := h2 x.1 (it_mem ho)
      simp [patchC, target, on_strings, h3, bind_assoc, HeldVars.on, HeldMachine.setIt, HeldMachine.vars]
    | _ => rfl
  | same i j =>
    have h2 : ∀ s ∈ (V.its i).toList.map (·.1), μ s = ν s := fun s hs => hag s (List.mem_append_left _ hs)
    have h2' : ∀ s ∈ (V.its j).toList.map (·.1), μ s = ν s := fun s hs => hag s (List.mem_append_right _ hs)
    simp only [HeldMachine.execX, HeldMachine.exec, it_on h2, it_on h2']
    cases ho : (V.on μ).it i with
    | ok x =>
      have h3 := h2 x.1 (it_mem ho)
      cases ho' : (V.on μ).it j with
      | ok y =>
        simp only [Res.bind_ok]
        split
        · simp [patchC, target, on_strings, h3, bind_assoc, HeldVars.on, HeldMachine.vars]
        · rfl
      | _ => rfl
    | _ => rfl
  | gassign _ i | gnext i | gget i | gstart _ i | gstop _ i =>
    have h2 : ∀ s ∈ (V.gits i).toList.map (·.1), μ s = ν s := fun s hs => hag s hs
    simp only [HeldMachine.execX, HeldMachine.exec, git_on h2]
    cases ho : (V.on μ).git i with
    | ok x =>
      have h3 := h2 x.1 (git_mem ho)
      simp [patchC, target, on_strings, h3, bind_assoc, HeldVars.on, HeldMachine.setIt, HeldMachine.setGit, HeldMachine.vars]
    | _ => rfl
  | gsame i j =>
    have h2 : ∀ s ∈ (V.gits i).toList.map (·.1), μ s = ν s := fun s hs => hag s (List.mem_append_left _ hs)
    have h2' : ∀ s ∈ (V.gits j).toList.map (·.1), μ s = ν s := fun s hs => hag s (List.mem_append_right _ hs)
    simp only [HeldMachine.execX, HeldMachine.exec, git_on h2, git_on h2']
    cases ho : (V.on μ).git i with
    | ok x =>
      have h3 := h2 x.1 (git_mem ho)
      cases ho' : (V.on μ).git j with
      | ok y =>
        simp only [Res.bind_ok]
        split
        · simp [patchC, target, on_strings, h3, bind_assoc, HeldVars.on, HeldMachine.vars]
        · rfl
      | _ => rfl
    | _ => rfl
  | massign _ i | mnext i | mprev i | mget i =>
    have h2 : ∀ s ∈ (V.mits i).toList.map (·.1), μ s = ν s := fun s hs => hag s hs
    simp only [HeldMachine.execX, HeldMachine.exec, mit_on h2]
    cases ho : (V.on μ).mit i with
    | ok x =>
      have h3 := h2 x.1 (by simp [mit_mem ho])
      simp [patchC, target, on_strings, h3, bind_assoc, HeldVars.on, HeldMachine.setMit, HeldMachine.vars]
    | _ => rfl
  | msame i j =>
    have h2 : ∀ s ∈ (V.mits i).toList.map (·.1), μ s = ν s := fun s hs => hag s (List.mem_append_left _ hs)
    have h2' : ∀ s ∈ (V.mits j).toList.map (·.1), μ s = ν s := fun s hs => hag s (List.mem_append_right _ hs)
    simp only [HeldMachine.execX, HeldMachine.exec, mit_on h2, mit_on h2']
    cases ho : (V.on μ).mit i with
    | ok x =>
      have h3 := h2 x.1 (by simp [mit_mem ho])
      cases ho' : (V.on μ).mit j with
      | ok y =>
        simp only [Res.bind_ok]
        split
        · simp [patchC, target, on_strings, h3, bind_assoc, HeldVars.on, HeldMachine.vars]
        · rfl
      | _ => rfl
    | _ => rfl
  | mset i c =>
    have h2 : ∀ s ∈ (V.mits i).toList.map (·.1), μ s = ν s := fun s hs => hag s hs
    simp only [HeldMachine.execX, HeldMachine.exec, mit_on h2]
    cases ho : (V.on μ).mit i with
    | ok x =>
      have h4 := mit_mem ho
      have h3 := h2 x.1 (by simp [h4])
      simp only [Res.bind_ok, on_strings, h3, bind_assoc, target, h4, Option.map_some, patchC]
      congr 1
      funext r
      simp only [Res.pure_eq, Res.bind_ok, Res.ok.injEq, Prod.mk.injEq, and_true]
      simp only [HeldMachine.setMit, HeldVars.on, HeldMachine.vars, HeldMachine.cells, HeldMachine.mk.injEq, true_and, h3,
        and_true]
      refine ⟨funext fun s => ?_, funext fun s => ?_⟩
      · by_cases e : s = x.1
        · subst e; simp only [upd_same]
        · simp only [upd_ne e]
      · by_cases e : s = x.1
        · subst e; simp only [upd_same, h3]
        · simp only [upd_ne e]
    | _ => rfl

end U5e
