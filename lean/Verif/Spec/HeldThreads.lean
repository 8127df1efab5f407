import Verif.Spec.HeldThrow
import Verif.Spec.ViewThreads
/-! # When threads that hold views and iterators do not interfere

`owner s = some t`: string `s` is thread `t`'s, no other thread reads or changes it. `owner s = none`: all may read
string `s`, nobody changes it. -/
namespace U5e.Spec

/-- Thread `t` may read string `s`. -/
def mayRead (owner : Nat → Option Nat) (t s : Nat) : Bool := owner s == none || owner s == some t

/-- The variables of the strings a thread may read. -/
def HeldWorld.given (w : HeldWorld) (can : Nat → Bool) : HeldWorld :=
  ⟨w.strings, fun v => (w.views v).filter fun x => can x.string, fun i => (w.its i).filter fun x => can x.string,
    fun g => (w.gits g).filter fun x => can x.string, fun m => (w.mits m).filter fun x => can x.string⟩

/-- The strings a statement reads or changes, or of which it makes a view or an iterator. -/
def touchesHeld (w : HeldWorld) : HeldStmt → List Nat
  | .op op => match w.plain op with
    | some op' => touchesV op'
    | none => []
  | .hold _ src | .first _ src | .last _ src | .gfirst _ src | .glast _ src => match w.source src with
    | some x => [x.string]
    | none => []
  | .mfirst _ s | .mlast _ s => [s]
  | .assign _ i | .next i | .prev i | .get i | .same i _ => match w.its i with
    | some x => [x.string]
    | none => []
  | .gassign _ g | .gnext g | .gget g | .gsame g _ | .gstart _ g | .gstop _ g => match w.gits g with
    | some x => [x.string]
    | none => []
  | .massign _ m | .mnext m | .mprev m | .mget m | .msame m _ | .mset m _ => match w.mits m with
    | some x => [x.string]
    | none => []

/-- The string a statement may change. -/
def changesHeld (w : HeldWorld) : HeldStmt → Option Nat
  | .op op => match w.plain op with
    | some op' => changesV op'
    | none => none
  | .mset m _ => match w.mits m with
    | some x => some x.string
    | none => none
  | .hold _ _ | .first _ _ | .last _ _ | .assign _ _ | .next _ | .prev _ | .get _ | .same _ _ | .gfirst _ _ | .glast _ _
  | .gassign _ _ | .gnext _ | .gget _ | .gsame _ _ | .gstart _ _ | .gstop _ _ | .mfirst _ _ | .mlast _ _ | .massign _ _
  | .mnext _ | .mprev _ | .mget _ | .msame _ _ => none

/-- The statement only touches strings the thread may read and only changes its own. -/
def Respects (owner : Nat → Option Nat) (t : Nat) (w : HeldWorld) (st : HeldStmt) : Prop :=
  (∀ s ∈ touchesHeld w st, mayRead owner t s = true) ∧ ∀ s, changesHeld w st = some s → owner s = some t

/-- The first `n` statements of thread `t`, when it runs alone, are allowed and respect the owners. -/
def Ucd.MayRunOwned (U : Ucd) (τ : Nat → Kind) (owner : Nat → Option Nat) (t : Nat) (client : CatchClient)
    (calls : Nat → Nat) : Nat → HeldWorld → List (Option Obs) → Prop
  | 0, _, _ => True
  | n + 1, w, os => ∀ st, client os = some st →
      U.MayHeld τ w st ∧ Respects owner t w st ∧ ∀ w1 o, U.DoesCatch τ w st (calls os.length) w1 o →
        MayRunOwned U τ owner t client calls n w1 (os ++ [o])

end U5e.Spec
