import Verif.Model.History
/-! # When threads do not interfere: which strings a statement touches -/
namespace U5e.Spec

/-- The string a statement may change. -/
def changes : Op → Option Nat
  | .copy d _ | .clear d | .appendRange d _ _ _ | .appendCps d _ | .appendGraphemes d _ _ _ | .normalize _ d _ => some d
  | .write s _ _ | .transform s _ => some s
  | .read _ | .readBack _ | .readGraphemes _ | .equal _ _ | .less _ _ | .countIf _ _ => none

/-- The strings a statement reads or changes. -/
def touches : Op → List Nat
  | .copy d s | .appendRange d s _ _ | .appendGraphemes d s _ _ | .normalize _ d s => [d, s]
  | .clear d | .appendCps d _ => [d]
  | .equal s t | .less s t => [s, t]
  | .write s _ _ | .transform s _ | .read s | .readBack s | .readGraphemes s | .countIf s _ => [s]

/-- No thread changes a string that another thread reads or changes. Reading the same string in several threads is
fine. -/
def RaceFree (P : Nat → List Op) : Prop :=
  ∀ t u, t ≠ u → ∀ op ∈ P t, ∀ k, changes op = some k → ∀ op' ∈ P u, k ∉ touches op'

/-- What thread `t` printed. -/
def printedBy (t : Nat) (os : List (Nat × Obs)) : List Obs :=
  (os.filter (fun x => x.1 == t)).map (·.2)

end U5e.Spec
