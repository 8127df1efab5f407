import Verif.Model.Views
/-! # When threads over strings and views do not interfere: which strings a statement touches -/
namespace U5e.Spec

/-- The string a statement may change. -/
def changesV : VOp → Option Nat
  | .copy d _ | .clear d | .append d _ | .appendCps d _ | .convert d _ | .appendGraphemes d _ _ _
  | .normalize _ d _ => some d
  | .write s _ _ | .transform s _ => some s
  | .read _ | .readBack _ | .readGraphemes _ | .equal _ _ | .less _ _ | .countIf _ _ => none

/-- The strings a statement reads or changes. Through a view it reads the string the view belongs to. -/
def touchesV : VOp → List Nat
  | .copy d s => [d, s]
  | .append d src | .convert d src | .appendGraphemes d src _ _ | .normalize _ d src => [d, src.string]
  | .clear d | .appendCps d _ => [d]
  | .equal a b | .less a b => [a.string, b.string]
  | .write s _ _ | .transform s _ => [s]
  | .read src | .readBack src | .readGraphemes src | .countIf src _ => [src.string]

/-- No thread changes a string that another thread reads or changes, be it through a view. -/
def RaceFreeV (P : Nat → List VOp) : Prop :=
  ∀ t u, t ≠ u → ∀ op ∈ P t, ∀ k, changesV op = some k → ∀ op' ∈ P u, k ∉ touchesV op'

end U5e.Spec
