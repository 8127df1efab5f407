import Verif.Spec.Utf8
/-! Specification vocabulary about texts given as lists of units (Spec/Utf8.lean). -/
namespace U5e.Spec

/-- Which unit the octet offset `x` of the text lies in; the end offset lies in "unit number
`us.length`". -/
def unitIndex : List (List UInt8) → Nat → Nat
  | [], _ => 0
  | u :: us, x => if x < u.length then 0 else unitIndex us (x - u.length) + 1

/-- A text made of well-shaped sequences. -/
def WellShaped (us : List (List UInt8)) : Prop := ∀ u ∈ us, IsUnit u

end U5e.Spec
