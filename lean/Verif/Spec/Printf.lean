/-! What `printf` promises for the conversion `%06llx`. -/
namespace U5e.Spec

/-- The value of a hexadecimal digit in lower case. -/
def hexVal (c : Char) : Option Nat :=
  if '0' ≤ c ∧ c ≤ '9' then some (c.toNat - '0'.toNat)
  else if 'a' ≤ c ∧ c ≤ 'f' then some (c.toNat - 'a'.toNat + 10)
  else none

/-- The value of a string of hexadecimal digits. -/
def hexValue : List Char → Option Nat
  | [] => some 0
  | s => s.foldl (fun a c => do let x ← a; let d ← hexVal c; pure (x * 16 + d)) (some 0)

/-- `%06llx`: hexadecimal digits in lower case with the value of the argument, at least six, and no more
zeros in front than needed for that. -/
structure Hex6 (n : Nat) (s : List Char) : Prop where
  value : hexValue s = some n
  width : 6 ≤ s.length
  minimal : 6 < s.length → s.head? ≠ some '0'

end U5e.Spec
