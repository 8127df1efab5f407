import Verif.Model.Script
/-! # How the files recorded in Data/Raw*.lean are to be read -/
namespace U5e

/-- The octets of a line recorded by tools/gen_raw.py: little-endian, up to the last non-zero octet. -/
def octets (n : Nat) : Str :=
  if n = 0 then [] else n % 256 :: octets (n / 256)
termination_by n
decreasing_by omega

/-- The text of a file all of whose lines end in a newline. -/
def textOf (raw : List Nat) : Str := raw.flatMap (fun n => octets n ++ [10])

/-- The text of a file with newlines between its lines only. -/
def textOfOpen (raw : List Nat) : Str := join [10] (raw.map octets)

end U5e
