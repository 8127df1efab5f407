import Verif.Spec.Octets
/-! To which codepoint an octet belongs, in memory holding anything. -/
namespace U5e.Spec

/-- The octet at `p` belongs to the codepoint that begins at `s`: there is a beginning at `s`, and from there to `p`
there are only continuation octets. -/
def Of (m : List UInt8) (s p : Nat) : Prop :=
  Begins m s ∧ s ≤ p ∧ ∀ k, s < k → k ≤ p → ∃ c, m[k]? = some c ∧ IsContinuation c

/-- What `*it` gives at an octet of the codepoint beginning at `s`: the value there, except that at a stray
continuation octet after a 7-bit octet it is the low six bits of that octet. -/
def readAt (m : List UInt8) (s p : Nat) : Int :=
  match m[s]? with
  | some l => if l.toNat < 0x80 ∧ p ≠ s then l.toNat % 64 else valueAt m s
  | none => 0

/-- How many octets u5e writes for the `int` `v` (for `v = 0` see C72_write). -/
def width (v : Int) : Nat :=
  if v < 0 then 6 else if v < 0x80 then 1 else if v < 0x2000 then 2 else if v < 0x80000 then 3
  else if v < 0x2000000 then 4 else 5

/-- The octets u5e writes for the `int` `v`: the value itself if that is one octet; otherwise six bits in each octet,
most significant first, the first octet marked with as many ones as there are octets (over whatever bits of the value
are left for it), the others with 10. -/
def octetsOf (v : Int) : List UInt8 :=
  if width v = 1 then [UInt8.ofNat v.toNat]
  else UInt8.ofNat ((256 - 2 ^ (8 - width v)) ||| (v / 64 ^ (width v - 1) % 256).toNat) ::
    (List.range (width v - 1)).reverse.map fun k => UInt8.ofNat (0x80 + (v / 64 ^ k % 64).toNat)

/-- The octets u5e appends to a UTF-8 string for the `int` `v`: of the octets written into a buffer of zeros, as many as
the first of them claims. -/
def appendedFor (v : Int) : List UInt8 :=
  (octetsOf v ++ List.replicate (6 - width v) 0).take (claimed ((octetsOf v).headD 0))

end U5e.Spec
