/-!
# Independent specification of UTF-8

RFC 2279 form (1 to 6 octets, 31-bit values); RFC 3629 / Unicode restrict it to scalar values
below 0x110000, which is the sub-case `isScalar`. `encode_eq_core` (Proofs/Utf8Spec.lean) proves
that on Unicode scalar values it is Lean core's own `String.utf8EncodeChar`.
Nothing here refers to the model of the C++ code.
-/
namespace U5e.Spec

/-- The UTF-8 encoding of a codepoint below 2^31 (RFC 2279 table). -/
def encode (c : Nat) : List UInt8 :=
  if c < 0x80 then [UInt8.ofNat c]
  else if c < 0x800 then
    [UInt8.ofNat (0xC0 + c / 0x40), UInt8.ofNat (0x80 + c % 0x40)]
  else if c < 0x10000 then
    [UInt8.ofNat (0xE0 + c / 0x1000), UInt8.ofNat (0x80 + c / 0x40 % 0x40),
     UInt8.ofNat (0x80 + c % 0x40)]
  else if c < 0x200000 then
    [UInt8.ofNat (0xF0 + c / 0x40000), UInt8.ofNat (0x80 + c / 0x1000 % 0x40),
     UInt8.ofNat (0x80 + c / 0x40 % 0x40), UInt8.ofNat (0x80 + c % 0x40)]
  else if c < 0x4000000 then
    [UInt8.ofNat (0xF8 + c / 0x1000000), UInt8.ofNat (0x80 + c / 0x40000 % 0x40),
     UInt8.ofNat (0x80 + c / 0x1000 % 0x40), UInt8.ofNat (0x80 + c / 0x40 % 0x40),
     UInt8.ofNat (0x80 + c % 0x40)]
  else
    [UInt8.ofNat (0xFC + c / 0x40000000), UInt8.ofNat (0x80 + c / 0x1000000 % 0x40),
     UInt8.ofNat (0x80 + c / 0x40000 % 0x40), UInt8.ofNat (0x80 + c / 0x1000 % 0x40),
     UInt8.ofNat (0x80 + c / 0x40 % 0x40), UInt8.ofNat (0x80 + c % 0x40)]

/-- Encoding of a text. -/
def encodeText (cs : List Nat) : List UInt8 := cs.flatMap encode

/-- A continuation octet: 10xxxxxx. -/
def IsContinuation (o : UInt8) : Prop := 0x80 ≤ o.toNat ∧ o.toNat < 0xC0

instance (o : UInt8) : Decidable (IsContinuation o) := inferInstanceAs (Decidable (_ ∧ _))

/-- The number of octets announced by the first octet of a sequence; 0 if the octet cannot start
a sequence (continuation octets, 0xFE, 0xFF). -/
def announced (o : UInt8) : Nat :=
  if o.toNat < 0x80 then 1
  else if o.toNat < 0xC0 then 0
  else if o.toNat < 0xE0 then 2
  else if o.toNat < 0xF0 then 3
  else if o.toNat < 0xF8 then 4
  else if o.toNat < 0xFC then 5
  else if o.toNat < 0xFE then 6
  else 0

/-- A *unit*: one well-shaped octet sequence, i.e. a first octet followed by exactly the announced
number of continuation octets. Overlong forms are units too. -/
def IsUnit : List UInt8 → Prop
  | [] => False
  | l :: cs => announced l = cs.length + 1 ∧ ∀ c ∈ cs, IsContinuation c

instance : (u : List UInt8) → Decidable (IsUnit u)
  | [] => inferInstanceAs (Decidable False)
  | _ :: _ => inferInstanceAs (Decidable (_ ∧ _))

/-- Payload bits of the first octet. -/
def leadPayload (o : UInt8) : Nat :=
  if o.toNat < 0x80 then o.toNat
  else if o.toNat < 0xE0 then o.toNat - 0xC0
  else if o.toNat < 0xF0 then o.toNat - 0xE0
  else if o.toNat < 0xF8 then o.toNat - 0xF0
  else if o.toNat < 0xFC then o.toNat - 0xF8
  else o.toNat - 0xFC

/-- The value carried by a unit: payload of the first octet followed by six bits per continuation
octet, most significant first. -/
def payload : List UInt8 → Nat
  | [] => 0
  | l :: cs => cs.foldl (fun v c => v * 64 + (c.toNat - 0x80)) (leadPayload l)

/-- Unicode scalar value. -/
def isScalar (c : Nat) : Prop := c < 0x110000 ∧ ¬ (0xD800 ≤ c ∧ c < 0xE000)

end U5e.Spec
