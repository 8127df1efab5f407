import Verif.Model.Res
/-!
# Model of include/u5e/utf8_util.hpp

Octets are `UInt8` (C++ `char`, signed here; C65 proves that the signedness is irrelevant),
C++ `int` is `BitVec 32`.
-/
namespace U5e

/-- An octet. C++ `char` as used throughout include/u5e/utf8_iterator.hpp. -/
abbrev Octet := UInt8

/-- `(char → int)` promotion of a signed `char` (x86 ABI), utf8_util.hpp:17-55 (implicit). -/
def promote (o : Octet) : BitVec 32 := o.toBitVec.signExtend 32

/-- utf8_util.hpp:17-23 `is_7bit_character`. -/
def is7bit (o : Octet) : Bool :=
  if promote o &&& 0b10000000#32 ≠ 0#32 then false else true

/-- utf8_util.hpp:28-34 `is_codepoint_continuation`. -/
def isCont (o : Octet) : Bool :=
  if promote o &&& 0b11000000#32 = 0b10000000#32 then true else false

/-- utf8_util.hpp:39-45 `is_codepoint_start`. -/
def isStart (o : Octet) : Bool :=
  if promote o &&& 0b11000000#32 = 0b11000000#32 then true else false

/-- GCC `__builtin_clz` on a 32-bit `int`: undefined for 0 (utf8_util.hpp:54, 61). -/
def builtinClz (v : BitVec 32) : Res Nat :=
  if v = 0#32 then .ub else .ok v.clz.toNat

/-- utf8_util.hpp:50-55 `codepoint_size`: `std::max(__builtin_clz(~(first_octet << 24)), 1)`. -/
def codepointSizeRes (o : Octet) : Res Nat := do
  let z ← builtinClz (~~~ (promote o <<< 24))
  pure (max z 1)

/-- `codepoint_size` as a plain number. `codepointSizeRes_eq` (Proofs/Octet.lean) shows that the
C++ expression is defined and equal to this for all 256 octets. utf8_util.hpp:50-55. -/
def cpSize (o : Octet) : Nat :=
  match codepointSizeRes o with
  | .ok n => n
  | _ => 0

/-- utf8_util.hpp:60-62 `encoded_size`: `std::ceil((float)(32 - __builtin_clz(value) - 1) / 6)`.
Simplification: the float division and `ceil` are done as the integer `(k + 5) / 6`, which is
exact since `0 ≤ k ≤ 31` (proved in Proofs/Platform, `encodedSize_eq`). `__builtin_clz(0)` is undefined, so `value = 0` is `ub`. -/
def encodedSize (value : BitVec 32) : Res Nat := do
  let z ← builtinClz value
  let k := 32 - z - 1
  pure ((k + 5) / 6)

end U5e
