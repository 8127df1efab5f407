import Verif.Model.History
import Verif.Model.Utf8Bounds
/-!
# The UTF-8 functions on different implementations of C++

`Model/Utf8Util` and the files above it fix what x86 and GCC do where C++ leaves a choice. Here the same functions
are modelled again with those choices as parameters: the signedness of `char`, the rule for `<<` on a signed
`int`, what `>>` does with a negative `int`, the precision and the rounding mode of the `float` division in
`encoded_size`. `int` has 32 bits throughout (`codepoint_size` shifts by 24).
-/
namespace U5e

/-- Number of significant bits of the `float` division in utf8_util.hpp:61: `float`, `double` or extended, as allowed
by FLT_EVAL_METHOD 0, 1 and 2. -/
inductive FloatFormat where
  | single
  | double
  | extended
  deriving DecidableEq, Repr

/-- utf8_util.hpp:61, see `FloatFormat`. -/
def FloatFormat.bits : FloatFormat → Nat
  | .single => 24
  | .double => 53
  | .extended => 64

/-- Rounding mode of the division in utf8_util.hpp:61 (`fesetround`). -/
inductive Rounding where
  | nearestEven
  | up
  | down
  deriving DecidableEq, Repr

/-- An implementation of C++ as far as include/u5e/utf8_util.hpp and utf8_iterator.hpp can tell. -/
structure Platform where
  /-- `char` is signed (x86) or unsigned (ARM, POWER): utf8_util.hpp:17-55. -/
  charSigned : Bool
  /-- `<<` by the letter of C++14 (the project compiles with -std=c++1y): a negative left operand, or a result that does
  not fit `unsigned int`, is undefined. Otherwise, as in GCC and in C++20, the bits are moved. utf8_util.hpp:54,
  utf8_iterator.hpp:94-97. -/
  strictShl : Bool
  /-- `>>` of a negative `int` copies the sign (GCC, C++20) or fills with zeros; C++14 leaves the choice.
  utf8_iterator.hpp:323, 327. -/
  arithShr : Bool
  floatFormat : FloatFormat
  rounding : Rounding
  deriving DecidableEq, Repr

/-- The platform that the rest of the model fixes: x86-64, GCC. utf8_util.hpp:17-62. -/
def x86 : Platform := ⟨true, false, true, .single, .nearestEven⟩

namespace Platform

/-- `char` to `int`. utf8_util.hpp:17-55, utf8_iterator.hpp:86, 95, 97. -/
def promote (M : Platform) (o : Octet) : BitVec 32 :=
  if M.charSigned then o.toBitVec.signExtend 32 else o.toBitVec.zeroExtend 32

/-- `v << n` on `int`. utf8_util.hpp:54, utf8_iterator.hpp:94-97, 322. -/
def shl (M : Platform) (v : BitVec 32) (n : Nat) : Res (BitVec 32) :=
  if 32 ≤ n then .ub
  else if M.strictShl && (v.msb || decide (2 ^ 32 ≤ v.toNat * 2 ^ n)) then .ub
  else .ok (v <<< n)

/-- `v >> n` on `int`. utf8_iterator.hpp:323, 327. -/
def shr (M : Platform) (v : BitVec 32) (n : Nat) : BitVec 32 :=
  if M.arithShr then v.sshiftRight n else v >>> n

/-- utf8_util.hpp:17-23 `is_7bit_character`. -/
def is7bit (M : Platform) (o : Octet) : Bool :=
  if M.promote o &&& 0b10000000#32 ≠ 0#32 then false else true

/-- utf8_util.hpp:28-34 `is_codepoint_continuation`. -/
def isCont (M : Platform) (o : Octet) : Bool :=
  if M.promote o &&& 0b11000000#32 = 0b10000000#32 then true else false

/-- utf8_util.hpp:39-45 `is_codepoint_start`. -/
def isStart (M : Platform) (o : Octet) : Bool :=
  if M.promote o &&& 0b11000000#32 = 0b11000000#32 then true else false

/-- utf8_util.hpp:50-55 `codepoint_size`. -/
def codepointSize (M : Platform) (o : Octet) : Res Nat := do
  let v ← M.shl (M.promote o) 24
  let z ← builtinClz (~~~ v)
  pure (max z 1)

/-- A positive quotient `a / b` rounded to `P` significant bits: `(n, s)` stands for `n / 2^s`. The scale `s` is the one
that makes the exact quotient lie between `2^(P-1)` and `2^P`. utf8_util.hpp:61. -/
def fdiv (P : Nat) (mode : Rounding) (a b : Nat) : Nat × Nat :=
  if a = 0 then (0, 0)
  else
    let s0 := P + b.log2 - a.log2
    let s := if 2 ^ P ≤ a * 2 ^ s0 / b then s0 - 1 else s0
    let n := a * 2 ^ s / b
    let r := a * 2 ^ s % b
    let roundUp := match mode with
      | .down => false
      | .up => decide (r ≠ 0)
      | .nearestEven => decide (b < 2 * r) || (decide (b = 2 * r) && decide (n % 2 = 1))
    (if roundUp then n + 1 else n, s)

/-- `std::ceil` of `n / 2^s`. utf8_util.hpp:61. -/
def fceil (x : Nat × Nat) : Nat := (x.1 + 2 ^ x.2 - 1) / 2 ^ x.2

/-- utf8_util.hpp:60-62 `encoded_size`, with the division in floating point. -/
def encodedSize (M : Platform) (value : BitVec 32) : Res Nat := do
  let z ← builtinClz value
  pure (fceil (fdiv M.floatFormat.bits M.rounding (32 - z - 1) 6))

/-- utf8_iterator.hpp:49-58 `rewind_to_start_of_codepoint`, also 75-77. -/
def rewind (M : Platform) (m : Mem) : Nat → Res Nat
  | 0 => do
    let o ← rd m 0
    if M.isCont o then .ub else pure 0
  | p + 1 => do
    let o ← rd m (p + 1)
    if M.isCont o then rewind M m p else pure (p + 1)

/-- utf8_iterator.hpp:63-67 `forward_one_codepoint`. -/
def fwd (M : Platform) (m : Mem) (p : Nat) : Res Nat := do
  let s ← M.rewind m p
  let o ← rd m s
  let n ← M.codepointSize o
  adv m s n

/-- utf8_iterator.hpp:72-78 `rewind_one_codepoint`. -/
def bwd (M : Platform) (m : Mem) (p : Nat) : Res Nat := do
  let s ← M.rewind m p
  let q ← retreat s
  M.rewind m q

/-- utf8_iterator.hpp:96-98, the loop of `current_codepoint`. -/
def decLoop (M : Platform) (m : Mem) : Nat → Nat → BitVec 32 → Res (BitVec 32)
  | 0, _, v => pure v
  | n + 1, q, v => do
    let w ← M.shl v 6
    let q' ← adv m q 1
    let o ← rd m q'
    decLoop M m n q' (w ||| (M.promote o &&& 0b00111111#32))

/-- utf8_iterator.hpp:94 `~(0xFF << (7 - size))` truncated to `unsigned char`. -/
def maskFirst (M : Platform) (size : Nat) : Res (BitVec 32) :=
  if size ≤ 7 then do
    let v ← M.shl 0xFF#32 (7 - size)
    pure (~~~ v &&& 0xFF#32)
  else .ub

/-- utf8_iterator.hpp:83-101 `current_codepoint`. -/
def cur (M : Platform) (m : Mem) (p : Nat) : Res (Int × Nat) := do
  let o ← rd m p
  if M.is7bit o then pure ((M.promote o).toInt, p)
  else
    let s ← M.rewind m p
    let f ← rd m s
    let size ← M.codepointSize f
    let mask ← M.maskFirst size
    let v ← M.decLoop m (size - 1) s (M.promote f &&& mask)
    pure (v.toInt, s)

/-- utf8_iterator.hpp:166-181 and 263-278 `operator==`. -/
def iterEq (M : Platform) (m : Mem) (lhs rhs : Nat) : Res Bool := do
  let s ← M.rewind m lhs
  let o ← rd m s
  let n ← M.codepointSize o
  eqLoop m rhs n s

/-- utf8_iterator.hpp:110-195 `utf8_const_iterator`. -/
def utf8Iter (M : Platform) (m : Mem) : CpIter where
  deref := M.cur m
  inc := M.fwd m
  dec := M.bwd m
  eq := M.iterEq m

/-- utf8_iterator.hpp:322-323, the first octet of a sequence of `size ≥ 2` octets. -/
def firstOctet (M : Platform) (value : BitVec 32) (size : Nat) : Res Octet := do
  let h ← M.shl 0xFF#32 (8 - size)
  pure (lowOctet (h ||| (M.shr value ((size - 1) * 6) &&& 0xFF#32)))

/-- utf8_iterator.hpp:326-327, a continuation octet. -/
def contOctet (M : Platform) (value : BitVec 32) (size : Nat) : Octet :=
  lowOctet (0b10000000#32 ||| (M.shr value ((size - 1) * 6) &&& 0b00111111#32))

/-- utf8_iterator.hpp:325-330, the loop of `operator=`. -/
def contLoop (M : Platform) (value : BitVec 32) : Nat → Mem → Nat → Res (Mem × Nat)
  | 0, m, p => pure (m, p)
  | size + 1, m, p => do
    let p' ← adv m p 1
    let m' ← wr m p' (M.contOctet value (size + 1))
    contLoop M value size m' p'

/-- utf8_iterator.hpp:316-333 `proxyobject::operator=(codepoint)`. -/
def putCodepoint (M : Platform) (m : Mem) (p : Nat) (value : BitVec 32) : Res (Mem × Nat) := do
  let size ← M.encodedSize value
  if size ≤ 1 then
    let m' ← wr m p (lowOctet (value &&& 0xFF#32))
    pure (m', p)
  else
    let o ← M.firstOctet value size
    let m' ← wr m p o
    M.contLoop value (size - 1) m' p

/-- `*it = c`: utf8_iterator.hpp:340-342, 303-307, 316-333. -/
def assign (M : Platform) (m : Mem) (p : Nat) (value : BitVec 32) : Res (Mem × Nat) := do
  let _ ← M.cur m p
  M.putCodepoint m p value

/-- utf8.hpp:52-58, one round of `append_from_utf32ne`. -/
def encodeOne (M : Platform) (c : BitVec 32) : Res (List Octet) := do
  let (m, q) ← M.assign (List.replicate 6 0) 0 c
  let p ← M.fwd m q
  pure (m.take p)

/-- utf8.hpp:47-61 `utf8::append_from_utf32ne`. -/
def appendFromUtf32 (M : Platform) (out : List Octet) : List (BitVec 32) → Res (List Octet)
  | [] => pure out
  | c :: cs => do
    let o ← M.encodeOne c
    appendFromUtf32 M (out ++ o) cs

/-- utf8.hpp:39-45 and basic_encodedstring.hpp:172-189 `append(first, last)`. -/
def appendRange (M : Platform) (out : List Octet) (m : Mem) (first last : Nat) : Res (List Octet) := do
  let b ← M.rewind m first
  let e ← M.rewind m last
  nativeAppend out m b e

/-- `u5e::utf8_string` on this platform. Narrowing an `int` to `char` keeps the low eight bits on every platform GCC
supports, so `appendGraphemes8` has no parameter. utf8_string.hpp, utf8.hpp:20-62, utf8_iterator.hpp:197-345. -/
def enc8 (M : Platform) : Encoding Octet :=
  ⟨M.utf8Iter, 0, M.appendRange, fun out cs => M.appendFromUtf32 out (cs.map (BitVec.ofInt 32)), appendGraphemes8,
   fun m p c => M.assign m p (BitVec.ofInt 32 c)⟩

/-- utf8_bounds.hpp:40-48, the loop of `check`; arguments as in `U5e.checkLoop`. -/
def checkLoop (M : Platform) (m : Mem) (b : Nat) : Nat → Nat → Res Bool
  | 0, _ => pure true
  | rounds + 1, e =>
    if e = b then pure true
    else do
      let octet ← rd m e
      if M.isStart octet then do
        let n ← M.codepointSize octet
        if n > 6 - (rounds + 1) then pure false
        else do
          let e' ← retreat e
          checkLoop M m b rounds e'
      else do
        let e' ← retreat e
        checkLoop M m b rounds e'

/-- utf8_bounds.hpp:32-51 `utf8_bounds::check(begin, end)`. -/
def boundsCheck (M : Platform) (m : Mem) (b e : Nat) : Res Bool := do
  let octet ← rd m b
  if M.isCont octet then pure false
  else M.checkLoop m b 6 e

/-- utf8_bounds.hpp:59-63, the first loop of `enforce`. -/
def enforceLead (M : Platform) : Nat → Mem → Nat → Bool → Res (Mem × Nat × Bool)
  | 0, _, _, _ => .tmo
  | fuel + 1, m, b, ret => do
    let octet ← rd m b
    if M.isCont octet then do
      let m' ← wr m b 0x3F
      let b' ← adv m' b 1
      enforceLead M fuel m' b' false
    else pure (m, b, ret)

/-- utf8_bounds.hpp:68-77, the second loop of `enforce`. -/
def enforceTail (M : Platform) : Nat → Mem → Nat → Nat → Bool → Res (Mem × Bool)
  | 0, m, _, _, ret => pure (m, ret)
  | rounds + 1, m, b, e, ret =>
    if e = b then pure (m, ret)
    else do
      let octet ← rd m e
      if M.isStart octet then do
        let n ← M.codepointSize octet
        if n > 6 - (rounds + 1) then do
          let m' ← wr m e 0x3F
          let e' ← retreat e
          enforceTail M rounds m' b e' false
        else do
          let e' ← retreat e
          enforceTail M rounds m b e' ret
      else do
        let e' ← retreat e
        enforceTail M rounds m b e' ret

/-- utf8_bounds.hpp:57-79 `utf8_bounds::enforce(begin, end)`. -/
def boundsEnforce (M : Platform) (m : Mem) (b e : Nat) : Res (Mem × Bool) := do
  let (m1, b1, ret) ← M.enforceLead (m.length + 1) m b true
  M.enforceTail 6 m1 b1 e ret

end Platform
end U5e
