import Verif.Model.Utf8Iter
/-!
# Model of the writing half of include/u5e/utf8_iterator.hpp and of utf8::append_from_utf32ne
-/
namespace U5e

/-- `*raw = octet`: undefined outside the buffer. utf8_iterator.hpp:320, 324, 329. -/
def wr (m : Mem) (p : Nat) (o : Octet) : Res Mem :=
  if p < m.length then .ok (m.set p o) else .ub

/-- `unsigned char x = <int>`: the low eight bits. utf8_iterator.hpp:320, 322-323, 326-327. -/
def lowOctet (v : BitVec 32) : Octet := UInt8.ofBitVec (v.setWidth 8)

/-- utf8_iterator.hpp:322-323, the first octet of a sequence of `size ≥ 2` octets:
`(0xFF << (8-size)) | ((value >> ((size-1)*6)) & 0xFF)`; `>>` on a negative `int` is the
arithmetic shift. (`size ≤ 6`, so all shift counts are in range; `assign` guards it.) -/
def firstOctet (value : BitVec 32) (size : Nat) : Octet :=
  lowOctet ((0xFF#32 <<< (8 - size)) ||| (value.sshiftRight ((size - 1) * 6) &&& 0xFF#32))

/-- utf8_iterator.hpp:326-327, a continuation octet:
`0b10000000 | ((value >> ((size-1)*6)) & 0b00111111)`. -/
def contOctet (value : BitVec 32) (size : Nat) : Octet :=
  lowOctet (0b10000000#32 ||| (value.sshiftRight ((size - 1) * 6) &&& 0b00111111#32))

/-- utf8_iterator.hpp:325-330, the loop `while (--size) { … raw++; *raw = octet; }`; the argument is
the value of `size` after the decrement. Returns memory and position of the last octet. -/
def contLoop (value : BitVec 32) : Nat → Mem → Nat → Res (Mem × Nat)
  | 0, m, p => pure (m, p)
  | size + 1, m, p => do
    let p' ← adv m p 1
    let m' ← wr m p' (contOctet value (size + 1))
    contLoop value size m' p'

/-- utf8_iterator.hpp:316-333 `proxyobject::operator=(codepoint)`, without the read done by the
constructor of the proxy. Returns the new memory and the new raw position (which is left on the
last octet written). -/
def putCodepoint (m : Mem) (p : Nat) (value : BitVec 32) : Res (Mem × Nat) := do
  let size ← encodedSize value
  if size ≤ 1 then
    let m' ← wr m p (lowOctet (value &&& 0xFF#32))
    pure (m', p)
  else
    let m' ← wr m p (firstOctet value size)
    contLoop value (size - 1) m' p

/-- `*it = c` on a mutable iterator: utf8_iterator.hpp:340-342 builds a proxy, whose constructor
(303-307) decodes the octets currently stored there through a copy, then 316-333 writes. -/
def assign (m : Mem) (p : Nat) (value : BitVec 32) : Res (Mem × Nat) := do
  let _ ← cur m p
  putCodepoint m p value

/-- `std::copy` into a mutable iterator, as in t/003_utf8_encoded_iterator.t.cpp:148-155:
`for (; first != last; ++first, ++it) *it = *first;` (the libstdc++ loop): assign, then `++`. -/
def copyInto (m : Mem) (p : Nat) : List (BitVec 32) → Res (Mem × Nat)
  | [] => pure (m, p)
  | c :: cs => do
    let (m', q) ← assign m p c
    let p' ← fwd m' q
    copyInto m' p' cs

/-- The idiom `*it++ = c` on a mutable iterator: utf8_iterator.hpp:236-240 (`operator++(int)`) first
moves `it`, judging by the octets stored there so far, and returns a copy of the old iterator; the
assignment (340-342, 303-307, 316-333) then goes through that copy. Returns the new memory and the
position of `it`. -/
def assignPost (m : Mem) (p : Nat) (value : BitVec 32) : Res (Mem × Nat) := do
  let p' ← fwd m p
  let (m', _) ← assign m p value
  pure (m', p')

/-- `while (first != last) *it++ = *first++;` with a mutable iterator (utf8_iterator.hpp:236-240,
316-333). -/
def copyIntoPost (m : Mem) (p : Nat) : List (BitVec 32) → Res (Mem × Nat)
  | [] => pure (m, p)
  | c :: cs => do
    let (m', p') ← assignPost m p c
    copyIntoPost m' p' cs

/-- utf8.hpp:52-58, one round of `append_from_utf32ne`: the octets appended for one codepoint.
`output.append(buf, o_i)` reads the 6-octet buffer up to the new position; moving the position
past the buffer is `ub` (in `adv`). -/
def encodeOne (c : BitVec 32) : Res (List Octet) := do
  let (m, q) ← assign (List.replicate 6 0) 0 c
  let p ← fwd m q
  pure (m.take p)

/-- utf8.hpp:47-61 `utf8::append_from_utf32ne`. -/
def appendFromUtf32 (out : List Octet) : List (BitVec 32) → Res (List Octet)
  | [] => pure out
  | c :: cs => do
    let o ← encodeOne c
    appendFromUtf32 (out ++ o) cs

end U5e
