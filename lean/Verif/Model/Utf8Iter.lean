import Verif.Model.Utf8Util
/-!
# Model of include/u5e/utf8_iterator.hpp (reading part)

The native iterator is a position in an octet buffer.
-/
namespace U5e

/-- An octet buffer (one allocation). The native iterator `NativeIterator`
(utf8_iterator.hpp:26) is a position in it. -/
abbrev Mem := List Octet

/-- `*raw_iterator_`: undefined outside the buffer. utf8_iterator.hpp:53, 84, 97. -/
def rd (m : Mem) (p : Nat) : Res Octet :=
  match m[p]? with
  | some o => .ok o
  | none => .ub

/-- `std::advance(raw_iterator_, n)` / `++raw_iterator_`: forming a pointer beyond
one-past-the-last element is undefined. utf8_iterator.hpp:66, 177. -/
def adv (m : Mem) (p n : Nat) : Res Nat :=
  if p + n ≤ m.length then .ok (p + n) else .ub

/-- `raw_iterator_--`: undefined at the first element. utf8_iterator.hpp:54, 74, 76. -/
def retreat (p : Nat) : Res Nat :=
  match p with
  | 0 => .ub
  | q + 1 => .ok q

/-- utf8_iterator.hpp:49-58 `rewind_to_start_of_codepoint`: the loop
`while (is_codepoint_continuation(*raw)) raw--;`, returning the new position.
Decrementing at the first element is `ub`. The boolean result ("moved") is recovered by
comparing positions. Also models utf8_iterator.hpp:75-77 (same loop). -/
def rewind (m : Mem) : Nat → Res Nat
  | 0 => do
    let o ← rd m 0
    if isCont o then .ub else pure 0
  | p + 1 => do
    let o ← rd m (p + 1)
    if isCont o then rewind m p else pure (p + 1)

/-- utf8_iterator.hpp:63-67 `forward_one_codepoint` (= `operator++`, 134-137 and 231-234). -/
def fwd (m : Mem) (p : Nat) : Res Nat := do
  let s ← rewind m p
  let o ← rd m s
  adv m s (cpSize o)

/-- utf8_iterator.hpp:72-78 `rewind_one_codepoint` (= `operator--`, 150-153 and 247-250). -/
def bwd (m : Mem) (p : Nat) : Res Nat := do
  let s ← rewind m p
  let q ← retreat s
  rewind m q

/-- utf8_iterator.hpp:96-98, the loop `while (--size) value = value<<6 | (*(++copy_) & 0x3F)`;
`n` is the number of remaining continuation octets, `q` is `copy_`. -/
def decLoop (m : Mem) : Nat → Nat → BitVec 32 → Res (BitVec 32)
  | 0, _, v => pure v
  | n + 1, q, v => do
    let q' ← adv m q 1
    let o ← rd m q'
    decLoop m n q' ((v <<< 6) ||| (promote o &&& 0b00111111#32))

/-- utf8_iterator.hpp:94 `~(0xFF << (7 - size))` truncated to `unsigned char`;
the shift count is negative, hence undefined, for `size > 7` (octet 0xFF). -/
def maskFirst (size : Nat) : Res (BitVec 32) :=
  if size ≤ 7 then .ok ((~~~ (0xFF#32 <<< (7 - size))) &&& 0xFF#32) else .ub

/-- utf8_iterator.hpp:83-101 `current_codepoint`: the decoded value and the position of the
iterator afterwards (`rewind_to_start_of_codepoint` moves the iterator itself).
The value is the C++ `int`. -/
def cur (m : Mem) (p : Nat) : Res (Int × Nat) := do
  let o ← rd m p
  if is7bit o then pure ((promote o).toInt, p)
  else
    let s ← rewind m p
    let f ← rd m s
    let mask ← maskFirst (cpSize f)
    let v ← decLoop m (cpSize f - 1) s (promote f &&& mask)
    pure (v.toInt, s)

/-- utf8_iterator.hpp:173-180, the loop of `operator==`: compare, step, count down. -/
def eqLoop (m : Mem) (rhs : Nat) : Nat → Nat → Res Bool
  | 0, _ => pure false
  | size + 1, c =>
    if c = rhs then pure true
    else do
      let c' ← adv m c 1
      eqLoop m rhs size c'

/-- utf8_iterator.hpp:166-181 and 263-278 `operator==`. `operator!=` (183-185, 280-282) is the
negation. -/
def iterEq (m : Mem) (lhs rhs : Nat) : Res Bool := do
  let s ← rewind m lhs
  let o ← rd m s
  eqLoop m rhs (cpSize o) s

/-- The C++ idiom `while (it != end) { out.push_back(*it); ++it; }`
(t/003_utf8_encoded_iterator.t.cpp walks like this), with fuel. `*it` may move the iterator
(`current_codepoint`), and the model keeps that. -/
def walk (m : Mem) (e : Nat) : Nat → Nat → Res (List Int)
  | 0, _ => .tmo
  | fuel + 1, p => do
    let done ← iterEq m p e
    if done then pure []
    else
      let (c, p1) ← cur m p
      let p2 ← fwd m p1
      let rest ← walk m e fuel p2
      pure (c :: rest)

/-- The C++ idiom of examples/simple_iteration.cpp:25-32, `while (it != end) out.push_back(*it++);`,
with fuel. `operator++(int)` (utf8_iterator.hpp:139-143, 236-240) copies the iterator, moves the
original and returns the copy, which is then dereferenced. -/
def walkPost (m : Mem) (e : Nat) : Nat → Nat → Res (List Int)
  | 0, _ => .tmo
  | fuel + 1, p => do
    let done ← iterEq m p e
    if done then pure []
    else
      let p2 ← fwd m p
      let (c, _) ← cur m p
      let rest ← walkPost m e fuel p2
      pure (c :: rest)

/-- The backwards idiom `while (it != begin) { --it; out.push_back(*it); }`
(t/003_utf8_encoded_iterator.t.cpp:73-86 walks back like this), with fuel. -/
def walkBack (m : Mem) (b : Nat) : Nat → Nat → Res (List Int)
  | 0, _ => .tmo
  | fuel + 1, p => do
    let done ← iterEq m p b
    if done then pure []
    else
      let p1 ← bwd m p
      let (c, p2) ← cur m p1
      let rest ← walkBack m b fuel p2
      pure (c :: rest)

end U5e
