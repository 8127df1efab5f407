import Verif.Spec.Utf8
/-! Specification of "bounds" of a text: independent of the model. -/
namespace U5e.Spec

/-- Number of octets announced by a lead octet (11xxxxxx), counting its leading one bits: 2 … 8. -/
def leadingOnes (o : UInt8) : Nat :=
  if o.toNat < 0xE0 then 2 else if o.toNat < 0xF0 then 3 else if o.toNat < 0xF8 then 4
  else if o.toNat < 0xFC then 5 else if o.toNat < 0xFE then 6 else if o.toNat < 0xFF then 7 else 8

/-- The octet is a lead octet announcing more than `room` octets (itself included). -/
def Overflows (o : UInt8) (room : Nat) : Prop := 0xC0 ≤ o.toNat ∧ room < leadingOnes o

instance (o : UInt8) (r : Nat) : Decidable (Overflows o r) := inferInstanceAs (Decidable (_ ∧ _))

/-- Length of the leading run of continuation octets. -/
def leadRun : List UInt8 → Nat
  | [] => 0
  | o :: os => if IsContinuation o then leadRun os + 1 else 0

/-- What `enforce` does to a text: the leading run of continuation octets becomes '?', and so does
every lead octet among the last five octets, strictly after the first octet that is not a leading
continuation octet, that announces more octets than remain. -/
def enforced (t : List UInt8) : List UInt8 :=
  t.mapIdx fun i o =>
    if i < leadRun t then 0x3F
    else if leadRun t < i ∧ t.length < i + 6 ∧ Overflows o (t.length - i) then 0x3F
    else o

/-- The text starts with one or more continuation octets `cs`, directly followed by a truncated lead
octet `o` that is one of the last five octets. -/
def CutAfterRun (t : List UInt8) : Prop :=
  ∃ cs o r, t = cs ++ o :: r ∧ cs ≠ [] ∧ (∀ c ∈ cs, IsContinuation c) ∧ r.length < 5 ∧
    Overflows o (r.length + 1)

/-- Number of octets an octet that is not a continuation octet claims for its codepoint: one for a
7-bit octet, otherwise its number of leading one bits. -/
def claimed (o : UInt8) : Nat := if o.toNat < 0x80 then 1 else leadingOnes o

/-- What has to follow a text in memory so that an iterator standing on the end of it can be compared:
an octet that is not a continuation octet, and as many octets as it claims. The NUL of a string will
do, and so will any further text. -/
def Followed (t : List UInt8) : Prop :=
  ∃ o, t.head? = some o ∧ ¬ IsContinuation o ∧ claimed o ≤ t.length

/-- All octets of `t` at the positions `s+1, …, j` exist and are continuation octets. -/
def OnlyContinuations (t : List UInt8) (s j : Nat) : Prop :=
  ∀ k, s < k → k ≤ j → ∃ c, t[k]? = some c ∧ IsContinuation c

/-- The positions an iterator comes to rest on when it is incremented again and again from the
beginning: an increment jumps over the claimed octets and then falls back over continuation octets. -/
inductive Rests (t : List UInt8) : Nat → Prop
  | start : Rests t 0
  | step {s s' : Nat} {l o : UInt8} : Rests t s → t[s]? = some l → s < s' → s' ≤ s + claimed l →
      t[s']? = some o → ¬ IsContinuation o → OnlyContinuations t s' (s + claimed l) → Rests t s'

/-- The octet at `s` is followed by at least as many continuation octets as it claims octets: an
increment falls back to `s` itself. -/
def Stuck (t : List UInt8) (s : Nat) : Prop :=
  ∃ l, t[s]? = some l ∧ OnlyContinuations t s (s + claimed l)

/-- A text that can be iterated without looking past its end: it does not start with a continuation
octet, no lead octet announces more octets than remain, and there is no 0xFF. Nothing is said about the
octets between: they need not be UTF-8. -/
structure Tame (t : List UInt8) : Prop where
  first : ∀ o, t.head? = some o → ¬ IsContinuation o
  room : ∀ i o, t[i]? = some o → ¬ Overflows o (t.length - i)
  noFF : ∀ o ∈ t, o ≠ 0xFF

/-- No position the iterator rests on claims octets up to a continuation octet: each increment lands
exactly on the next position of rest, and the claimed octets of different positions do not overlap. -/
def Separate (t : List UInt8) : Prop :=
  ∀ s l o, Rests t s → t[s]? = some l → t[s + claimed l]? = some o → ¬ IsContinuation o

end U5e.Spec
