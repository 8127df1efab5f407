import Verif.Spec.Bounds
/-! What should be read from memory holding arbitrary octets. -/
namespace U5e.Spec

/-- The value of the octets starting at `s`, whatever they are: a 7-bit octet is itself; otherwise the bits of the first
octet after its marker, then the low six bits of each further octet it claims, as a 32-bit integer with sign. -/
def valueAt (m : List UInt8) (s : Nat) : Int :=
  match m.drop s with
  | [] => 0
  | l :: r =>
    if l.toNat < 0x80 then l.toNat
    else Int.bmod ((r.take (claimed l - 1)).foldl (fun v o => v * 64 + o.toNat % 64) (l.toNat % 2 ^ (7 - claimed l)) : Nat)
      (2 ^ 32)

/-- The octet at `s` begins a codepoint (it is not a continuation octet). -/
def Begins (t : List UInt8) (s : Nat) : Prop := ∃ l, t[s]? = some l ∧ ¬ IsContinuation l

/-- The octet at `s` begins a codepoint whose claimed octets leave the text and its terminator, or which is 0xFF. -/
def Unreadable (t : List UInt8) (s : Nat) : Prop :=
  ∃ l, t[s]? = some l ∧ ¬ IsContinuation l ∧ (t.length + 1 < s + claimed l ∨ l = 0xFF)

/-- The iterator comes to rest at `s` and all octets claimed there belong to the text. -/
def Visits (t : List UInt8) (s : Nat) : Prop := Rests t s ∧ ∃ l, t[s]? = some l ∧ s + claimed l ≤ t.length

/-- `ps` lists the positions with property `P`, in increasing order. -/
def Lists (ps : List Nat) (P : Nat → Prop) : Prop := ps.Pairwise (· < ·) ∧ ∀ s, s ∈ ps ↔ P s

/-- No octet that begins a codepoint claims octets after the text, and among the octets it claims and the one after
them (the terminator at the end of the text) there is at most one beginning. -/
def Chained (t : List UInt8) : Prop :=
  ∀ s l, t[s]? = some l → ¬ IsContinuation l → s + claimed l ≤ t.length ∧
    ∀ k k', s < k → k < k' → k' ≤ s + claimed l → Begins (t ++ [0]) k → ¬ Begins (t ++ [0]) k'

end U5e.Spec
