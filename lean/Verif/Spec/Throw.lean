import Verif.Spec.History
/-!
# What an exception leaves behind

Every call that may throw is counted: copying a string, appending a range to a string. The failing one has no effect.
-/
namespace U5e.Spec

/-- How an encoding appends a sequence of codepoints: the number of calls that may throw, and how many codepoints have
been appended when `r` of them have succeeded and the next one throws. -/
structure Appending where
  calls : List Nat → Nat
  written : Nat → Nat

/-- UTF-8: one call per codepoint. -/
def utf8Appending : Appending := ⟨List.length, fun r => r⟩

/-- utf32ne: one call for the whole sequence. -/
def utf32neAppending : Appending := ⟨fun _ => 1, fun _ => 0⟩

/-- A grapheme in a normalization form. -/
def Ucd.normalForm (U : Ucd) (F : Form) (g : List Nat) : List Nat := (U.normal F (ints g)).map Int.toNat

/-- The calls needed to normalize graphemes: one per codepoint (decomposing it) and those that append the result. -/
def Ucd.formCalls (U : Ucd) (A : Appending) (F : Form) (gs : List (List Nat)) : Nat :=
  (gs.map fun g => g.length + A.calls (U.normalForm F g)).sum

/-- A statement needs `n` calls. -/
def Ucd.Needs (U : Ucd) (A : Appending) (σ : Nat → List Nat) (op : Op) (n : Nat) : Prop :=
  match op with
  | .copy _ _ | .appendRange _ _ _ _ | .appendGraphemes _ _ _ _ => n = 1
  | .appendCps _ v => ∃ cs, v = ints cs ∧ n = A.calls cs
  | .normalize F _ s => ∃ gs, U.Graphemes (σ s) gs ∧ n = U.formCalls A F gs
  | _ => n = 0

/-- A program needs `n` calls. -/
inductive Ucd.NeedsRun (U : Ucd) (A : Appending) : (Nat → List Nat) → List Op → Nat → Prop
  | nil (σ) : NeedsRun U A σ [] 0
  | cons (σ σ1 op ops o n m) : U.Ideal σ op σ1 o → U.Needs A σ op n → NeedsRun U A σ1 ops m →
      NeedsRun U A σ (op :: ops) (n + m)

/-- The statement `op`, started with the strings `σ`, leaves `σ'` when its first `r` calls succeed and the next throws:
nothing has changed but the string it appends to, which has got the codepoints written so far. When normalizing,
the graphemes `p` are complete and `g` is the one at which it stops. -/
def Ucd.Interrupted (U : Ucd) (A : Appending) (σ : Nat → List Nat) (op : Op) (r : Nat) (σ' : Nat → List Nat) : Prop :=
  match op with
  | .copy _ _ | .appendRange _ _ _ _ | .appendGraphemes _ _ _ _ => r = 0 ∧ σ' = σ
  | .appendCps d v => ∃ cs, v = ints cs ∧ r < A.calls cs ∧ σ' = put σ d (σ d ++ cs.take (A.written r))
  | .normalize F d s => ∃ p g q, U.Graphemes (σ s) (p ++ g :: q) ∧ U.formCalls A F p ≤ r ∧
      r < U.formCalls A F (p ++ [g]) ∧
      σ' = put σ d (σ d ++ p.flatMap (U.normalForm F) ++
        (U.normalForm F g).take (A.written (r - U.formCalls A F p - g.length)))
  | _ => False

end U5e.Spec
