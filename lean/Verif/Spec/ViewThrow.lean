import Verif.Spec.Throw
import Verif.Spec.Views
/-! # What an exception leaves behind in a program over strings of both encodings and views -/
namespace U5e.Spec

/-- How a string of this encoding appends codepoints: UTF-8 one by one, utf32ne all at once. -/
def Kind.appending : Kind → Appending
  | .utf8 => utf8Appending
  | .utf32 => utf32neAppending

/-- A statement needs `n` calls that may throw, `τ` being the encodings of the strings. -/
def Ucd.NeedsV (U : Ucd) (τ : Nat → Kind) (σ : Nat → List Nat) (op : VOp) (n : Nat) : Prop :=
  match op with
  | .copy _ _ | .append _ _ | .appendGraphemes _ _ _ _ => n = 1
  | .appendCps d v => ∃ cs, v = ints cs ∧ n = (τ d).appending.calls cs
  | .convert d src => n = (τ d).appending.calls (text σ src)
  | .normalize F d src => ∃ gs, U.Graphemes (text σ src) gs ∧ n = U.formCalls (τ d).appending F gs
  | _ => n = 0

/-- A program needs `n` calls. -/
inductive Ucd.NeedsRunV (U : Ucd) (τ : Nat → Kind) : (Nat → List Nat) → List VOp → Nat → Prop
  | nil (σ) : NeedsRunV U τ σ [] 0
  | cons (σ σ1 op ops o n m) : U.IdealV σ op σ1 o → U.NeedsV τ σ op n → NeedsRunV U τ σ1 ops m →
      NeedsRunV U τ σ (op :: ops) (n + m)

/-- The statement `op`, started with the texts `σ`, leaves `σ'` when its first `r` calls succeed and the next throws:
nothing has changed but the string it appends to, which has got the codepoints written so far. When normalizing,
the graphemes `p` are complete and `g` is the one at which it stops. -/
def Ucd.InterruptedV (U : Ucd) (τ : Nat → Kind) (σ : Nat → List Nat) (op : VOp) (r : Nat) (σ' : Nat → List Nat) : Prop :=
  match op with
  | .copy _ _ | .append _ _ | .appendGraphemes _ _ _ _ => r = 0 ∧ σ' = σ
  | .appendCps d v => ∃ cs, v = ints cs ∧ r < (τ d).appending.calls cs ∧
      σ' = put σ d (σ d ++ cs.take ((τ d).appending.written r))
  | .convert d src => r < (τ d).appending.calls (text σ src) ∧
      σ' = put σ d (σ d ++ (text σ src).take ((τ d).appending.written r))
  | .normalize F d src => ∃ p g q, U.Graphemes (text σ src) (p ++ g :: q) ∧ U.formCalls (τ d).appending F p ≤ r ∧
      r < U.formCalls (τ d).appending F (p ++ [g]) ∧
      σ' = put σ d (σ d ++ p.flatMap (U.normalForm F) ++
        (U.normalForm F g).take ((τ d).appending.written (r - U.formCalls (τ d).appending F p - g.length)))
  | _ => False

end U5e.Spec
