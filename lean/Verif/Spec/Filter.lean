import Verif.Model.Throw
/-!
# Applying an operation to each element in turn

`op x out k`: the operation on the element `x` and the output `out` when `k` more allocations succeed
(Model/Throw.lean, `Call`).
-/
namespace U5e.Spec

/-- The operation returns on each of the elements, each call starting where the previous one ended; `ns` are the values
returned. -/
inductive Applies (op : α → β → Nat → Res (Call Int β)) : List α → β → Nat → List Int → β → Nat → Prop
  | nil (out k) : Applies op [] out k [] out k
  | cons {x xs out k n out1 k1 ns out2 k2} : op x out k = .ok (.ret n out1 k1) →
      Applies op xs out1 k1 ns out2 k2 → Applies op (x :: xs) out k (n :: ns) out2 k2

/-- Every partial sum is an `int`. -/
def SumsFit (ns : List Int) : Prop := ∀ m ≤ ns.length, -2147483648 ≤ (ns.take m).sum ∧ (ns.take m).sum ≤ 2147483647

/-- How the calls on `xs` end. -/
inductive Outcome (op : α → β → Nat → Res (Call Int β)) (xs : List α) (out : β) (k : Nat) :
    Res (Call Int β) → Prop
  /-- All return: the sum of what they returned. -/
  | returned {ns out' k'} : Applies op xs out k ns out' k' → SumsFit ns →
      Outcome op xs out k (.ok (.ret ns.sum out' k'))
  /-- The call on one element throws: the later elements are not looked at, and the output is what that call left. -/
  | thrown {done x rest ns out1 k1 out'} : xs = done ++ x :: rest → Applies op done out k ns out1 k1 → SumsFit ns →
      op x out1 k1 = .ok (.threw out') → Outcome op xs out k (.ok (.threw out'))
  /-- The call on one element has undefined behaviour. -/
  | undefined {done x rest ns out1 k1} : xs = done ++ x :: rest → Applies op done out k ns out1 k1 → SumsFit ns →
      op x out1 k1 = .ub → Outcome op xs out k .ub
  /-- Adding what the call on one element returned overflows `int`. -/
  | overflow {done x rest ns out1 k1 n out2 k2} : xs = done ++ x :: rest → Applies op done out k ns out1 k1 →
      SumsFit ns → op x out1 k1 = .ok (.ret n out2 k2) → ¬ SumsFit (ns ++ [n]) → Outcome op xs out k .ub
  /-- The call on one element does not end. -/
  | endless {done x rest ns out1 k1} : xs = done ++ x :: rest → Applies op done out k ns out1 k1 → SumsFit ns →
      op x out1 k1 = .tmo → Outcome op xs out k .tmo

end U5e.Spec
