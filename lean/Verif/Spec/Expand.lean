/-! # Specification: fully expanding a mapping -/
namespace U5e.Spec

/-- `l` is the full expansion of the sequence `xs` under the mapping `d`: entries without a mapping stay,
entries with a mapping are replaced by the full expansion of their mapping. -/
inductive Expands (d : Nat → Option (List Nat)) : List Nat → List Nat → Prop
  | nil : Expands d [] []
  | keep {x xs l} : d x = none → Expands d xs l → Expands d (x :: xs) (x :: l)
  | expand {x m xs l1 l2} : d x = some m → Expands d m l1 → Expands d xs l2 →
      Expands d (x :: xs) (l1 ++ l2)

/-- `d` is circular: there is a non-empty set of codepoints each of which has a mapping with an entry in
the set. -/
def Circular (d : Nat → Option (List Nat)) : Prop :=
  ∃ S : Nat → Prop, (∃ k, S k) ∧ ∀ k, S k → ∃ m, d k = some m ∧ ∃ x ∈ m, S x

end U5e.Spec
