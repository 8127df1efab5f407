import Verif.Model.Ucd
import Verif.Spec.Expand
/-! # Specification: the tables to be derived from the lines of any UnicodeData.txt -/
namespace U5e.Spec
open U5e

/-- The class table: codepoint and class of every line with a class other than 0. -/
def classRows (rs : List UcdRow) : List (List Nat) :=
  (rs.filter (fun r => decide (r.ccc ≠ 0))).map (fun r => [r.cp, r.ccc])

/-- The line has a mapping that belongs in the table: a canonical one or, for the compatibility table, one with the
tag `<compat>`. -/
def Mapped (compat : Bool) (r : UcdRow) : Prop := r.decomp ≠ [] ∧ (r.tag = 0 ∨ (compat = true ∧ r.tag = 1))

instance (compat : Bool) (r : UcdRow) : Decidable (Mapped compat r) := by unfold Mapped; infer_instance

/-- The mapping of a codepoint. -/
def mapOf (compat : Bool) (rs : List UcdRow) (k : Nat) : Option (List Nat) :=
  (rs.find? (fun r => decide (r.cp = k ∧ Mapped compat r))).map UcdRow.decomp

/-- The decomposition table, given the full expansion `full` of the mappings: the codepoint, its full expansion and
a 0, for every line with a mapping. -/
def mappingRows (compat : Bool) (rs : List UcdRow) (full : Nat → List Nat) : List (List Nat) :=
  (rs.filter (fun r => decide (Mapped compat r))).map (fun r => r.cp :: (full r.cp ++ [0]))

/-- Canonical_Combining_Class according to the lines. -/
def classIn (rs : List UcdRow) (k : Nat) : Nat := ((rs.find? (fun r => decide (r.cp = k))).map UcdRow.ccc).getD 0

/-- `c` is the primary composite of `a` and `b`: it is a starter, its canonical mapping is `a b`, `a` is a starter and
`c` is not in the list of exclusions. -/
def Composite (rs : List UcdRow) (excl : List Nat) (a b c : Nat) : Prop :=
  (∃ r ∈ rs, r.cp = c ∧ r.tag = 0 ∧ r.decomp = [a, b] ∧ r.ccc = 0) ∧ classIn rs a = 0 ∧ c ∉ excl

/-- `rows` is the composition table: one row per primary composite, sorted by first and second codepoint. -/
structure IsCompositionTable (rs : List UcdRow) (excl : List Nat) (rows : List (List Nat)) : Prop where
  rows_iff : ∀ row, row ∈ rows ↔ ∃ a b c, row = [a, b, c] ∧ Composite rs excl a b c
  sorted : rows.Pairwise (fun x y => ∃ a b c a' b' c', x = [a, b, c] ∧ y = [a', b', c'] ∧ (a < a' ∨ (a = a' ∧ b < b')))

/-- What UnicodeData.txt promises about canonical mappings (UAX #44): one or two entries, and different lines of
class 0 have different mappings. -/
structure CanonicalOk (rs : List UcdRow) : Prop where
  short : ∀ r ∈ rs, r.tag = 0 → r.decomp.length ≤ 2
  distinct : ∀ r ∈ rs, ∀ s ∈ rs, r.tag = 0 → s.tag = 0 → r.ccc = 0 → s.ccc = 0 → r.decomp.length = 2 →
    r.decomp = s.decomp → r = s

end U5e.Spec
