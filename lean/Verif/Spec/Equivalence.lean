import Verif.Spec.Ucd
/-!
# Specification: canonical and compatibility equivalence (Unicode Standard D67, D70)

Two texts are equivalent if one can be turned into the other, forwards and backwards, by single steps of three
kinds. Stated from UnicodeData.txt alone: no normalization form, no table of the library and no algorithm occurs
in it.
-/
namespace U5e.Spec
open U5e

/-- One step inside a text: a codepoint is replaced by its Decomposition_Mapping of UnicodeData.txt (one level, not
the full decomposition); a Hangul syllable by its conjoining jamo; or two neighbouring codepoints of different
non-zero combining class in descending order are exchanged. -/
inductive EquivalenceStep (tags : Nat → Bool) : List Int → List Int → Prop
  | map (u v : List Int) {k : Nat} {m : List Nat} : mapping tags k = some m →
      EquivalenceStep tags (u ++ [Int.ofNat k] ++ v) (u ++ m.map Int.ofNat ++ v)
  | hangul (u v : List Int) {c : Int} : IsHangulSyllable c →
      EquivalenceStep tags (u ++ [c] ++ v) (u ++ hangulDecomposition c ++ v)
  | reorder (u v : List Int) {a b : Int} : 0 < ucdClass b → ucdClass b < ucdClass a →
      EquivalenceStep tags (u ++ [a, b] ++ v) (u ++ [b, a] ++ v)

/-- Canonical equivalence (`tags = canonicalTag`), compatibility equivalence (`tags = anyTag`): the smallest
equivalence relation that contains the steps. -/
inductive Equivalent (tags : Nat → Bool) : List Int → List Int → Prop
  | refl (l) : Equivalent tags l l
  | step {l m} : EquivalenceStep tags l m → Equivalent tags l m
  | symm {l m} : Equivalent tags l m → Equivalent tags m l
  | trans {l m n} : Equivalent tags l m → Equivalent tags m n → Equivalent tags l n

/-- Every precomposed Hangul syllable of the text replaced by its conjoining jamo. -/
def expandHangul (l : List Int) : List Int :=
  l.flatMap (fun c => if IsHangulSyllable c then hangulDecomposition c else [c])

/-- No grapheme of the list has, in its full decomposition, a starter (class 0) after a non-starter. -/
def MarksLast (tags : Nat → Bool) (gs : List (List Int)) : Prop :=
  ∀ g ∈ gs, ∀ l, UcdDecomposition tags g l → StartersFirst ucdClass l

/-- The conjoining jamo. -/
def IsJamo (c : Int) : Prop := 0x1100 ≤ c ∧ c ≤ 0x11FF
instance (c : Int) : Decidable (IsJamo c) := inferInstanceAs (Decidable (_ ∧ _))

end U5e.Spec
