import Verif.Model.GcbEnum
/-!
# Texts in which no codepoint joins to its neighbours

Specification for C69.
-/
namespace U5e.Spec

/-- Grapheme_Cluster_Break values of codepoints that join to a neighbour of any or of several kinds: marks, joiners,
conjoining jamo, prepended signs, emoji modifiers. -/
def Joins (v : GCB) : Prop :=
  v = .EXTEND ∨ v = .SPACINGMARK ∨ v = .ZWJ ∨ v = .L ∨ v = .V ∨ v = .T ∨ v = .PREPEND ∨ v = .E_MODIFIER

instance (v : GCB) : Decidable (Joins v) := inferInstanceAs (Decidable (_ ∨ _))

/-- Hangul Compatibility Jamo, and the syllables and jamo in parentheses that end in a vowel. -/
def IsCompatJamo (c : Int) : Prop := (0x3131 ≤ c ∧ c ≤ 0x318E) ∨ (0x320E ≤ c ∧ c ≤ 0x321E)

instance (c : Int) : Decidable (IsCompatJamo c) := inferInstanceAs (Decidable (_ ∨ _))

end U5e.Spec
