/-!
# Specification: the first place where one list occurs in another (C71)

For octets this is what `std::string::find` returns, with the length in place of `npos`; for codepoints it is what
`std::search` over codepoints should find.
-/
namespace U5e.Spec

/-- `k` is the first place where `needle` occurs in `hay`; the length of `hay` if there is none. -/
def FirstMatch {α : Type} (needle hay : List α) (k : Nat) : Prop :=
  (∀ j, j < k → ¬ needle <+: hay.drop j) ∧ (k < hay.length ∧ needle <+: hay.drop k ∨ k = hay.length)

instance {α : Type} [DecidableEq α] (needle hay : List α) (k : Nat) : Decidable (FirstMatch needle hay k) :=
  inferInstanceAs (Decidable (_ ∧ _))

theorem FirstMatch.unique {α : Type} {needle hay : List α} {k k' : Nat} (h : FirstMatch needle hay k)
    (h' : FirstMatch needle hay k') : k = k' := by
  obtain ⟨h1, h2⟩ := h
  obtain ⟨h1', h2'⟩ := h'
  rcases Nat.lt_trichotomy k k' with hlt | rfl | hlt
  · rcases h2 with ⟨_, h2⟩ | h2
    · exact absurd h2 (h1' k hlt)
    · rcases h2' with ⟨h3, _⟩ | h3 <;> omega
  · rfl
  · rcases h2' with ⟨_, h2'⟩ | h2'
    · exact absurd h2' (h1 k' hlt)
    · rcases h2 with ⟨h3, _⟩ | h3 <;> omega

end U5e.Spec
