/-! Vocabulary for the statements about u5e's UTF-8 encoder. -/
namespace U5e.Spec

/-- The codepoints below 2^31 for which u5e's encoder computes the right length (and, as C10 shows,
the right octets): everything below 0x800 except 0, and the upper part of each longer form. -/
def Encodable (c : Nat) : Prop :=
  (1 ≤ c ∧ c < 0x800) ∨ (0x2000 ≤ c ∧ c < 0x10000) ∨ (0x80000 ≤ c ∧ c < 0x200000) ∨
  (0x2000000 ≤ c ∧ c < 0x4000000)

instance (c : Nat) : Decidable (Encodable c) := by unfold Encodable; infer_instance

/-- The codepoints whose encoding makes u5e's encoder run past its 6-octet scratch buffer: those for
which the lead octet it computes is 0xFE or 0xFF. -/
def OverReads (c : Nat) : Prop :=
  (0x80 ≤ c ∧ c < 0x2000 ∧ 62 ≤ c / 0x40 % 64) ∨
  (0x2000 ≤ c ∧ c < 0x80000 ∧ 30 ≤ c / 0x1000 % 32) ∨
  (0x80000 ≤ c ∧ c < 0x2000000 ∧ 14 ≤ c / 0x40000 % 16) ∨
  (0x2000000 ≤ c ∧ c < 0x80000000 ∧ 6 ≤ c / 0x1000000 % 8)

instance (c : Nat) : Decidable (OverReads c) := by unfold OverReads; infer_instance

end U5e.Spec
