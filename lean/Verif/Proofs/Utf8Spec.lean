import Verif.Spec.Utf8
/-! Facts about the UTF-8 specification itself. -/
namespace U5e.Spec

theorem ofNat_toNat {n : Nat} (h : n < 256) : (UInt8.ofNat n).toNat = n := by
  simp [UInt8.toNat_ofNat']; omega

theorem IsUnit_cons {l : UInt8} {cs : List UInt8} :
    IsUnit (l :: cs) ↔ announced l = cs.length + 1 ∧ ∀ c ∈ cs, IsContinuation c := Iff.rfl

theorem announced_eq {o : UInt8} : announced o =
    if o.toNat < 0x80 then 1 else if o.toNat < 0xC0 then 0 else if o.toNat < 0xE0 then 2
    else if o.toNat < 0xF0 then 3 else if o.toNat < 0xF8 then 4 else if o.toNat < 0xFC then 5
    else if o.toNat < 0xFE then 6 else 0 := rfl

theorem cont_ofNat {n : Nat} (h : n < 64) : IsContinuation (UInt8.ofNat (0x80 + n)) := by
  have := ofNat_toNat (n := 0x80 + n) (by omega)
  simp only [IsContinuation, this]; omega

theorem encode_isUnit (c : Nat) (h : c < 2 ^ 31) : IsUnit (encode c) := by
  unfold encode
  have hm : ∀ n, n % 0x40 < 64 := fun n => Nat.mod_lt _ (by omega)
  split
  · have := ofNat_toNat (n := c) (by omega)
    simp only [IsUnit_cons, announced_eq, this]; simp; omega
  split
  · have := ofNat_toNat (n := 0xC0 + c / 0x40) (by omega)
    simp only [IsUnit_cons, announced_eq, this]
    refine ⟨by (simp only [List.length_cons, List.length_nil]; (repeat' split) <;> omega), ?_⟩
    simp only [List.forall_mem_cons, List.not_mem_nil, false_implies, implies_true, and_true]
    exact cont_ofNat (hm _)
  split
  · have := ofNat_toNat (n := 0xE0 + c / 0x1000) (by omega)
    simp only [IsUnit_cons, announced_eq, this]
    refine ⟨by (simp only [List.length_cons, List.length_nil]; (repeat' split) <;> omega), ?_⟩
    simp only [List.forall_mem_cons, List.not_mem_nil, false_implies, implies_true, and_true]
    exact ⟨cont_ofNat (hm _), cont_ofNat (hm _)⟩
  split
  · have := ofNat_toNat (n := 0xF0 + c / 0x40000) (by omega)
    simp only [IsUnit_cons, announced_eq, this]
    refine ⟨by (simp only [List.length_cons, List.length_nil]; (repeat' split) <;> omega), ?_⟩
    simp only [List.forall_mem_cons, List.not_mem_nil, false_implies, implies_true, and_true]
    exact ⟨cont_ofNat (hm _), cont_ofNat (hm _), cont_ofNat (hm _)⟩
  split
  · have := ofNat_toNat (n := 0xF8 + c / 0x1000000) (by omega)
    simp only [IsUnit_cons, announced_eq, this]
    refine ⟨by (simp only [List.length_cons, List.length_nil]; (repeat' split) <;> omega), ?_⟩
    simp only [List.forall_mem_cons, List.not_mem_nil, false_implies, implies_true, and_true]
    exact ⟨cont_ofNat (hm _), cont_ofNat (hm _), cont_ofNat (hm _), cont_ofNat (hm _)⟩
  · have := ofNat_toNat (n := 0xFC + c / 0x40000000) (by omega)
    simp only [IsUnit_cons, announced_eq, this]
    refine ⟨by (simp only [List.length_cons, List.length_nil]; (repeat' split) <;> omega), ?_⟩
    simp only [List.forall_mem_cons, List.not_mem_nil, false_implies, implies_true, and_true]
    exact ⟨cont_ofNat (hm _), cont_ofNat (hm _), cont_ofNat (hm _), cont_ofNat (hm _), cont_ofNat (hm _)⟩

theorem payload_encode (c : Nat) (h : c < 2 ^ 31) : payload (encode c) = c := by
  have hm : ∀ n, (UInt8.ofNat (0x80 + n % 0x40)).toNat - 0x80 = n % 0x40 := fun n => by
    rw [ofNat_toNat (by omega)]; omega
  unfold encode
  split
  · simp only [payload, List.foldl_nil, leadPayload, ofNat_toNat (n := c) (by omega)]; simp [*]
  split
  · simp only [payload, List.foldl_nil, List.foldl_cons, hm, leadPayload,
      ofNat_toNat (n := 0xC0 + c / 0x40) (by omega)]
    repeat' split
    all_goals omega
  split
  · simp only [payload, List.foldl_nil, List.foldl_cons, hm, leadPayload,
      ofNat_toNat (n := 0xE0 + c / 0x1000) (by omega)]
    repeat' split
    all_goals omega
  split
  · simp only [payload, List.foldl_nil, List.foldl_cons, hm, leadPayload,
      ofNat_toNat (n := 0xF0 + c / 0x40000) (by omega)]
    repeat' split
    all_goals omega
  split
  · simp only [payload, List.foldl_nil, List.foldl_cons, hm, leadPayload,
      ofNat_toNat (n := 0xF8 + c / 0x1000000) (by omega)]
    repeat' split
    all_goals omega
  · simp only [payload, List.foldl_nil, List.foldl_cons, hm, leadPayload,
      ofNat_toNat (n := 0xFC + c / 0x40000000) (by omega)]
    repeat' split
    all_goals omega

/-- On Unicode scalar values the specification is Lean core's UTF-8 encoder. -/
theorem encode_eq_core (c : Char) : encode c.toNat = String.utf8EncodeChar c := by
  have h : c.toNat < 0x110000 := by
    rcases c.valid with h | h
    · exact Nat.lt_trans h (by omega)
    · exact h.2
  have e : c.val.toNat = c.toNat := rfl
  simp only [String.utf8EncodeChar, encode, e]
  generalize c.toNat = v at h
  have hA : ∀ a b : Nat, a = b → UInt8.ofNat a = UInt8.ofNat b := by intros a b h; rw [h]
  rcases Nat.lt_or_ge v 0x80 with h1 | h1
  · simp only [h1, if_true, show v ≤ 127 by omega]
  rcases Nat.lt_or_ge v 0x800 with h2 | h2
  · simp only [h2, if_true, show v ≤ 2047 by omega, show ¬ v < 0x80 by omega,
      show ¬ v ≤ 127 by omega, if_false, List.cons.injEq, and_true]
    exact ⟨hA _ _ (by omega), hA _ _ (by omega)⟩
  rcases Nat.lt_or_ge v 0x10000 with h3 | h3
  · simp only [h3, if_true, show v ≤ 65535 by omega, show ¬ v < 0x80 by omega,
      show ¬ v ≤ 127 by omega, show ¬ v < 0x800 by omega, show ¬ v ≤ 2047 by omega, if_false,
      List.cons.injEq, and_true]
    exact ⟨hA _ _ (by omega), hA _ _ (by omega), hA _ _ (by omega)⟩
  · simp only [show v < 0x200000 by omega, if_true, show ¬ v ≤ 65535 by omega,
      show ¬ v < 0x80 by omega, show ¬ v < 0x10000 by omega,
      show ¬ v ≤ 127 by omega, show ¬ v < 0x800 by omega, show ¬ v ≤ 2047 by omega, if_false,
      List.cons.injEq, and_true]
    exact ⟨hA _ _ (by omega), hA _ _ (by omega), hA _ _ (by omega), hA _ _ (by omega)⟩

theorem encodeText_eq_core (s : List Char) :
    encodeText (s.map Char.toNat) = s.flatMap String.utf8EncodeChar := by
  simp only [encodeText, List.flatMap_map]
  congr 1; funext c; exact encode_eq_core c

end U5e.Spec
