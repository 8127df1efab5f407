import Verif.Model.Utf8Util
import Verif.Spec.Utf8
/-! Facts about single octets: each is checked for all 256 octets by the kernel. -/
namespace U5e
open Spec

theorem forall_octet {P : Octet → Prop} (h : ∀ n : Fin 256, P (UInt8.ofNat n.val)) (o : Octet) :
    P o := by
  have := h ⟨o.toNat, o.toNat_lt⟩
  simpa using this

theorem codepointSizeRes_eq (o : Octet) : codepointSizeRes o = .ok (cpSize o) := by
  revert o; apply forall_octet; decide +kernel

theorem isCont_iff (o : Octet) : isCont o = true ↔ IsContinuation o := by
  revert o; apply forall_octet; decide +kernel

theorem is7bit_iff (o : Octet) : is7bit o = true ↔ o.toNat < 0x80 := by
  revert o; apply forall_octet; decide +kernel

theorem isStart_iff (o : Octet) : isStart o = true ↔ 0xC0 ≤ o.toNat := by
  revert o; apply forall_octet; decide +kernel

theorem cpSize_eq (o : Octet) : cpSize o =
    if o.toNat < 0xC0 then 1 else if o.toNat < 0xE0 then 2 else if o.toNat < 0xF0 then 3
    else if o.toNat < 0xF8 then 4 else if o.toNat < 0xFC then 5 else if o.toNat < 0xFE then 6
    else if o.toNat < 0xFF then 7 else 8 := by
  revert o; apply forall_octet; decide +kernel

theorem cpSize_of_announced (o : Octet) (h : announced o ≠ 0) : cpSize o = announced o := by
  revert h; revert o; apply forall_octet; decide +kernel

theorem cpSize_pos (o : Octet) : 1 ≤ cpSize o := by
  revert o; apply forall_octet; decide +kernel

theorem cpSize_le (o : Octet) : cpSize o ≤ 8 := by
  revert o; apply forall_octet; decide +kernel

theorem promote_7bit (o : Octet) (h : o.toNat < 0x80) : (promote o).toInt = o.toNat := by
  revert h; revert o; apply forall_octet; decide +kernel

theorem promote_low6 (o : Octet) (h : IsContinuation o) :
    (promote o &&& 0b00111111#32).toNat = o.toNat - 0x80 := by
  revert h; revert o; apply forall_octet; decide +kernel

theorem low6_lt (o : Octet) : (promote o &&& 0b00111111#32).toNat < 64 := by
  revert o; apply forall_octet; decide +kernel

end U5e
