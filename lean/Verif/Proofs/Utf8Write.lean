import Verif.Model.Utf8Write
import Verif.Proofs.Walk
import Verif.Spec.Encoder
/-! Lemmas about encoding: size, octets, the write loop. -/
namespace U5e
open Spec

/-- Closed form of `encoded_size`. -/
def szOf (n : Nat) : Nat :=
  if n < 2 then 0 else if n < 0x80 then 1 else if n < 0x2000 then 2 else if n < 0x80000 then 3
  else if n < 0x2000000 then 4 else if n < 0x80000000 then 5 else 6

theorem encodedSize_eq (v : BitVec 32) (h : v ≠ 0#32) : encodedSize v = .ok (szOf v.toNat) := by
  have h1 := BitVec.two_pow_sub_clz_le_toNat_of_ne_zero (x := v) (by omega) h
  have h2 := BitVec.toNat_lt_two_pow_sub_clz (x := v)
  have h3 : v.clz.toNat < 32 := by
    have := BitVec.clz_lt_iff_ne_zero.mpr h
    rw [BitVec.lt_def] at this; simpa using this
  simp only [encodedSize, builtinClz, h, if_false, Res.bind_ok, Res.pure_eq]
  congr 1
  generalize v.clz.toNat = z at h1 h2 h3
  generalize v.toNat = n at h1 h2
  unfold szOf
  have hz : z = 0 ∨ z = 1 ∨ z = 2 ∨ z = 3 ∨ z = 4 ∨ z = 5 ∨ z = 6 ∨ z = 7 ∨ z = 8 ∨ z = 9 ∨ z = 10 ∨
    z = 11 ∨ z = 12 ∨ z = 13 ∨ z = 14 ∨ z = 15 ∨ z = 16 ∨ z = 17 ∨ z = 18 ∨ z = 19 ∨ z = 20 ∨ z = 21 ∨
    z = 22 ∨ z = 23 ∨ z = 24 ∨ z = 25 ∨ z = 26 ∨ z = 27 ∨ z = 28 ∨ z = 29 ∨ z = 30 ∨ z = 31 := by omega
  rcases hz with h | h | h | h | h | h | h | h | h | h | h | h | h | h | h | h | h | h | h | h | h |
    h | h | h | h | h | h | h | h | h | h | h <;> subst h <;> simp at h1 h2 ⊢ <;> repeat' split
  all_goals omega

theorem sshift_eq (v : BitVec 32) (hv : v.toNat < 2 ^ 31) (k : Nat) :
    (v.sshiftRight k).toNat = v.toNat / 2 ^ k := by
  have hm : v.msb = false := by
    rw [BitVec.msb_eq_decide]; simp; omega
  rw [BitVec.sshiftRight_eq_of_msb_false hm, BitVec.toNat_ushiftRight, Nat.shiftRight_eq_div_pow]

theorem contOctet_eq (v : BitVec 32) (hv : v.toNat < 2 ^ 31) (s : Nat) :
    contOctet v s = UInt8.ofNat (0x80 + v.toNat / 2 ^ ((s - 1) * 6) % 64) := by
  have key : ∀ x : Fin 64, lowOctet (0b10000000#32 ||| BitVec.ofNat 32 x.val) =
      UInt8.ofNat (0x80 + x.val) := by decide +kernel
  have hx : (v.sshiftRight ((s - 1) * 6) &&& 0b00111111#32).toNat =
      v.toNat / 2 ^ ((s - 1) * 6) % 64 := by
    rw [BitVec.toNat_and, sshift_eq v hv]
    exact Nat.and_two_pow_sub_one_eq_mod (n := 6) _
  have hlt : v.toNat / 2 ^ ((s - 1) * 6) % 64 < 64 := Nat.mod_lt _ (by omega)
  have := key ⟨_, hlt⟩
  rw [contOctet, ← this]
  congr 2
  apply BitVec.eq_of_toNat_eq
  rw [hx, BitVec.toNat_ofNat]; simp only; omega

theorem firstOctet_val (v : BitVec 32) (hv : v.toNat < 2 ^ 31) (s : Nat)
    (hx : v.toNat / 2 ^ ((s - 1) * 6) < 256) :
    firstOctet v s = lowOctet ((0xFF#32 <<< (8 - s)) ||| BitVec.ofNat 32 (v.toNat / 2 ^ ((s - 1) * 6))) := by
  rw [firstOctet]
  congr 2
  apply BitVec.eq_of_toNat_eq
  rw [BitVec.toNat_and, sshift_eq v hv]
  have : (0xFF#32).toNat = 2 ^ 8 - 1 := by decide
  rw [this, BitVec.toNat_ofNat, Nat.and_two_pow_sub_one_eq_mod, Nat.mod_eq_of_lt (by omega), Nat.mod_eq_of_lt (by omega)]

/-- The lead octet is the standard one when the payload fits. -/
theorem firstOctet_eq (v : BitVec 32) (hv : v.toNat < 2 ^ 31) (s : Nat) (h2 : 2 ≤ s) (h6 : s ≤ 6)
    (hx : v.toNat / 2 ^ ((s - 1) * 6) < 2 ^ (7 - s)) :
    firstOctet v s = UInt8.ofNat (256 - 2 ^ (8 - s) + v.toNat / 2 ^ ((s - 1) * 6)) := by
  have hx' : v.toNat / 2 ^ ((s - 1) * 6) < 256 :=
    Nat.lt_of_lt_of_le hx (by
      calc 2 ^ (7 - s) ≤ 2 ^ 8 := Nat.pow_le_pow_right (by omega) (by omega)
        _ = 256 := by decide)
  rw [firstOctet_val v hv s hx']
  have key : ∀ s : Fin 7, 2 ≤ s.val → ∀ x : Fin 256, x.val < 2 ^ (7 - s.val) →
      lowOctet ((0xFF#32 <<< (8 - s.val)) ||| BitVec.ofNat 32 x.val) =
      UInt8.ofNat (256 - 2 ^ (8 - s.val) + x.val) := by decide +kernel
  exact key ⟨s, by omega⟩ h2 ⟨_, hx'⟩ hx

/-- Write `l` into `m` at `p`. -/
def splice (m : Mem) (p : Nat) (l : List Octet) : Mem := m.take p ++ l ++ m.drop (p + l.length)

theorem splice_length (m : Mem) (p : Nat) (l : List Octet) (h : p + l.length ≤ m.length) :
    (splice m p l).length = m.length := by
  simp [splice]; omega

theorem set_eq_splice (m : Mem) (p : Nat) (o : Octet) (h : p < m.length) :
    m.set p o = splice m p [o] := by
  rw [splice, List.set_eq_take_append_cons_drop]; simp [h]

/-- Splicing one more octet right after. -/
theorem splice_set (m : Mem) (p : Nat) (l : List Octet) (o : Octet) (h : p + l.length < m.length) :
    (splice m p l).set (p + l.length) o = splice m p (l ++ [o]) := by
  simp only [splice]
  rw [List.append_assoc, List.set_append_right _ _ (by simp; omega)]
  have h1 : p + l.length - (List.take p m).length = l.length := by simp; omega
  rw [h1, List.set_append_right _ _ (by omega)]
  simp only [Nat.sub_self, List.length_append, List.length_cons, List.length_nil]
  have : m.drop (p + l.length) = m[p + l.length] :: m.drop (p + l.length + 1) := by
    rw [List.drop_eq_getElem_cons h]
  rw [this]
  simp [List.append_assoc, Nat.add_assoc]

/-- The continuation octets written for remaining size `n`. -/
def contOctets (v : BitVec 32) : Nat → List Octet
  | 0 => []
  | n + 1 => contOctet v (n + 1) :: contOctets v n

theorem contOctets_length (v : BitVec 32) (n : Nat) : (contOctets v n).length = n := by
  induction n with
  | zero => rfl
  | succ n ih => simp [contOctets, ih]

theorem contLoop_eq (v : BitVec 32) (n : Nat) (m : Mem) (p : Nat) (l : List Octet) (hl : l ≠ [])
    (h : p + l.length + n ≤ m.length) :
    contLoop v n (splice m p l) (p + l.length - 1) =
      .ok (splice m p (l ++ contOctets v n), p + l.length + n - 1) := by
  have hlp : 0 < l.length := List.length_pos_iff.mpr hl
  induction n generalizing l with
  | zero => simp [contLoop, contOctets]
  | succ n ih =>
    have hs := splice_length m p l (by omega)
    have e1 : p + l.length - 1 + 1 = p + l.length := by omega
    have := ih (l ++ [contOctet v (n + 1)]) (by simp) (by simp; omega) (by simp)
    simp only [contLoop, adv, hs, e1, show p + l.length ≤ m.length by omega, if_true, Res.bind_ok, wr,
      show p + l.length < m.length by omega, splice_set m p l _ (by omega)]
    rw [show p + l.length = p + (l ++ [contOctet v (n + 1)]).length - 1 by simp, this]
    simp [contOctets]; omega

/-- The octets `putCodepoint` writes. -/
def written (v : BitVec 32) : List Octet :=
  if szOf v.toNat ≤ 1 then [lowOctet (v &&& 0xFF#32)]
  else firstOctet v (szOf v.toNat) :: contOctets v (szOf v.toNat - 1)

theorem written_length (v : BitVec 32) : (written v).length = max (szOf v.toNat) 1 := by
  unfold written; split
  · simp; omega
  · simp [contOctets_length]; omega

theorem putCodepoint_eq (m : Mem) (p : Nat) (v : BitVec 32) (hv : v ≠ 0#32)
    (h : p + (written v).length ≤ m.length) :
    putCodepoint m p v = .ok (splice m p (written v), p + (written v).length - 1) := by
  have hl := written_length v
  have hp : p < m.length := by omega
  simp only [putCodepoint, encodedSize_eq v hv, Res.bind_ok, wr, hp, if_true]
  split
  · next hs => simp [written, hs, set_eq_splice m p _ hp]
  · next hs =>
    rw [set_eq_splice m p _ hp]
    have := contLoop_eq v (szOf v.toNat - 1) m p [firstOctet v (szOf v.toNat)] (by simp) (by
      simp; omega)
    simp only [List.length_cons, List.length_nil, Nat.zero_add, Nat.add_sub_cancel] at this
    rw [this]
    simp only [written, hs, if_false, List.length_cons, contOctets_length, List.singleton_append]
    congr 2; omega

/-- Too little room: the loop runs off the buffer. -/
theorem contLoop_ub (v : BitVec 32) (n : Nat) (m : Mem) (p : Nat) (hp : p < m.length)
    (h : m.length ≤ p + n) : contLoop v n m p = .ub := by
  induction n generalizing m p with
  | zero => omega
  | succ n ih =>
    simp only [contLoop, adv, show p + 1 ≤ m.length by omega, if_true, Res.bind_ok, wr]
    split
    · next h1 => rw [Res.bind_ok, ih _ _ (by simpa using h1) (by simp; omega)]
    · rfl

/-- Without room for all the octets, writing is undefined. -/
theorem putCodepoint_ub (m : Mem) (p : Nat) (v : BitVec 32)
    (h : m.length < p + (written v).length) : putCodepoint m p v = .ub := by
  by_cases hv : v = 0#32
  · subst hv; simp [putCodepoint, encodedSize, builtinClz]
  have hl := written_length v
  simp only [putCodepoint, encodedSize_eq v hv, Res.bind_ok, wr]
  by_cases hp : p < m.length
  · simp only [hp, if_true, Res.bind_ok]
    split
    · omega
    · exact contLoop_ub v _ _ p (by simpa using hp) (by simp; omega)
  · simp only [hp, if_false]; split <;> rfl

/-! ### The octets written are the UTF-8 encoding -/

theorem encode_length (c : Nat) : (encode c).length =
    if c < 0x80 then 1 else if c < 0x800 then 2 else if c < 0x10000 then 3 else if c < 0x200000 then 4
    else if c < 0x4000000 then 5 else 6 := by
  unfold encode; repeat' split
  all_goals rfl

theorem szOf_encodable (c : Nat) (h1 : 1 ≤ c) (h2 : c < 2 ^ 31) :
    max (szOf c) 1 ≤ (encode c).length ∧ (max (szOf c) 1 = (encode c).length ↔ Encodable c) := by
  rw [encode_length]; unfold szOf Encodable
  constructor
  · repeat' split
    all_goals omega
  · repeat' split
    all_goals omega

theorem written_eq_encode (v : BitVec 32) (hv : v.toNat < 2 ^ 31) (h : Encodable v.toNat) :
    written v = encode v.toNat := by
  have e6 := contOctet_eq v hv
  have f := firstOctet_eq v hv
  unfold Encodable at h
  rcases Nat.lt_or_ge v.toNat 0x80 with h7 | h7
  · have hs : szOf v.toNat ≤ 1 := by unfold szOf; repeat' split
                                     all_goals omega
    have key : lowOctet (v &&& 0xFF#32) = UInt8.ofNat v.toNat := by
      have k : ∀ x : Fin 256, lowOctet (BitVec.ofNat 32 x.val) = UInt8.ofNat x.val := by decide +kernel
      rw [← k ⟨v.toNat, by omega⟩]
      congr 1
      apply BitVec.eq_of_toNat_eq
      rw [BitVec.toNat_and, show (0xFF#32).toNat = 2 ^ 8 - 1 by decide,
        Nat.and_two_pow_sub_one_eq_mod, BitVec.toNat_ofNat, Nat.mod_eq_of_lt (by omega)]
      simp only; omega
    simp [written, hs, encode, h7, key]
  rcases Nat.lt_or_ge v.toNat 0x800 with h8 | h8
  · have hs : szOf v.toNat = 2 := by unfold szOf; repeat' split
                                     all_goals omega
    have := f 2 (by omega) (by omega) (by simp; omega)
    simp only [written, hs, contOctets, e6, this, encode, show ¬ v.toNat < 0x80 by omega, h8]
    simp
  rcases Nat.lt_or_ge v.toNat 0x10000 with h9 | h9
  · have hs : szOf v.toNat = 3 := by unfold szOf; repeat' split
                                     all_goals omega
    have := f 3 (by omega) (by omega) (by simp; omega)
    simp only [written, hs, contOctets, e6, this, encode, show ¬ v.toNat < 0x80 by omega,
      show ¬ v.toNat < 0x800 by omega, h9]
    simp
  rcases Nat.lt_or_ge v.toNat 0x200000 with h10 | h10
  · have hs : szOf v.toNat = 4 := by unfold szOf; repeat' split
                                     all_goals omega
    have := f 4 (by omega) (by omega) (by simp; omega)
    simp only [written, hs, contOctets, e6, this, encode, show ¬ v.toNat < 0x80 by omega,
      show ¬ v.toNat < 0x800 by omega, show ¬ v.toNat < 0x10000 by omega, h10]
    simp
  · have hs : szOf v.toNat = 5 := by unfold szOf; repeat' split
                                     all_goals omega
    have := f 5 (by omega) (by omega) (by simp; omega)
    simp only [written, hs, contOctets, e6, this, encode, show ¬ v.toNat < 0x80 by omega,
      show ¬ v.toNat < 0x800 by omega, show ¬ v.toNat < 0x10000 by omega,
      show ¬ v.toNat < 0x200000 by omega, show v.toNat < 0x4000000 by omega]
    simp

theorem holds_splice (m : Mem) (p : Nat) (l : List Octet) (h : p + l.length ≤ m.length) :
    Holds (splice m p l) p l := by
  have := holds_append (m.take p) l (m.drop (p + l.length))
  simpa [splice, show min p m.length = p by omega] using this

/-- Octets after the lead are continuation octets, whatever the value. -/
theorem contOctets_cont (v : BitVec 32) (n : Nat) : ∀ c ∈ contOctets v n, IsContinuation c := by
  have key : ∀ w : BitVec 32, IsContinuation (lowOctet (0b10000000#32 ||| (w &&& 0b00111111#32))) := by
    intro w
    have k : ∀ x : Fin 64, IsContinuation (lowOctet (0b10000000#32 ||| BitVec.ofNat 32 x.val)) := by
      decide +kernel
    have hx : (w &&& 0b00111111#32).toNat = w.toNat % 64 := by
      rw [BitVec.toNat_and]; exact Nat.and_two_pow_sub_one_eq_mod (n := 6) _
    have hlt : w.toNat % 64 < 64 := Nat.mod_lt _ (by omega)
    have e : (w &&& 0b00111111#32) = BitVec.ofNat 32 (w.toNat % 64) := by
      apply BitVec.eq_of_toNat_eq; rw [hx, BitVec.toNat_ofNat]; omega
    rw [e]; exact k ⟨_, hlt⟩
  induction n with
  | zero => simp [contOctets]
  | succ n ih =>
    simp only [contOctets, List.forall_mem_cons]
    exact ⟨key _, ih⟩

/-- The lead octet always has its two top bits set when the size is at least two. -/
theorem firstOctet_ge (v : BitVec 32) (s : Nat) (h2 : 2 ≤ s) (h6 : s ≤ 6) :
    256 - 2 ^ (8 - s) ≤ (firstOctet v s).toNat := by
  have hx : (v.sshiftRight ((s - 1) * 6) &&& 0xFF#32).toNat < 256 := by
    rw [BitVec.toNat_and, show (0xFF#32).toNat = 2 ^ 8 - 1 by decide, Nat.and_two_pow_sub_one_eq_mod]
    exact Nat.mod_lt _ (by omega)
  have key : ∀ s : Fin 7, 2 ≤ s.val → ∀ x : Fin 256, 256 - 2 ^ (8 - s.val) ≤
      (lowOctet ((0xFF#32 <<< (8 - s.val)) ||| BitVec.ofNat 32 x.val)).toNat := by decide +kernel
  have := key ⟨s, by omega⟩ h2 ⟨_, hx⟩
  simpa [firstOctet] using this


theorem rewind_run {m : Mem} {p : Nat} {l : Octet} {cs : List Octet} (hm : Holds m p (l :: cs))
    (hl : ¬ IsContinuation l) (hc : ∀ c ∈ cs, IsContinuation c) (i : Nat) (hi : i ≤ cs.length) :
    rewind m (p + i) = .ok p := by
  induction i with
  | zero => exact rewind_stop (by simpa using hm 0 (by simp)) hl
  | succ i ih =>
    have h1 := hm (i + 1) (by simp; omega)
    have h2 : m[p + i + 1]? = some cs[i] := by
      rw [Nat.add_assoc, h1]; simp [show i < cs.length by omega]
    rw [← Nat.add_assoc, rewind_cont h2 (hc _ (List.getElem_mem _))]
    exact ih (by omega)

/-- The first octet `putCodepoint` writes. -/
def headOctet (v : BitVec 32) : Octet :=
  if szOf v.toNat ≤ 1 then lowOctet (v &&& 0xFF#32) else firstOctet v (szOf v.toNat)

theorem written_cons (v : BitVec 32) : ∃ cs, written v = headOctet v :: cs ∧
    (∀ c ∈ cs, IsContinuation c) := by
  unfold written headOctet; split
  · exact ⟨[], rfl, by simp⟩
  · exact ⟨_, rfl, contOctets_cont v _⟩

theorem szOf_le (n : Nat) : szOf n ≤ 6 := by unfold szOf; repeat' split
                                             all_goals omega

theorem headOctet_low (v : BitVec 32) (h : szOf v.toNat ≤ 1) : headOctet v = UInt8.ofNat v.toNat ∧
    v.toNat < 0x80 := by
  have h7 : v.toNat < 0x80 := by
    revert h; unfold szOf; repeat' split
    all_goals omega
  refine ⟨?_, h7⟩
  simp only [headOctet, h, if_true]
  have k : ∀ x : Fin 256, lowOctet (BitVec.ofNat 32 x.val) = UInt8.ofNat x.val := by decide +kernel
  rw [← k ⟨v.toNat, by omega⟩]
  congr 1
  apply BitVec.eq_of_toNat_eq
  rw [BitVec.toNat_and, show (0xFF#32).toNat = 2 ^ 8 - 1 by decide,
    Nat.and_two_pow_sub_one_eq_mod, BitVec.toNat_ofNat, Nat.mod_eq_of_lt (by omega)]
  simp only; omega

theorem headOctet_not_cont (v : BitVec 32) : ¬ IsContinuation (headOctet v) := by
  by_cases h : szOf v.toNat ≤ 1
  · obtain ⟨h1, h2⟩ := headOctet_low v h
    rw [h1]; simp only [IsContinuation, ofNat_toNat (show v.toNat < 256 by omega)]; omega
  · simp only [headOctet, h, if_false]
    have := firstOctet_ge v (szOf v.toNat) (by omega) (szOf_le _)
    have h6 := szOf_le v.toNat
    have h3 : 2 ^ (8 - szOf v.toNat) ≤ 2 ^ 6 := Nat.pow_le_pow_right (by omega) (by omega)
    simp only [IsContinuation]; omega

/-- After writing a codepoint, `++` from the last octet written goes to the start plus the size
announced by the first octet written. -/
theorem fwd_written (m : Mem) (p : Nat) (v : BitVec 32) (h : p + (written v).length ≤ m.length) :
    fwd (splice m p (written v)) (p + (written v).length - 1) =
      if p + cpSize (headOctet v) ≤ m.length then .ok (p + cpSize (headOctet v)) else .ub := by
  obtain ⟨cs, h1, h2⟩ := written_cons v
  have hh := holds_splice m p (written v) h
  have hlen := splice_length m p (written v) h
  rw [h1] at hh
  have hl : (written v).length = cs.length + 1 := by rw [h1]; rfl
  have hr := rewind_run hh (headOctet_not_cont v) h2 cs.length (Nat.le_refl _)
  have hrd : rd (splice m p (headOctet v :: cs)) p = .ok (headOctet v) :=
    rd_some (by simpa using hh 0 (by simp))
  rw [hl, show p + (cs.length + 1) - 1 = p + cs.length by omega, h1] at *
  simp only [fwd, hr, Res.bind_ok, hrd, adv, hlen]

theorem encodeOne_eq (v : BitVec 32) (hv : v ≠ 0#32) :
    encodeOne v = if cpSize (headOctet v) ≤ 6
      then .ok ((written v ++ List.replicate (6 - (written v).length) 0).take (cpSize (headOctet v)))
      else .ub := by
  have hl := written_length v
  have h6 := szOf_le v.toNat
  have hc : cur (List.replicate 6 0) 0 = .ok (0, 0) := by decide +kernel
  have hle : 0 + (written v).length ≤ (List.replicate 6 (0 : Octet)).length := by simp; omega
  have hf := fwd_written (List.replicate 6 0) 0 v hle
  simp only [Nat.zero_add, List.length_replicate] at hf hle
  simp only [encodeOne, assign, hc, Res.bind_ok,
    putCodepoint_eq (List.replicate 6 0) 0 v hv (by simpa using hle), Nat.zero_add, hf]
  split
  · simp only [Res.bind_ok, Res.pure_eq, splice, List.take_zero, List.nil_append, Nat.zero_add,
      List.drop_replicate]
  · rfl

theorem encodeOne_zero : encodeOne 0#32 = .ub := by decide +kernel


theorem cpSize_gt_six (o : Octet) : ¬ cpSize o ≤ 6 ↔ 0xFE ≤ o.toNat := by
  revert o; apply forall_octet; decide +kernel

theorem firstOctet_negative (v : BitVec 32) (hv : 2 ^ 31 ≤ v.toNat) :
    0xFE ≤ (firstOctet v 6).toNat := by
  have hm : v.msb = true := by rw [BitVec.msb_eq_decide]; simpa using hv
  have hlt := v.isLt
  have h1 : (~~~ v >>> 30).toNat < 2 := by
    rw [BitVec.toNat_ushiftRight, BitVec.toNat_not, Nat.shiftRight_eq_div_pow]; omega
  have h2 : (~~~ v >>> 30) = 0#32 ∨ (~~~ v >>> 30) = 1#32 := by
    rcases Nat.lt_or_ge (~~~ v >>> 30).toNat 1 with h | h
    · left; apply BitVec.eq_of_toNat_eq; simp only [BitVec.toNat_ofNat]; omega
    · right; apply BitVec.eq_of_toNat_eq; simp only [BitVec.toNat_ofNat]; omega
  simp only [firstOctet, BitVec.sshiftRight_eq_of_msb_true hm, show (6 - 1) * 6 = 30 by omega]
  rcases h2 with h | h <;> rw [h] <;> decide +kernel

theorem headOctet_overread (v : BitVec 32) :
    ¬ cpSize (headOctet v) ≤ 6 ↔ (2 ^ 31 ≤ v.toNat ∨ OverReads v.toNat) := by
  rw [cpSize_gt_six]
  have hlt := v.isLt
  by_cases hbig : 2 ^ 31 ≤ v.toNat
  · have hs : szOf v.toNat = 6 := by unfold szOf; repeat' split
                                     all_goals omega
    simp only [headOctet, hs, hbig, true_or, iff_true]
    exact firstOctet_negative v hbig
  · simp only [hbig, false_or]
    by_cases hs1 : szOf v.toNat ≤ 1
    · obtain ⟨h1, h2⟩ := headOctet_low v hs1
      rw [h1, ofNat_toNat (by omega)]; unfold OverReads; omega
    · have key : ∀ s : Fin 6, 2 ≤ s.val → ∀ x : Fin 256, 0xFE ≤
          (lowOctet ((0xFF#32 <<< (8 - s.val)) ||| BitVec.ofNat 32 x.val)).toNat ↔
          2 ^ (8 - s.val) - 2 ≤ x.val % 2 ^ (8 - s.val) := by decide +kernel
      have hh : headOctet v = firstOctet v (szOf v.toNat) := by simp [headOctet, hs1]
      have hcase : (szOf v.toNat = 2 ∧ 0x80 ≤ v.toNat ∧ v.toNat < 0x2000) ∨
          (szOf v.toNat = 3 ∧ 0x2000 ≤ v.toNat ∧ v.toNat < 0x80000) ∨
          (szOf v.toNat = 4 ∧ 0x80000 ≤ v.toNat ∧ v.toNat < 0x2000000) ∨
          (szOf v.toNat = 5 ∧ 0x2000000 ≤ v.toNat ∧ v.toNat < 0x80000000) := by
        revert hs1; unfold szOf; repeat' split
        all_goals omega
      have go : ∀ s, (hs2 : 2 ≤ s) → (hs6 : s < 6) → v.toNat / 2 ^ ((s - 1) * 6) < 256 →
          (0xFE ≤ (firstOctet v s).toNat ↔
            2 ^ (8 - s) - 2 ≤ v.toNat / 2 ^ ((s - 1) * 6) % 2 ^ (8 - s)) := by
        intro s hs2 hs6 hx
        rw [firstOctet_val v (by omega) s hx]
        exact key ⟨s, hs6⟩ hs2 ⟨_, hx⟩
      rw [hh]
      rcases hcase with ⟨h, h1, h2⟩ | ⟨h, h1, h2⟩ | ⟨h, h1, h2⟩ | ⟨h, h1, h2⟩ <;> rw [h]
      · rw [go 2 (by omega) (by omega) (by simp; omega)]; simp; unfold OverReads; omega
      · rw [go 3 (by omega) (by omega) (by simp; omega)]; simp; unfold OverReads; omega
      · rw [go 4 (by omega) (by omega) (by simp; omega)]; simp; unfold OverReads; omega
      · rw [go 5 (by omega) (by omega) (by simp; omega)]; simp; unfold OverReads; omega

/-- When the size is right, what `++` announces is what was written. -/
theorem encodeOne_encodable (v : BitVec 32) (hv : v.toNat < 2 ^ 31) (h : Encodable v.toNat) :
    encodeOne v = .ok (encode v.toNat) := by
  have hne : v ≠ 0#32 := by rintro rfl; revert h; decide
  have hw := written_eq_encode v hv h
  obtain ⟨cs, h1, _⟩ := written_cons v
  have hu := encode_isUnit v.toNat hv
  rw [← hw, h1] at hu
  obtain ⟨l, hl, _, _, hsz⟩ := hu.lead
  obtain rfl : headOctet v = l := by simpa using hl
  have hlen : (headOctet v :: cs).length = (encode v.toNat).length := by rw [← h1, hw]
  have h6 : (encode v.toNat).length ≤ 6 := by rw [encode_length]; repeat' split
                                              all_goals omega
  rw [encodeOne_eq v hne, hsz, hlen, if_pos h6, hw]
  simp

/-- When the size is wrong, the result is not the UTF-8 encoding. -/
theorem encodeOne_not_encodable (v : BitVec 32) (hv : v.toNat < 2 ^ 31) (h : ¬ Encodable v.toNat) :
    encodeOne v ≠ .ok (encode v.toNat) := by
  by_cases hne : v = 0#32
  · subst hne; rw [encodeOne_zero]; simp
  · have hpos : 1 ≤ v.toNat := by
      rcases Nat.eq_zero_or_pos v.toNat with h0 | h0
      · exact absurd (BitVec.eq_of_toNat_eq (by simpa using h0)) hne
      · exact h0
    rw [encodeOne_eq v hne]
    split
    · intro he
      simp only [Res.ok.injEq] at he
      have hwl := written_length v
      obtain ⟨hle, hiff⟩ := szOf_encodable v.toNat hpos hv
      have hlt : (written v).length < (encode v.toNat).length := by
        rw [hwl]; exact Nat.lt_of_le_of_ne hle (fun hh => h (hiff.mp hh))
      obtain ⟨c, hc, hcc⟩ := (encode_isUnit v.toNat hv).cont
        (i := (written v).length) (by omega) hlt
      rw [← he] at hc hlt
      rw [List.getElem?_take] at hc
      split at hc
      · rw [List.getElem?_append_right (by omega)] at hc
        have := List.mem_of_getElem? hc
        rw [List.mem_replicate] at this
        rw [this.2] at hcc; revert hcc; decide
      · simp at hc
    · simp

/-- A unit of `n` octets carries at most `5n+1` bits (7 if `n = 1`). -/
theorem payload_lt_length {u : List Octet} (hu : IsUnit u) :
    payload u < if u.length = 1 then 0x80 else 2 ^ (5 * u.length + 1) := by
  have fold : ∀ (cs : List Octet) (v : Nat), (∀ c ∈ cs, IsContinuation c) →
      cs.foldl (fun v c => v * 64 + (c.toNat - 0x80)) v < (v + 1) * 64 ^ cs.length := by
    intro cs
    induction cs with
    | nil => intro v _; simp
    | cons c cs ih =>
      intro v hc
      have hcl : c.toNat - 0x80 < 64 := by
        have := hc c (by simp); simp only [IsContinuation] at this; omega
      have := ih (v * 64 + (c.toNat - 0x80)) (fun c h => hc c (by simp [h]))
      rw [List.foldl_cons]
      refine Nat.lt_of_lt_of_le this ?_
      rw [List.length_cons, Nat.pow_succ, Nat.mul_comm (64 ^ cs.length) 64, ← Nat.mul_assoc]
      exact Nat.mul_le_mul_right _ (by omega)
  cases u with
  | nil => exact hu.elim
  | cons l cs =>
    obtain ⟨h1, h2⟩ := hu
    have h3 := fold cs (leadPayload l) h2
    have key : ∀ l : Octet, announced l ≠ 0 → (leadPayload l + 1) * 64 ^ (announced l - 1) ≤
        if announced l = 1 then 0x80 else 2 ^ (5 * announced l + 1) := by
      intro l; revert l; apply forall_octet; decide +kernel
    have := key l (by omega)
    rw [h1] at this
    simp only [payload]
    exact Nat.lt_of_lt_of_le h3 (by simpa using this)

/-- The low six bits of a decoded value are those of the last octet read. -/
theorem decLoop_last (m : Mem) (n q : Nat) (v w : BitVec 32) (h : decLoop m (n + 1) q v = .ok w) :
    ∃ o, m[q + n + 1]? = some o ∧ w.toNat % 64 = o.toNat % 64 := by
  induction n generalizing q v with
  | zero =>
    simp only [decLoop, adv] at h
    split at h
    · cases hm : m[q + 1]? with
      | none => simp [rd, hm] at h
      | some o =>
        simp only [rd, hm, Res.bind_ok, Res.pure_eq, Res.ok.injEq] at h
        refine ⟨o, rfl, ?_⟩
        rw [← h]
        have k : ∀ o : Octet, (promote o &&& 0b00111111#32).toNat = o.toNat % 64 := by
          apply forall_octet; decide +kernel
        rw [BitVec.toNat_or, k, show (64 : Nat) = 2 ^ 6 by decide, Nat.or_mod_two_pow,
          BitVec.toNat_shiftLeft, Nat.shiftLeft_eq]
        have : v.toNat * 2 ^ 6 % 2 ^ 32 % 2 ^ 6 = 0 := by omega
        rw [this]; simp
    · simp at h
  | succ n ih =>
    rw [decLoop] at h
    simp only [adv] at h
    split at h
    · cases hm : m[q + 1]? with
      | none => simp [rd, hm] at h
      | some o =>
        simp only [rd, hm, Res.bind_ok] at h
        obtain ⟨o', h1, h2⟩ := ih (q + 1) _ h
        exact ⟨o', by rw [← h1]; congr 1; omega, h2⟩
    · simp at h

/-- A wrongly sized codepoint does not survive a write into a buffer of suitable octets `x`. -/
theorem roundtrip_lost (v : BitVec 32) (hv : v.toNat < 2 ^ 31) (h : ¬ Encodable v.toNat) (x : Octet)
    (hx7 : x.toNat < 0x80) (hx : x.toNat % 64 ≠ v.toNat % 64) (p : Nat) :
    (assign (List.replicate (encode v.toNat).length x) 0 v >>= fun r => cur r.1 r.2) ≠
      .ok ((v.toNat : Int), p) := by
  have hepos := (encode_isUnit v.toNat hv).length_pos
  have hcur : cur (List.replicate (encode v.toNat).length x) 0 = .ok ((promote x).toInt, 0) := by
    have hr : rd (List.replicate (encode v.toNat).length x) 0 = .ok x :=
      rd_some (by rw [List.getElem?_replicate, if_pos hepos])
    simp only [cur, hr, Res.bind_ok, (is7bit_iff x).mpr hx7, if_true]; rfl
  by_cases hne : v = 0#32
  · subst hne
    rw [assign, hcur]
    simp [putCodepoint, encodedSize, builtinClz]
  have hpos : 1 ≤ v.toNat := by
    rcases Nat.eq_zero_or_pos v.toNat with h0 | h0
    · exact absurd (BitVec.eq_of_toNat_eq (by simpa using h0)) hne
    · exact h0
  have hwl := written_length v
  obtain ⟨hle, hiff⟩ := szOf_encodable v.toNat hpos hv
  have hlt : (written v).length < (encode v.toNat).length := by
    rw [hwl]; exact Nat.lt_of_le_of_ne hle (fun hh => h (hiff.mp hh))
  have hput := putCodepoint_eq (List.replicate (encode v.toNat).length x) 0 v hne (by simp; omega)
  simp only [assign, hcur, Res.bind_ok, hput]
  generalize hM : splice (List.replicate (encode v.toNat).length x) 0 (written v) = M
  have hMlen : M.length = (encode v.toNat).length := by
    rw [← hM, splice_length _ _ _ (by simp; omega)]; simp
  have hh : Holds M 0 (written v) := by rw [← hM]; exact holds_splice _ _ _ (by simp; omega)
  have hfill : ∀ k o, (written v).length ≤ k → M[k]? = some o → o = x := by
    intro k o hk ho
    rw [← hM, splice] at ho
    simp only [List.take_zero, List.nil_append, Nat.zero_add, List.drop_replicate] at ho
    rw [List.getElem?_append_right hk] at ho
    exact (List.mem_replicate.mp (List.mem_of_getElem? ho)).2
  obtain ⟨cs, hw, hcs⟩ := written_cons v
  have hnc := headOctet_not_cont v
  have hlenw : (written v).length = cs.length + 1 := by rw [hw]; rfl
  have hh' := hh
  rw [hw] at hh'
  have hr := rewind_run hh' hnc hcs cs.length (Nat.le_refl _)
  have hs2 : 2 ≤ szOf v.toNat := by
    rcases Nat.lt_or_ge (szOf v.toNat) 2 with h2 | h2
    · have := headOctet_low v (by omega)
      exact absurd (show Encodable v.toNat by unfold Encodable; omega) h
    · exact h2
  have hsz : szOf v.toNat = cs.length + 1 := by omega
  have hge : 256 - 2 ^ (8 - (cs.length + 1)) ≤ (headOctet v).toNat := by
    have := firstOctet_ge v (szOf v.toNat) hs2 (szOf_le _)
    have e : headOctet v = firstOctet v (szOf v.toNat) := by
      rw [headOctet, if_neg (by omega)]
    rw [e, hsz]; rw [hsz] at this; exact this
  have hsize : cs.length + 1 ≤ cpSize (headOctet v) := by
    have k : ∀ o : Octet, ∀ n : Fin 7, 256 - 2 ^ (8 - n.val) ≤ o.toNat → n.val ≤ cpSize o := by
      apply forall_octet; decide +kernel
    have h6 := szOf_le v.toNat
    exact k (headOctet v) ⟨cs.length + 1, by omega⟩ hge
  rw [hlenw, show 0 + (cs.length + 1) - 1 = 0 + cs.length by omega]
  rcases Nat.lt_or_ge (cs.length + 1) (cpSize (headOctet v)) with hgt | hle2
  · -- the head announces more octets than were written: the value ends in the bits of `x`
    intro hc
    have hlast : ∃ o, M[0 + cs.length]? = some o ∧ is7bit o = false := by
      have hpos' : 0 < cs.length := by omega
      have h1 := hh' cs.length (by simp)
      have h2 : (headOctet v :: cs)[cs.length]? = some cs[cs.length - 1] := by
        rw [List.getElem?_cons]; simp [show cs.length ≠ 0 by omega]
      refine ⟨cs[cs.length - 1], by rw [h1, h2], ?_⟩
      have := hcs cs[cs.length - 1] (List.getElem_mem _)
      rw [← Bool.not_eq_true, is7bit_iff]; simp only [IsContinuation] at this; omega
    obtain ⟨o, ho1, ho2⟩ := hlast
    have hrd : rd M 0 = .ok (headOctet v) := rd_some (by simpa using hh' 0 (by simp))
    simp only [cur, rd_some ho1, Res.bind_ok, ho2, hr, hrd, Bool.false_eq_true, if_false] at hc
    cases hmf : maskFirst (cpSize (headOctet v)) with
    | ub => rw [hmf] at hc; simp at hc
    | tmo => rw [hmf] at hc; simp at hc
    | ok mk =>
      rw [hmf] at hc
      simp only [Res.bind_ok] at hc
      cases hd : decLoop M (cpSize (headOctet v) - 1) 0 (promote (headOctet v) &&& mk) with
      | ub => rw [hd] at hc; simp at hc
      | tmo => rw [hd] at hc; simp at hc
      | ok w =>
        rw [hd] at hc
        simp only [Res.bind_ok, Res.pure_eq, Res.ok.injEq, Prod.mk.injEq] at hc
        rw [show cpSize (headOctet v) - 1 = (cpSize (headOctet v) - 2) + 1 by omega] at hd
        obtain ⟨o', h1, h2⟩ := decLoop_last M _ 0 _ w hd
        have := hfill _ o' (by omega) h1
        subst this
        have hwv : w.toNat = v.toNat := by
          have := hc.1
          rw [BitVec.toInt_eq_toNat_cond] at this
          split at this <;> omega
        omega
  · -- the octets written form a unit, too small for the value
    have heq : cpSize (headOctet v) = cs.length + 1 := by omega
    have h6 := szOf_le v.toNat
    have hann : announced (headOctet v) = cs.length + 1 := by
      have k : ∀ o : Octet, ¬ IsContinuation o → cpSize o ≤ 6 → announced o = cpSize o := by
        apply forall_octet; decide +kernel
      rw [k _ hnc (by omega), heq]
    have hu : IsUnit (headOctet v :: cs) := ⟨hann, hcs⟩
    have hc := cur_unit hu hh' (i := cs.length) (by simp)
    rw [hc]
    intro hbad
    simp only [Res.ok.injEq, Prod.mk.injEq] at hbad
    have hb := payload_lt_length hu
    have hpv : payload (headOctet v :: cs) = v.toNat := by omega
    rw [hpv] at hb
    simp only [List.length_cons, ← hsz] at hb
    have hcase : (szOf v.toNat = 2 ∧ 0x800 ≤ v.toNat) ∨ (szOf v.toNat = 3 ∧ 0x10000 ≤ v.toNat) ∨
        (szOf v.toNat = 4 ∧ 0x200000 ≤ v.toNat) ∨ (szOf v.toNat = 5 ∧ 0x4000000 ≤ v.toNat) := by
      revert hs2; unfold szOf; unfold Encodable at h
      repeat' split
      all_goals omega
    rcases hcase with ⟨h1, h2⟩ | ⟨h1, h2⟩ | ⟨h1, h2⟩ | ⟨h1, h2⟩ <;> rw [h1] at hb <;>
      simp at hb <;> omega

end U5e
