import Verif.Model.Platform
import Verif.Proofs.Octet
import Verif.Proofs.Octets
/-! The functions of Model/Platform against those of the rest of the model. -/
namespace U5e
namespace Platform

variable {M P : Platform}

theorem promote_cases (M : Platform) (o : Octet) :
    M.promote o = o.toBitVec.signExtend 32 ∨ M.promote o = o.toBitVec.zeroExtend 32 := by
  unfold promote; split <;> simp

theorem is7bit_eq (M : Platform) (o : Octet) : M.is7bit o = U5e.is7bit o := by
  have h : ∀ o : Octet, ((if o.toBitVec.signExtend 32 &&& 0b10000000#32 ≠ 0#32 then false else true) = U5e.is7bit o) ∧
      ((if o.toBitVec.zeroExtend 32 &&& 0b10000000#32 ≠ 0#32 then false else true) = U5e.is7bit o) := by
    apply forall_octet; decide +kernel
  unfold is7bit
  rcases promote_cases M o with e | e <;> rw [e]
  · exact (h o).1
  · exact (h o).2

theorem isCont_eq (M : Platform) (o : Octet) : M.isCont o = U5e.isCont o := by
  have h : ∀ o : Octet, ((if o.toBitVec.signExtend 32 &&& 0b11000000#32 = 0b10000000#32 then true else false) = U5e.isCont o) ∧
      ((if o.toBitVec.zeroExtend 32 &&& 0b11000000#32 = 0b10000000#32 then true else false) = U5e.isCont o) := by
    apply forall_octet; decide +kernel
  unfold isCont
  rcases promote_cases M o with e | e <;> rw [e]
  · exact (h o).1
  · exact (h o).2

theorem isStart_eq (M : Platform) (o : Octet) : M.isStart o = U5e.isStart o := by
  have h : ∀ o : Octet, ((if o.toBitVec.signExtend 32 &&& 0b11000000#32 = 0b11000000#32 then true else false) = U5e.isStart o) ∧
      ((if o.toBitVec.zeroExtend 32 &&& 0b11000000#32 = 0b11000000#32 then true else false) = U5e.isStart o) := by
    apply forall_octet; decide +kernel
  unfold isStart
  rcases promote_cases M o with e | e <;> rw [e]
  · exact (h o).1
  · exact (h o).2

theorem promote_mask (M : Platform) (o : Octet) (k : BitVec 32) (hk : k &&& 0xFF#32 = k) :
    M.promote o &&& k = U5e.promote o &&& k := by
  have h : ∀ o : Octet, (o.toBitVec.signExtend 32 &&& 0xFF#32 = U5e.promote o &&& 0xFF#32) ∧
      (o.toBitVec.zeroExtend 32 &&& 0xFF#32 = U5e.promote o &&& 0xFF#32) := by
    apply forall_octet; decide +kernel
  have e : M.promote o &&& 0xFF#32 = U5e.promote o &&& 0xFF#32 := by
    rcases promote_cases M o with e | e <;> rw [e]
    · exact (h o).1
    · exact (h o).2
  rw [← hk, BitVec.and_comm k, ← BitVec.and_assoc, ← BitVec.and_assoc, e]

theorem promote_7bit_eq (M : Platform) (o : Octet) (h : U5e.is7bit o = true) : M.promote o = U5e.promote o := by
  have k : ∀ o : Octet, U5e.is7bit o = true → o.toBitVec.zeroExtend 32 = U5e.promote o := by
    apply forall_octet; decide +kernel
  rcases promote_cases M o with e | e <;> rw [e]
  · rfl
  · exact k o h

theorem shl_gcc (h : M.strictShl = false) (v : BitVec 32) (n : Nat) (hn : n < 32) : M.shl v n = .ok (v <<< n) := by
  unfold shl; rw [if_neg (by omega), h]; simp

theorem shl_ok (v : BitVec 32) (n : Nat) (hn : n < 32) (hm : v.toNat < 2 ^ 31) (hv : v.toNat * 2 ^ n < 2 ^ 32) :
    M.shl v n = .ok (v <<< n) := by
  have : v.msb = false := by rw [BitVec.msb_eq_decide]; simpa using hm
  unfold shl; rw [if_neg (by omega), this]; simp; intro _; omega

/-- Either the shifts are not taken by the letter, or `char` is unsigned. -/
def Usable (M : Platform) : Prop := M.strictShl = false ∨ M.charSigned = false

theorem codepointSize_eq (h : M.Usable) (o : Octet) : M.codepointSize o = .ok (cpSize o) := by
  have k : ∀ o : Octet, (builtinClz (~~~ ((o.toBitVec.signExtend 32 : BitVec 32) <<< 24)) >>= fun z => (pure (max z 1) : Res Nat)) = .ok (cpSize o) ∧
      (builtinClz (~~~ ((o.toBitVec.zeroExtend 32 : BitVec 32) <<< 24)) >>= fun z => (pure (max z 1) : Res Nat)) = .ok (cpSize o) ∧
      (o.toBitVec.zeroExtend 32 : BitVec 32).toNat < 256 := by
    apply forall_octet; decide +kernel
  unfold codepointSize
  rcases h with h | h
  · rw [shl_gcc h _ _ (by omega), Res.bind_ok]
    rcases promote_cases M o with e | e <;> rw [e]
    · exact (k o).1
    · exact (k o).2.1
  · have e : M.promote o = o.toBitVec.zeroExtend 32 := by unfold promote; rw [h]; rfl
    have := (k o).2.2
    rw [e, shl_ok _ _ (by omega) (by omega) (by omega), Res.bind_ok]
    exact (k o).2.1

theorem codepointSize_strict (h1 : M.strictShl = true) (h2 : M.charSigned = true) (o : Octet) (ho : 0x80 ≤ o.toNat) :
    M.codepointSize o = .ub := by
  have k : ∀ o : Octet, 0x80 ≤ o.toNat → (o.toBitVec.signExtend 32 : BitVec 32).msb = true := by
    apply forall_octet; decide +kernel
  have e : M.promote o = o.toBitVec.signExtend 32 := by unfold promote; rw [h2]; rfl
  unfold codepointSize shl
  rw [e, k o ho, h1]
  rfl

theorem maskFirst_eq (M : Platform) (n : Nat) : M.maskFirst n = U5e.maskFirst n := by
  unfold maskFirst U5e.maskFirst
  split
  · rename_i h
    have k : (0xFF#32).toNat * 2 ^ (7 - n) ≤ 255 * 2 ^ 7 :=
      Nat.mul_le_mul (by decide) (Nat.pow_le_pow_right (by omega) (by omega))
    rw [shl_ok _ _ (by omega) (by decide) (by omega)]
    rfl
  · rfl

theorem rewind_eq (M : Platform) (m : Mem) (p : Nat) : M.rewind m p = U5e.rewind m p := by
  induction p with
  | zero => unfold rewind U5e.rewind; simp only [isCont_eq]
  | succ p ih => unfold rewind U5e.rewind; simp only [isCont_eq, ih]

theorem fwd_eq (h : M.Usable) (m : Mem) (p : Nat) : M.fwd m p = U5e.fwd m p := by
  unfold fwd U5e.fwd; simp only [rewind_eq, codepointSize_eq h, Res.bind_ok]

theorem bwd_eq (M : Platform) (m : Mem) (p : Nat) : M.bwd m p = U5e.bwd m p := by
  unfold bwd U5e.bwd; simp only [rewind_eq]

theorem iterEq_eq (h : M.Usable) (m : Mem) (p q : Nat) : M.iterEq m p q = U5e.iterEq m p q := by
  unfold iterEq U5e.iterEq; simp only [rewind_eq, codepointSize_eq h, Res.bind_ok]

theorem decLoop_gcc (h : M.strictShl = false) (m : Mem) (n q : Nat) (v : BitVec 32) :
    M.decLoop m n q v = U5e.decLoop m n q v := by
  induction n generalizing q v with
  | zero => rfl
  | succ n ih =>
    unfold decLoop U5e.decLoop
    rw [shl_gcc h _ _ (by omega), Res.bind_ok]
    simp only [promote_mask M _ 0b00111111#32 (by decide), ih]

theorem decLoop_small (M : Platform) (m : Mem) (n q : Nat) (v : BitVec 32) (hv : (v.toNat + 1) * 64 ^ n ≤ 2 ^ 31) :
    M.decLoop m n q v = U5e.decLoop m n q v := by
  induction n generalizing q v with
  | zero => rfl
  | succ n ih =>
    have h64 : (v.toNat + 1) * 64 ≤ 2 ^ 31 := by
      refine Nat.le_trans (Nat.mul_le_mul_left _ ?_) hv
      rw [Nat.pow_succ]; exact Nat.le_mul_of_pos_left 64 (Nat.pow_pos (by omega))
    unfold decLoop U5e.decLoop
    rw [shl_ok _ _ (by omega) (by omega) (by omega), Res.bind_ok]
    refine congrArg _ (funext fun q' => congrArg _ (funext fun o => ?_))
    rw [promote_mask M _ 0b00111111#32 (by decide)]
    apply ih
    have hb := decStep_mod v.toNat o
    rw [BitVec.ofNat_toNat, BitVec.setWidth_eq] at hb
    rw [hb, BitVec.toNat_ofNat]
    rw [Nat.mod_eq_of_lt (by omega)]
    refine Nat.le_trans (Nat.mul_le_mul_right (64 ^ n) (m := (v.toNat + 1) * 64) (by omega)) ?_
    rw [Nat.mul_assoc, Nat.mul_comm 64, ← Nat.pow_succ]
    exact hv

/-- `*it` agrees for every buffer, provided it has no octet 0xFE or 0xFF or the shifts are not taken by the letter. -/
theorem cur_eq (h : M.Usable) (m : Mem) (p : Nat) (hm : M.strictShl = false ∨ ∀ o ∈ m, o.toNat < 0xFE) :
    M.cur m p = U5e.cur m p := by
  unfold cur U5e.cur
  refine congrArg _ (funext fun o => ?_)
  rw [is7bit_eq]
  split
  · rename_i h7; rw [promote_7bit_eq M o h7]
  · rw [rewind_eq]
    refine congrArg _ (funext fun s => ?_)
    cases hf : rd m s with
    | ok f =>
      simp only [Res.bind_ok, codepointSize_eq h, maskFirst_eq]
      cases hk : U5e.maskFirst (cpSize f) with
      | ok k =>
        simp only [Res.bind_ok]
        have hk8 : k &&& 0xFF#32 = k := by
          unfold U5e.maskFirst at hk
          split at hk
          · injection hk with hk; subst hk; simp [BitVec.and_assoc]
          · cases hk
        rw [promote_mask M f k hk8]
        rcases hm with hm | hm
        · rw [decLoop_gcc hm]
        · rw [decLoop_small]
          have hf' : f.toNat < 0xFE := by
            unfold rd at hf
            split at hf
            · rename_i x hx; injection hf with hf; subst hf
              exact hm _ (List.mem_of_getElem? hx)
            · cases hf
          have key : ∀ f : Octet, f.toNat < 0xFE → ∀ k, U5e.maskFirst (cpSize f) = .ok k →
              ((U5e.promote f &&& k).toNat + 1) * 64 ^ (cpSize f - 1) ≤ 2 ^ 31 := by
            intro f hf k hk
            have : ∀ f : Octet, f.toNat < 0xFE → (match U5e.maskFirst (cpSize f) with
                | .ok k => decide (((U5e.promote f &&& k).toNat + 1) * 64 ^ (cpSize f - 1) ≤ 2 ^ 31)
                | _ => true) = true := by apply forall_octet; decide +kernel
            have := this f hf
            rw [hk] at this; exact of_decide_eq_true this
          exact key f hf' k hk
      | ub => rfl
      | tmo => rfl
    | ub => rfl
    | tmo => rfl

theorem utf8Iter_eq (h : M.Usable) (m : Mem) (hm : M.strictShl = false ∨ ∀ o ∈ m, o.toNat < 0xFE) :
    M.utf8Iter m = U5e.utf8Iter m := by
  unfold utf8Iter U5e.utf8Iter
  rw [funext fun p => cur_eq h m p hm, funext fun p => fwd_eq h m p, funext fun p => bwd_eq M m p,
    funext fun p => funext fun q => iterEq_eq h m p q]

theorem encodedSize_eq (M : Platform) (v : BitVec 32) : M.encodedSize v = U5e.encodedSize v := by
  have k : ∀ n : Fin 32, ∀ f : Fin 3, ∀ r : Fin 3,
      fceil (fdiv ((if f.val = 0 then FloatFormat.single else if f.val = 1 then .double else .extended).bits)
        (if r.val = 0 then .nearestEven else if r.val = 1 then .up else .down) n.val 6) = (n.val + 5) / 6 := by
    decide +kernel
  have k' : ∀ n, n < 32 → fceil (fdiv M.floatFormat.bits M.rounding n 6) = (n + 5) / 6 := by
    intro n hn
    have e1 : ∃ f : Fin 3, M.floatFormat = (if f.val = 0 then FloatFormat.single else if f.val = 1 then .double else .extended) := by
      cases M.floatFormat
      · exact ⟨0, rfl⟩
      · exact ⟨1, rfl⟩
      · exact ⟨2, rfl⟩
    have e2 : ∃ f : Fin 3, M.rounding = (if f.val = 0 then Rounding.nearestEven else if f.val = 1 then .up else .down) := by
      cases M.rounding
      · exact ⟨0, rfl⟩
      · exact ⟨1, rfl⟩
      · exact ⟨2, rfl⟩
    obtain ⟨f, hf⟩ := e1
    obtain ⟨r, hr⟩ := e2
    rw [hf, hr]; exact k ⟨n, hn⟩ f r
  unfold encodedSize U5e.encodedSize
  refine congrArg _ (funext fun z => ?_)
  rw [k' _ (by omega)]

theorem shr_eq (v : BitVec 32) (n : Nat) (h : M.arithShr = true ∨ v.toNat < 2 ^ 31) : M.shr v n = v.sshiftRight n := by
  unfold shr
  rcases h with h | h
  · rw [h]; rfl
  · split
    · rfl
    · rw [BitVec.sshiftRight_eq_of_msb_false]
      rw [BitVec.msb_eq_decide]; simpa using h

theorem low6_shr (M : Platform) (v : BitVec 32) (k : Nat) (hk : k ≤ 26) :
    M.shr v k &&& 0b00111111#32 = v.sshiftRight k &&& 0b00111111#32 := by
  unfold shr
  split
  · rfl
  · apply BitVec.eq_of_getLsbD_eq
    intro i hi
    have e : (63#32).getLsbD i = decide (i < 6) := by
      have : ∀ i : Fin 32, (63#32).getLsbD i = decide (i.val < 6) := by decide
      exact this ⟨i, hi⟩
    rw [BitVec.getLsbD_and, BitVec.getLsbD_and, e]
    by_cases h6 : i < 6
    · simp only [BitVec.getLsbD_ushiftRight, BitVec.getLsbD_sshiftRight, h6, decide_true, Bool.and_true]
      have : ¬ 32 ≤ i := by omega
      have h2 : k + i < 32 := by omega
      simp [h2, this]
    · simp [h6]

theorem first_shr (M : Platform) (v : BitVec 32) :
    lowOctet ((0xFF#32 <<< 2) ||| (M.shr v 30 &&& 0xFF#32)) = lowOctet ((0xFF#32 <<< 2) ||| (v.sshiftRight 30 &&& 0xFF#32)) := by
  unfold shr
  split
  · rfl
  · unfold lowOctet
    congr 1
    apply BitVec.eq_of_getLsbD_eq
    intro i hi
    have e : (0xFF#32 <<< 2).getLsbD i = decide (2 ≤ i) := by
      have : ∀ i : Fin 8, (0xFF#32 <<< 2).getLsbD i = decide (2 ≤ i.val) := by decide
      exact this ⟨i, hi⟩
    simp only [BitVec.getLsbD_setWidth, BitVec.getLsbD_or, BitVec.getLsbD_and, e]
    by_cases h2 : 2 ≤ i
    · simp [h2]
    · simp only [BitVec.getLsbD_ushiftRight, BitVec.getLsbD_sshiftRight]
      have : ¬ 32 ≤ i := by omega
      have h2' : 30 + i < 32 := by omega
      simp [h2', this]

theorem encodedSize_neg (v : BitVec 32) (h : v.msb = true) : U5e.encodedSize v = .ok 6 := by
  have h0 : v ≠ 0#32 := by rintro rfl; simp at h
  have hc : v.clz.toNat = 0 := by
    rw [BitVec.clz_eq_zero_iff (by decide)]
    rw [BitVec.msb_eq_decide] at h; simpa using h
  simp [U5e.encodedSize, builtinClz, h0, hc]
theorem contLoop_eq (M : Platform) (v : BitVec 32) (n : Nat) (hn : n ≤ 5) (m : Mem) (p : Nat) :
    M.contLoop v n m p = U5e.contLoop v n m p := by
  induction n generalizing m p with
  | zero => rfl
  | succ n ih =>
    unfold contLoop U5e.contLoop contOctet U5e.contOctet
    rw [low6_shr M v _ (by omega)]
    simp only [ih (by omega)]

theorem encodedSize_le {v : BitVec 32} {n : Nat} (h : U5e.encodedSize v = .ok n) : n ≤ 6 := by
  unfold U5e.encodedSize at h
  cases hz : builtinClz v with
  | ok z => rw [hz] at h; simp only [Res.bind_ok, Res.pure_eq, Res.ok.injEq] at h; omega
  | ub => rw [hz] at h; cases h
  | tmo => rw [hz] at h; cases h

theorem putCodepoint_eq (M : Platform) (m : Mem) (p : Nat) (v : BitVec 32) :
    M.putCodepoint m p v = U5e.putCodepoint m p v := by
  unfold putCodepoint U5e.putCodepoint
  rw [encodedSize_eq]
  cases hn : U5e.encodedSize v with
  | ub => rfl
  | tmo => rfl
  | ok n =>
    simp only [Res.bind_ok]
    split
    · rfl
    · have h6 := encodedSize_le hn
      have k : (0xFF#32).toNat * 2 ^ (8 - n) ≤ 255 * 2 ^ 8 :=
        Nat.mul_le_mul (by decide) (Nat.pow_le_pow_right (by omega) (by omega))
      have ho : M.firstOctet v n = .ok (U5e.firstOctet v n) := by
        unfold firstOctet U5e.firstOctet
        rw [shl_ok _ _ (by omega) (by decide) (by omega), Res.bind_ok, Res.pure_eq]
        cases hm : v.msb with
        | true =>
          rw [encodedSize_neg v hm] at hn
          injection hn with hn; subst hn
          rw [show (6 - 1) * 6 = 30 from rfl, show 8 - 6 = 2 from rfl, first_shr]
        | false =>
          rw [BitVec.msb_eq_decide] at hm
          rw [shr_eq v _ (Or.inr (by simpa using hm))]
      rw [ho]
      simp only [Res.bind_ok, contLoop_eq M v (n - 1) (by omega)]

theorem assign_eq (hM : M.Usable) (m : Mem) (p : Nat) (v : BitVec 32)
    (hm : M.strictShl = false ∨ ∀ o ∈ m, o.toNat < 0xFE) : M.assign m p v = U5e.assign m p v := by
  unfold assign U5e.assign
  rw [cur_eq hM m p hm]
  simp only [putCodepoint_eq]

theorem encodeOne_eq (hM : M.Usable) (v : BitVec 32) : M.encodeOne v = U5e.encodeOne v := by
  unfold encodeOne U5e.encodeOne
  rw [assign_eq hM _ _ _ (Or.inr (by decide))]
  simp only [fwd_eq hM]

theorem appendFromUtf32_eq (hM : M.Usable) (out : List Octet) (cs : List (BitVec 32)) :
    M.appendFromUtf32 out cs = U5e.appendFromUtf32 out cs := by
  induction cs generalizing out with
  | nil => rfl
  | cons c cs ih =>
    unfold appendFromUtf32 U5e.appendFromUtf32
    rw [encodeOne_eq hM c]
    simp only [ih]

theorem appendRange_eq (M : Platform) (out : List Octet) (m : Mem) (p q : Nat) :
    M.appendRange out m p q = U5e.appendRange out m p q := by
  unfold appendRange U5e.appendRange nativeConstIterator; simp only [rewind_eq]

theorem checkLoop_eq (h : M.Usable) (m : Mem) (b n e : Nat) : M.checkLoop m b n e = U5e.checkLoop m b n e := by
  induction n generalizing e with
  | zero => rfl
  | succ n ih =>
    unfold checkLoop U5e.checkLoop
    split
    · rfl
    · refine congrArg _ (funext fun o => ?_)
      simp only [isStart_eq, codepointSize_eq h, Res.bind_ok, ih]
      cases U5e.isStart o <;> simp

theorem boundsCheck_eq (h : M.Usable) (m : Mem) (b e : Nat) : M.boundsCheck m b e = U5e.boundsCheck m b e := by
  unfold boundsCheck U5e.boundsCheck; simp only [isCont_eq, checkLoop_eq h]

theorem enforceLead_eq (M : Platform) (n : Nat) (m : Mem) (b : Nat) (r : Bool) :
    M.enforceLead n m b r = U5e.enforceLead n m b r := by
  induction n generalizing m b r with
  | zero => rfl
  | succ n ih => unfold enforceLead U5e.enforceLead; simp only [isCont_eq, ih]

theorem enforceTail_eq (h : M.Usable) (n : Nat) (m : Mem) (b e : Nat) (r : Bool) :
    M.enforceTail n m b e r = U5e.enforceTail n m b e r := by
  induction n generalizing m e r with
  | zero => rfl
  | succ n ih =>
    unfold enforceTail U5e.enforceTail
    split
    · rfl
    · refine congrArg _ (funext fun o => ?_)
      simp only [isStart_eq, codepointSize_eq h, Res.bind_ok, ih]
      cases U5e.isStart o <;> simp

theorem boundsEnforce_eq (h : M.Usable) (m : Mem) (b e : Nat) : M.boundsEnforce m b e = U5e.boundsEnforce m b e := by
  unfold boundsEnforce U5e.boundsEnforce; simp only [enforceLead_eq, enforceTail_eq h]

theorem enc8_eq (h1 : M.strictShl = false) : M.enc8 = U5e.enc8 := by
  have h : M.Usable := Or.inl h1
  unfold enc8 U5e.enc8
  rw [funext fun m => utf8Iter_eq h m (Or.inl h1)]
  congr 1
  · funext out m p q; exact appendRange_eq M out m p q
  · funext out cs; exact appendFromUtf32_eq h out _
  · funext m p c; exact assign_eq h m p _ (Or.inl h1)

theorem codepointSize_ascii (P : Platform) (o : Octet) (ho : o.toNat < 0x80) : P.codepointSize o = .ok (cpSize o) := by
  have k : ∀ o : Octet, o.toNat < 0x80 → (U5e.promote o).toNat < 0x80 ∧
      (builtinClz (~~~ (U5e.promote o <<< 24)) >>= fun z => (pure (max z 1) : Res Nat)) = .ok (cpSize o) := by
    apply forall_octet; decide +kernel
  obtain ⟨h1, h2⟩ := k o ho
  unfold codepointSize
  rw [promote_7bit_eq P o ((is7bit_iff o).mpr ho), shl_ok _ _ (by omega) (by omega) (by omega), Res.bind_ok]
  exact h2

theorem rewind_ascii {m : Mem} {p : Nat} {o : Octet} (h : m[p]? = some o) (ho : o.toNat < 0xC0 → o.toNat < 0x80) :
    U5e.rewind m p = .ok p := by
  have hr : rd m p = .ok o := by rw [rd, h]
  have hc : U5e.isCont o = false := by
    cases hb : U5e.isCont o with
    | false => rfl
    | true => have := (isCont_iff o).mp hb; have h1 := this.1; have h2 := this.2; omega
  cases p with
  | zero => simp [U5e.rewind, hr, hc]
  | succ p => simp [U5e.rewind, hr, hc]

/-- On a position holding a 7-bit octet no platform differs. -/
theorem at_ascii (P : Platform) {m : Mem} {p : Nat} {o : Octet} (h : m[p]? = some o) (ho : o.toNat < 0x80) :
    P.cur m p = U5e.cur m p ∧ P.fwd m p = U5e.fwd m p ∧ ∀ q, P.iterEq m p q = U5e.iterEq m p q := by
  have hr : rd m p = .ok o := by rw [rd, h]
  have hw := rewind_ascii h (fun _ => ho)
  have h7 := (is7bit_iff o).mpr ho
  refine ⟨?_, ?_, fun q => ?_⟩
  · simp only [cur, U5e.cur, hr, Res.bind_ok, is7bit_eq, h7, if_true, promote_7bit_eq P o h7]
  · simp only [fwd, U5e.fwd, rewind_eq, hw, Res.bind_ok, hr, codepointSize_ascii P o ho]
  · simp only [iterEq, U5e.iterEq, rewind_eq, hw, Res.bind_ok, hr, codepointSize_ascii P o ho]

/-- On the first octet of a longer sequence everything is undefined where `char` is signed and `<<` is taken by the
letter. -/
theorem at_lead (h1 : P.strictShl = true) (h2 : P.charSigned = true) {m : Mem} {p : Nat} {o : Octet}
    (h : m[p]? = some o) (ho : 0xC0 ≤ o.toNat) :
    P.cur m p = .ub ∧ P.fwd m p = .ub ∧ ∀ q, P.iterEq m p q = .ub := by
  have hr : rd m p = .ok o := by rw [rd, h]
  have hw := rewind_ascii h (fun h => by omega)
  have h7 : U5e.is7bit o = false := by
    cases hb : U5e.is7bit o with
    | false => rfl
    | true => have := (is7bit_iff o).mp hb; omega
  have hs := codepointSize_strict h1 h2 o (by omega)
  refine ⟨?_, ?_, fun q => ?_⟩
  · simp only [cur, hr, Res.bind_ok, is7bit_eq, h7, rewind_eq, hw, hs, Res.bind_ub]; rfl
  · simp only [fwd, rewind_eq, hw, Res.bind_ok, hr, hs, Res.bind_ub]
  · simp only [iterEq, rewind_eq, hw, Res.bind_ok, hr, hs, Res.bind_ub]

theorem rewind_allAscii {m : Mem} (hm : ∀ o ∈ m, o.toNat < 0x80) (p : Nat) :
    U5e.rewind m p = (rd m p >>= fun _ => .ok p) := by
  cases h : m[p]? with
  | some o =>
    rw [rewind_ascii h fun _ => hm o (List.mem_of_getElem? h), rd, h]; rfl
  | none =>
    have hr : rd m p = .ub := by rw [rd, h]
    rw [hr]
    cases p <;> simp [U5e.rewind, hr]

theorem utf8Iter_ascii (P : Platform) (m : Mem) (hm : ∀ o ∈ m, o.toNat < 0x80) : P.utf8Iter m = U5e.utf8Iter m := by
  have h : ∀ p, P.cur m p = U5e.cur m p ∧ P.fwd m p = U5e.fwd m p ∧ ∀ q, P.iterEq m p q = U5e.iterEq m p q := by
    intro p
    cases h : m[p]? with
    | some o => exact at_ascii P h (hm o (List.mem_of_getElem? h))
    | none =>
      have hr : rd m p = .ub := by rw [rd, h]
      have hw : U5e.rewind m p = .ub := by rw [rewind_allAscii hm, hr]; rfl
      refine ⟨?_, ?_, fun q => ?_⟩
      · simp only [cur, U5e.cur, hr, Res.bind_ub]
      · simp only [fwd, U5e.fwd, rewind_eq, hw, Res.bind_ub]
      · simp only [iterEq, U5e.iterEq, rewind_eq, hw, Res.bind_ub]
  unfold utf8Iter U5e.utf8Iter
  rw [funext fun p => (h p).1, funext fun p => (h p).2.1, funext fun p => bwd_eq P m p,
    funext fun p => funext fun q => (h p).2.2 q]

theorem readRange_strict (h1 : P.strictShl = true) (h2 : P.charSigned = true) {m : Mem} {l : Octet}
    (hl : 0xC0 ≤ l.toNat) (e : Nat) : ∀ (n p fuel : Nat), (∀ i, i < n → ∃ o : Octet, m[p + i]? = some o ∧ o.toNat < 0x80) →
    m[p + n]? = some l → p + n < e → n < fuel → readRange (P.utf8Iter m) e fuel p = .ub := by
  intro n
  induction n with
  | zero =>
    intro p fuel _ hm _ hf
    cases fuel with
    | zero => omega
    | succ fuel =>
      have := (at_lead h1 h2 (p := p) hm hl).2.2 e
      simp only [readRange, utf8Iter, this, Res.bind_ub]
  | succ n ih =>
    intro p fuel ha hm he hf
    cases fuel with
    | zero => omega
    | succ fuel =>
      obtain ⟨o, ho, h7⟩ := ha 0 (by omega)
      rw [Nat.add_zero] at ho
      obtain ⟨hc, hi, hq⟩ := at_ascii P ho h7
      have hlen : p < m.length := (List.getElem?_eq_some_iff.mp ho).1
      have hr : rd m p = .ok o := by rw [rd, ho]
      have hw := rewind_ascii ho (fun _ => h7)
      have hs : cpSize o = 1 := by rw [cpSize_eq, if_pos (by omega)]
      have hadv : adv m p 1 = .ok (p + 1) := by rw [adv, if_pos (by omega)]
      have eq1 : P.iterEq m p e = .ok false := by
        rw [hq, U5e.iterEq]
        simp only [hw, hr, hs, Res.bind_ok, eqLoop, hadv, Res.pure_eq]
        rw [if_neg (by omega)]
      have cur1 : ∃ v, P.cur m p = .ok (v, p) := by
        rw [hc, U5e.cur]
        simp only [hr, Res.bind_ok, (is7bit_iff o).mpr h7, if_true, Res.pure_eq]
        exact ⟨_, rfl⟩
      obtain ⟨v, cur1⟩ := cur1
      have fwd1 : P.fwd m p = .ok (p + 1) := by
        rw [hi, U5e.fwd]; simp only [hw, hr, hs, Res.bind_ok, hadv]
      have := ih (p + 1) fuel (fun i hi => by
        have := ha (i + 1) (by omega)
        rwa [show p + (i + 1) = p + 1 + i by omega] at this)
        (by rwa [show p + (n + 1) = p + 1 + n by omega] at hm) (by omega) (by omega)
      unfold utf8Iter at this
      simp only [readRange, utf8Iter, eq1, cur1, fwd1, Res.bind_ok, Bool.false_eq_true, if_false, this, Res.bind_ub]

end Platform
end U5e
