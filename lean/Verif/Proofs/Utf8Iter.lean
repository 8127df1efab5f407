import Verif.Model.Utf8Iter
import Verif.Proofs.Octet
/-! Behaviour of the UTF-8 iterator primitives on a unit, in any surrounding memory. -/
namespace U5e
open Spec

/-- `u` is stored in `m` starting at `p`. -/
def Holds (m : Mem) (p : Nat) (u : List Octet) : Prop := ∀ i, i < u.length → m[p + i]? = u[i]?

theorem Holds.le {m p u} (h : Holds m p u) (hu : u ≠ []) : p + u.length ≤ m.length := by
  have hl : 0 < u.length := List.length_pos_iff.mpr hu
  have := h (u.length - 1) (by omega)
  rw [List.getElem?_eq_getElem (l := u) (i := u.length - 1) (by omega)] at this
  have := (List.getElem?_eq_some_iff.mp this).1
  omega

theorem holds_append (pre u post : List Octet) : Holds (pre ++ u ++ post) pre.length u := by
  intro i hi
  rw [List.append_assoc, List.getElem?_append_right (by omega), List.getElem?_append_left (by omega)]
  congr 1; omega

theorem rd_some {m : Mem} {p : Nat} {o : Octet} (h : m[p]? = some o) : rd m p = .ok o := by
  simp [rd, h]

theorem Spec.IsUnit.ne_nil {u : List Octet} (h : IsUnit u) : u ≠ [] := by
  cases u <;> simp_all [IsUnit]

theorem Spec.IsUnit.length_pos {u : List Octet} (h : IsUnit u) : 0 < u.length :=
  List.length_pos_iff.mpr h.ne_nil

theorem Spec.IsUnit.lead {u : List Octet} (h : IsUnit u) :
    ∃ l, u[0]? = some l ∧ announced l = u.length ∧ ¬ IsContinuation l ∧ cpSize l = u.length := by
  cases u with
  | nil => exact h.elim
  | cons l cs =>
    obtain ⟨h1, h2⟩ := h
    refine ⟨l, rfl, by simpa using h1, ?_, ?_⟩
    · intro hc; simp only [announced, IsContinuation] at *; split at h1 <;> (try split at h1) <;> omega
    · rw [cpSize_of_announced l (by omega), h1]; rfl

theorem Spec.IsUnit.cont {u : List Octet} (h : IsUnit u) {i : Nat} (h0 : 0 < i) (hi : i < u.length) :
    ∃ c, u[i]? = some c ∧ IsContinuation c := by
  cases u with
  | nil => exact h.elim
  | cons l cs =>
    obtain ⟨_, h2⟩ := h
    obtain ⟨j, rfl⟩ : ∃ j, i = j + 1 := ⟨i - 1, by omega⟩
    have hj : j < cs.length := by simpa using hi
    exact ⟨cs[j], by simp [hj], h2 _ (List.getElem_mem hj)⟩

/-- `rewind` stays where it is on an octet that is not a continuation. -/
theorem rewind_stop {m : Mem} {p : Nat} {o : Octet} (h : m[p]? = some o) (hc : ¬ IsContinuation o) :
    rewind m p = .ok p := by
  have hc' : isCont o = false := by
    rw [← Bool.not_eq_true]; exact fun hh => hc ((isCont_iff o).mp hh)
  cases p <;> simp [rewind, rd_some h, hc']

theorem rewind_cont {m : Mem} {p : Nat} {o : Octet} (h : m[p + 1]? = some o) (hc : IsContinuation o) :
    rewind m (p + 1) = rewind m p := by
  simp [rewind, rd_some h, (isCont_iff o).mpr hc]

theorem rewind_unit {m : Mem} {p : Nat} {u : List Octet} (hu : IsUnit u) (hm : Holds m p u)
    {i : Nat} (hi : i < u.length) : rewind m (p + i) = .ok p := by
  induction i with
  | zero =>
    obtain ⟨l, hl, _, hc, _⟩ := hu.lead
    exact rewind_stop (by rw [hm 0 hi]; exact hl) hc
  | succ i ih =>
    obtain ⟨c, hc, hcc⟩ := hu.cont (Nat.succ_pos i) hi
    have : m[p + i + 1]? = some c := by have := hm (i + 1) hi; rw [hc] at this; exact this
    rw [← Nat.add_assoc, rewind_cont this hcc]; exact ih (by omega)

theorem rd_lead {m : Mem} {p : Nat} {u : List Octet} (hu : IsUnit u) (hm : Holds m p u) :
    ∃ l, rd m p = .ok l ∧ u[0]? = some l ∧ announced l = u.length ∧ cpSize l = u.length := by
  obtain ⟨l, hl, ha, _, hs⟩ := hu.lead
  refine ⟨l, rd_some ?_, hl, ha, hs⟩
  have := hm 0 hu.length_pos
  rw [hl] at this; simpa using this

theorem fwd_unit {m : Mem} {p : Nat} {u : List Octet} (hu : IsUnit u) (hm : Holds m p u)
    {i : Nat} (hi : i < u.length) : fwd m (p + i) = .ok (p + u.length) := by
  obtain ⟨l, hl, _, _, hs⟩ := rd_lead hu hm
  simp [fwd, rewind_unit hu hm hi, hl, hs, adv, hm.le hu.ne_nil]

theorem bwd_unit {m : Mem} {p : Nat} {u v : List Octet} (hu : IsUnit u) (hm : Holds m p u)
    (hv : IsUnit v) (hm2 : Holds m (p + u.length) v) {i : Nat} (hi : i < v.length) :
    bwd m (p + u.length + i) = .ok p := by
  have hl := hu.length_pos
  have h1 := rewind_unit hv hm2 hi
  obtain ⟨k, hk⟩ : ∃ k, u.length = k + 1 := ⟨u.length - 1, by omega⟩
  have h2 : rewind m (p + k) = .ok p := rewind_unit hu hm (by omega)
  have h3 : p + u.length = (p + k) + 1 := by omega
  rw [h3] at h1 ⊢
  simp [bwd, h1, retreat, h2]

/-- `--` from a position whose octet is not a continuation. -/
theorem bwd_at {m : Mem} {p : Nat} {u : List Octet} {o : Octet} (hu : IsUnit u) (hm : Holds m p u)
    (ho : m[p + u.length]? = some o) (hc : ¬ IsContinuation o) :
    bwd m (p + u.length) = .ok p := by
  have hl := hu.length_pos
  have h1 := rewind_stop ho hc
  obtain ⟨k, hk⟩ : ∃ k, u.length = k + 1 := ⟨u.length - 1, by omega⟩
  have h2 : rewind m (p + k) = .ok p := rewind_unit hu hm (by omega)
  have h3 : p + u.length = (p + k) + 1 := by omega
  rw [h3] at h1 ⊢
  simp [bwd, h1, retreat, h2]

theorem eqLoop_eq (m : Mem) (rhs : Nat) (n c : Nat) (h : c + n ≤ m.length) :
    eqLoop m rhs n c = .ok (decide (c ≤ rhs ∧ rhs < c + n)) := by
  induction n generalizing c with
  | zero => simp [eqLoop]
  | succ n ih =>
    unfold eqLoop
    split
    · next h' => subst h'; simp
    · next h' =>
      simp only [adv, show c + 1 ≤ m.length by omega, if_true, Res.bind_ok]
      rw [ih (c + 1) (by omega)]
      congr 1
      apply decide_eq_decide.mpr; omega

/-- The loop of `==` answers `true` as soon as the right-hand side is met, without going further. -/
theorem eqLoop_hit (m : Mem) (rhs : Nat) (n c : Nat) (h1 : c ≤ rhs) (h2 : rhs < c + n)
    (h3 : rhs ≤ m.length) : eqLoop m rhs n c = .ok true := by
  induction n generalizing c with
  | zero => omega
  | succ n ih =>
    unfold eqLoop
    split
    · rfl
    · simp only [adv, show c + 1 ≤ m.length by omega, if_true, Res.bind_ok]
      exact ih (c + 1) (by omega) (by omega)

theorem iterEq_unit {m : Mem} {p : Nat} {u : List Octet} (hu : IsUnit u) (hm : Holds m p u)
    {i : Nat} (hi : i < u.length) (q : Nat) :
    iterEq m (p + i) q = .ok (decide (p ≤ q ∧ q < p + u.length)) := by
  obtain ⟨l, hl, _, _, hs⟩ := rd_lead hu hm
  simp only [iterEq, rewind_unit hu hm hi, hl, Res.bind_ok, hs]
  exact eqLoop_eq m q _ p (hm.le hu.ne_nil)

/-- An iterator on an octet that is not a continuation equals itself. -/
theorem iterEq_self {m : Mem} {p : Nat} {o : Octet} (h : m[p]? = some o) (hc : ¬ IsContinuation o) :
    iterEq m p p = .ok true := by
  simp only [iterEq, rewind_stop h hc, rd_some h, Res.bind_ok]
  have := (List.getElem?_eq_some_iff.mp h).1
  exact eqLoop_hit m p _ p (Nat.le_refl _) (by have := cpSize_pos o; omega) (by omega)

/-! ### Decoding -/

theorem decStep (v x : BitVec 32) (hv : v.toNat * 64 < 2 ^ 32) (hx : x.toNat < 64) :
    ((v <<< 6) ||| x).toNat = v.toNat * 64 + x.toNat := by
  have h1 : (v <<< 6).toNat = v.toNat <<< 6 := by
    rw [BitVec.toNat_shiftLeft, Nat.shiftLeft_eq]
    exact Nat.mod_eq_of_lt (by simpa using hv)
  rw [BitVec.toNat_or, h1, ← Nat.shiftLeft_add_eq_or_of_lt (by simpa using hx), Nat.shiftLeft_eq]

theorem decLoop_eq (m : Mem) (cs : List Octet) (hc : ∀ c ∈ cs, IsContinuation c) (q : Nat)
    (v : BitVec 32) (hm : Holds m (q + 1) cs) (hb : v.toNat * 64 ^ cs.length + 64 ^ cs.length ≤ 2 ^ 32) :
    ∃ w, decLoop m cs.length q v = .ok w ∧
      w.toNat = cs.foldl (fun v c => v * 64 + (c.toNat - 0x80)) v.toNat := by
  induction cs generalizing q v with
  | nil => exact ⟨v, rfl, rfl⟩
  | cons c cs ih =>
    have hlen : m[q + 1]? = some c := by simpa using hm 0 (by simp)
    have hc0 := hc c (by simp)
    have hlt := (List.getElem?_eq_some_iff.mp hlen).1
    have hx := low6_lt c
    have hx' := promote_low6 c hc0
    have hpow : 64 ^ (c :: cs).length = 64 ^ cs.length * 64 := by simp [Nat.pow_succ]
    have hp : 0 < 64 ^ cs.length := Nat.pow_pos (by omega)
    rw [hpow] at hb
    have hv : v.toNat * 64 < 2 ^ 32 := by
      have h1 : v.toNat * 64 * 1 ≤ v.toNat * 64 * 64 ^ cs.length := Nat.mul_le_mul_left _ hp
      have h2 : v.toNat * 64 * 64 ^ cs.length = v.toNat * (64 ^ cs.length * 64) := by
        rw [Nat.mul_assoc, Nat.mul_comm 64]
      have h3 : 0 < 64 ^ cs.length * 64 := by omega
      omega
    have hs := decStep v (promote c &&& 0b00111111#32) hv hx
    rw [hx'] at hs
    have hcl : c.toNat - 0x80 < 64 := by simp only [IsContinuation] at hc0; omega
    have hm' : Holds m (q + 1 + 1) cs := by
      intro i hi
      have := hm (i + 1) (by simpa using hi)
      simp only [List.getElem?_cons_succ] at this
      rw [← this]; congr 1; omega
    obtain ⟨w, hw1, hw2⟩ := ih (fun c hc' => hc c (by simp [hc'])) (q + 1)
      ((v <<< 6) ||| (promote c &&& 0b00111111#32)) hm' (by
        rw [hs]
        have h5 : (v.toNat * 64 + (c.toNat - 0x80)) * 64 ^ cs.length + 64 ^ cs.length
          = (v.toNat * 64 + (c.toNat - 0x80) + 1) * 64 ^ cs.length := by
            rw [Nat.add_mul (v.toNat * 64 + (c.toNat - 0x80)) 1, Nat.one_mul]
        have h6 : v.toNat * (64 ^ cs.length * 64) + 64 ^ cs.length * 64
          = (v.toNat * 64 + 64) * 64 ^ cs.length := by
            rw [Nat.add_mul, Nat.mul_assoc, Nat.mul_comm 64 (64 ^ cs.length)]
        rw [h5]; rw [h6] at hb
        exact Nat.le_trans (Nat.mul_le_mul_right _ (by omega)) hb)
    refine ⟨w, ?_, ?_⟩
    · simp only [List.length_cons, decLoop, adv, show q + 1 ≤ m.length by omega, if_true,
        Res.bind_ok, rd_some hlen]
      exact hw1
    · rw [hw2, hs, List.foldl_cons]

theorem mask_lead (o : Octet) (h : 2 ≤ announced o) :
    ∃ mk, maskFirst (announced o) = .ok mk ∧ (promote o &&& mk).toNat = leadPayload o ∧
      leadPayload o < 2 ^ (7 - announced o) := by
  have key : ∀ o : Octet, 2 ≤ announced o →
      (promote o &&& ((~~~ (0xFF#32 <<< (7 - announced o))) &&& 0xFF#32)).toNat = leadPayload o ∧
      leadPayload o < 2 ^ (7 - announced o) ∧ announced o ≤ 7 := by
    intro o; revert o; apply forall_octet; decide +kernel
  obtain ⟨h1, h2, h3⟩ := key o h
  exact ⟨_, by simp [maskFirst, h3], h1, h2⟩

theorem payload_lt {u : List Octet} (hu : IsUnit u) : payload u < 2 ^ 31 := by
  have fold : ∀ (cs : List Octet) (v : Nat), (∀ c ∈ cs, IsContinuation c) →
      cs.foldl (fun v c => v * 64 + (c.toNat - 0x80)) v < (v + 1) * 64 ^ cs.length := by
    intro cs
    induction cs with
    | nil => intro v _; simp
    | cons c cs ih =>
      intro v hc
      have hcl : c.toNat - 0x80 < 64 := by have := hc c (by simp); simp only [IsContinuation] at this; omega
      have := ih (v * 64 + (c.toNat - 0x80)) (fun c h => hc c (by simp [h]))
      rw [List.foldl_cons]
      refine Nat.lt_of_lt_of_le this ?_
      rw [List.length_cons, Nat.pow_succ, Nat.mul_comm (64 ^ cs.length) 64, ← Nat.mul_assoc]
      exact Nat.mul_le_mul_right _ (by omega)
  cases u with
  | nil => exact hu.elim
  | cons l cs =>
    obtain ⟨h1, h2⟩ := hu
    have h3 := fold cs (leadPayload l) h2
    have key : ∀ l : Octet, announced l ≠ 0 →
        (leadPayload l + 1) * 64 ^ (announced l - 1) ≤ 2 ^ 31 := by
      intro l; revert l; apply forall_octet; decide +kernel
    have := key l (by omega)
    rw [h1] at this
    simp only [payload]
    exact Nat.lt_of_lt_of_le h3 (by simpa using this)

theorem toInt_of_small (w : BitVec 32) (h : w.toNat < 2 ^ 31) : w.toInt = (w.toNat : Int) := by
  rw [BitVec.toInt_eq_toNat_cond]; split <;> omega

/-- Dereferencing anywhere inside a unit gives its payload and rewinds to its first octet. -/
theorem cur_unit {m : Mem} {p : Nat} {u : List Octet} (hu : IsUnit u) (hm : Holds m p u)
    {i : Nat} (hi : i < u.length) : cur m (p + i) = .ok ((payload u : Int), p) := by
  obtain ⟨l, hl, hl0, ha, hs⟩ := rd_lead hu hm
  cases u with
  | nil => exact hu.elim
  | cons l' cs =>
  obtain rfl : l' = l := by simpa using hl0
  by_cases h7 : l'.toNat < 0x80
  · -- one-octet unit
    have hann : announced l' = 1 := by simp [announced, h7]
    have hcs : cs = [] := by
      have h1 : (l' :: cs).length = 1 := by omega
      exact List.length_eq_zero_iff.mp (by simpa using h1)
    subst hcs
    have hi0 : i = 0 := by simpa using hi
    subst hi0
    simp [cur, hl, (is7bit_iff l').mpr h7, promote_7bit l' h7, payload, leadPayload, h7]
  · have h2 : 2 ≤ announced l' := by
      have : announced l' ≠ 0 := by rw [ha]; simp
      simp only [announced, h7, if_false] at this ⊢
      repeat' split
      all_goals first | omega | simp_all
    obtain ⟨mk, hmk, hmk2, hmk3⟩ := mask_lead l' h2
    have hcs : ∀ c ∈ cs, IsContinuation c := hu.2
    have hm' : Holds m (p + 1) cs := by
      intro j hj
      have := hm (j + 1) (by simpa using hj)
      simp only [List.getElem?_cons_succ] at this
      rw [← this]; congr 1; omega
    have hlen : announced l' = cs.length + 1 := by simpa using ha
    have hb : (promote l' &&& mk).toNat * 64 ^ cs.length + 64 ^ cs.length ≤ 2 ^ 32 := by
      have key : ∀ l : Octet, announced l ≠ 0 →
          (leadPayload l + 1) * 64 ^ (announced l - 1) ≤ 2 ^ 31 := by
        intro l; revert l; apply forall_octet; decide +kernel
      have := key l' (by omega)
      rw [hlen] at this
      rw [hmk2]
      simp only [Nat.add_sub_cancel, Nat.add_mul, Nat.one_mul] at this
      omega
    obtain ⟨w, hw1, hw2⟩ := decLoop_eq m cs hcs p (promote l' &&& mk) hm' hb
    have hw3 : w.toNat = payload (l' :: cs) := by rw [hw2, hmk2]; rfl
    have hw4 : w.toInt = (payload (l' :: cs) : Int) := by
      rw [toInt_of_small w (by rw [hw3]; exact payload_lt hu), hw3]
    -- the octet at p+i is not 7-bit
    have ho : ∃ o, m[p + i]? = some o ∧ is7bit o = false := by
      cases i with
      | zero =>
        refine ⟨l', by simpa using hm 0 hi, ?_⟩
        rw [← Bool.not_eq_true, is7bit_iff]; exact h7
      | succ i =>
        obtain ⟨c, hc, hcc⟩ := hu.cont (Nat.succ_pos i) hi
        refine ⟨c, by rw [hm _ hi]; exact hc, ?_⟩
        rw [← Bool.not_eq_true, is7bit_iff]; simp only [IsContinuation] at hcc; omega
    obtain ⟨o, ho1, ho2⟩ := ho
    have hsz : cpSize l' = cs.length + 1 := by simpa using hs
    rw [ha] at hmk
    simp only [cur, rd_some ho1, Res.bind_ok, ho2, rewind_unit hu hm hi, hl, hs, hmk]
    simp only [List.length_cons, Nat.add_sub_cancel, hw1, Res.bind_ok, Bool.false_eq_true, if_false,
      Res.pure_eq, hw4]

end U5e
