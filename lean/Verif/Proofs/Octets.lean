import Verif.Proofs.Safety
import Verif.Spec.Octets
/-! Values and positions when iterating over arbitrary octets. -/
namespace U5e
open Spec

/-- One step of decoding, with wrap-around. -/
theorem decStep_mod (V : Nat) (o : Octet) :
    ((BitVec.ofNat 32 V <<< 6) ||| (promote o &&& 0b00111111#32)) = BitVec.ofNat 32 (V * 64 + o.toNat % 64) := by
  have hx : (promote o &&& 0b00111111#32).toNat = o.toNat % 64 := by
    have : ∀ o : Octet, (promote o &&& 0b00111111#32).toNat = o.toNat % 64 := by apply forall_octet; decide +kernel
    exact this o
  apply BitVec.eq_of_toNat_eq
  rw [BitVec.toNat_or, hx, BitVec.toNat_shiftLeft, BitVec.toNat_ofNat, BitVec.toNat_ofNat, Nat.shiftLeft_eq]
  have h1 : V % 2 ^ 32 * 2 ^ 6 % 2 ^ 32 = (V % 2 ^ 26) * 2 ^ 6 := by omega
  have hlt : o.toNat % 64 < 2 ^ 6 := Nat.mod_lt _ (by decide)
  rw [h1, ← Nat.shiftLeft_eq, ← Nat.shiftLeft_add_eq_or_of_lt hlt, Nat.shiftLeft_eq]
  omega

theorem decLoop_value (m : Mem) (n q V : Nat) (h : q + n < m.length) :
    decLoop m n q (BitVec.ofNat 32 V) =
      .ok (BitVec.ofNat 32 (((m.drop (q + 1)).take n).foldl (fun v o => v * 64 + o.toNat % 64) V)) := by
  induction n generalizing q V with
  | zero => simp [decLoop]
  | succ n ih =>
    have hg : m[q + 1]? = some m[q + 1] := List.getElem?_eq_getElem (by omega)
    simp only [decLoop, adv, show q + 1 ≤ m.length by omega, if_true, Res.bind_ok, rd_some hg]
    rw [decStep_mod, ih (q + 1) _ (by omega), List.drop_eq_getElem_cons (i := q + 1) (show q + 1 < m.length by omega)]
    simp only [List.take_succ_cons, List.foldl_cons]

/-- Dereferencing at `p` reads the value at the start `s` of its codepoint. -/
theorem cur_value {m : Mem} {p s : Nat} {l : Octet} (hr : rewind m p = .ok s) (hs : m[s]? = some l)
    (hp : p = s ∨ (0x80 ≤ l.toNat ∧ ∃ c, m[p]? = some c ∧ IsContinuation c)) (hc : ¬ IsContinuation l) (hl : l ≠ 0xFF)
    (hsz : s + claimed l ≤ m.length) : cur m p = .ok (valueAt m s, s) := by
  have hlt := (List.getElem?_eq_some_iff.mp hs).1
  have hdrop : m.drop s = l :: m.drop (s + 1) := by
    rw [List.drop_eq_getElem_cons hlt]; congr 1; exact (List.getElem?_eq_some_iff.mp hs).2
  have h7 : l.toNat < 0x80 → p = s := by
    intro h; rcases hp with h' | ⟨h', _⟩
    · exact h'
    · omega
  have hmask : ∀ l : Octet, ¬ l.toNat < 0x80 → ¬ IsContinuation l → l ≠ 0xFF →
      promote l &&& ((~~~ (0xFF#32 <<< (7 - cpSize l))) &&& 0xFF#32) = BitVec.ofNat 32 (l.toNat % 2 ^ (7 - claimed l)) := by
    apply forall_octet; decide +kernel
  have hsz7 : ∀ l : Octet, l ≠ 0xFF → cpSize l ≤ 7 := by apply forall_octet; decide +kernel
  by_cases h : l.toNat < 0x80
  · obtain rfl := h7 h
    have hb : is7bit l = true := (is7bit_iff l).mpr h
    simp only [cur, rd_some hs, Res.bind_ok, hb, if_true, valueAt, hdrop, h, promote_7bit l h, Res.pure_eq]
  · obtain ⟨o, ho, hno⟩ : ∃ o, m[p]? = some o ∧ is7bit o = false := by
      rcases hp with rfl | ⟨_, c, h1, h2⟩
      · exact ⟨l, hs, by rw [Bool.eq_false_iff]; exact fun hb => h ((is7bit_iff l).mp hb)⟩
      · refine ⟨c, h1, ?_⟩
        rw [Bool.eq_false_iff]; intro hb
        have := (is7bit_iff c).mp hb
        simp only [IsContinuation] at h2; omega
    have hcp := cpSize_claimed l hc
    have hpos := cpSize_pos l
    simp only [cur, rd_some ho, Res.bind_ok, hno, Bool.false_eq_true, if_false, hr, rd_some hs, maskFirst, hsz7 l hl,
      if_true, hmask l h hc hl]
    rw [decLoop_value m _ s _ (by rw [← hcp] at hsz; omega), hcp]
    simp only [Res.bind_ok, Res.pure_eq, valueAt, hdrop, h, if_false]
    rw [BitVec.toInt_ofNat']

/-- `*` is undefined when the claimed octets leave the memory, or on 0xFF. -/
theorem decLoop_ub (m : Mem) (n q : Nat) (v : BitVec 32) (h : m.length ≤ q + n) (hq : q < m.length) :
    decLoop m n q v = .ub := by
  induction n generalizing q v with
  | zero => omega
  | succ n ih =>
    by_cases hlt : q + 1 < m.length
    · have hg : m[q + 1]? = some m[q + 1] := List.getElem?_eq_getElem hlt
      simp only [decLoop, adv, show q + 1 ≤ m.length by omega, if_true, Res.bind_ok, rd_some hg]
      exact ih (q + 1) _ (by omega) hlt
    · have hn : m[q + 1]? = none := List.getElem?_eq_none (by omega)
      simp only [decLoop, adv]
      split
      · simp [rd, hn]
      · simp

theorem cur_ub {m : Mem} {s : Nat} {l : Octet} (hs : m[s]? = some l) (hc : ¬ IsContinuation l)
    (hbad : m.length < s + claimed l ∨ l = 0xFF) : cur m s = .ub := by
  have hlt := (List.getElem?_eq_some_iff.mp hs).1
  have hcp := cpSize_claimed l hc
  have h7 : ¬ l.toNat < 0x80 := by
    intro h
    rcases hbad with hb | rfl
    · simp only [claimed, h, if_true] at hb; omega
    · simp at h
  have hno : is7bit l = false := by rw [Bool.eq_false_iff]; exact fun hb => h7 ((is7bit_iff l).mp hb)
  simp only [cur, rd_some hs, Res.bind_ok, hno, Bool.false_eq_true, if_false, rewind_stop hs hc]
  by_cases h8 : cpSize l ≤ 7
  · have hb : m.length < s + claimed l := by
      rcases hbad with hb | rfl
      · exact hb
      · exact absurd h8 (by decide)
    simp only [maskFirst, h8, if_true, Res.bind_ok]
    rw [decLoop_ub m _ s _ (by omega) hlt]; rfl
  · simp [maskFirst, h8]

/-- `rewind` runs off the front if there are only continuation octets. -/
theorem rewind_ub {m : Mem} {p : Nat} (h : ∀ k, k ≤ p → ∃ c, m[k]? = some c ∧ IsContinuation c) : rewind m p = .ub := by
  induction p with
  | zero =>
    obtain ⟨c, h1, h2⟩ := h 0 (Nat.le_refl _)
    simp [rewind, rd_some h1, (isCont_iff c).mpr h2]
  | succ p ih =>
    obtain ⟨c, h1, h2⟩ := h (p + 1) (Nat.le_refl _)
    rw [rewind_cont h1 h2]
    exact ih fun k hk => h k (by omega)

instance (t : List UInt8) (s : Nat) : Decidable (Begins t s) :=
  decidable_of_iff (∃ l ∈ t[s]?, ¬ IsContinuation l) (by simp [Begins])

/-- The positions below `p` where codepoints begin. -/
def begins (t : List UInt8) (p : Nat) : List Nat := (List.range p).filter fun k => decide (Begins t k)

theorem begins_gap (t : List UInt8) (q p : Nat) (hqp : q < p) (hb : Begins t q)
    (hgap : ∀ k, q < k → k < p → ¬ Begins t k) : begins t p = begins t q ++ [q] := by
  induction p with
  | zero => omega
  | succ p ih =>
    rcases Nat.lt_or_ge q p with h | h
    · have := ih h (fun k h1 h2 => hgap k h1 (by omega))
      simp only [begins, List.range_succ, List.filter_append] at this ⊢
      rw [this]
      simp [hgap p h (by omega)]
    · obtain rfl : q = p := by omega
      simp [begins, List.range_succ, List.filter_append, hb]

theorem begins_none (t : List UInt8) (p : Nat) (h : ∀ k, k < p → ¬ Begins t k) : begins t p = [] := by
  simp only [begins, List.filter_eq_nil_iff, List.mem_range, decide_eq_true_eq]
  exact h

theorem begins_lists (t : List UInt8) : Lists (begins t t.length) (Begins t) := by
  refine ⟨List.Pairwise.filter _ List.pairwise_lt_range, fun s => ?_⟩
  simp only [begins, List.mem_filter, List.mem_range, decide_eq_true_eq, and_iff_right_iff_imp]
  rintro ⟨l, h, _⟩
  exact (List.getElem?_eq_some_iff.mp h).1

/-- The last beginning before `p`, or there is none. -/
theorem last_begins (t : List UInt8) (p : Nat) :
    (∀ k, k < p → ¬ Begins t k) ∨ ∃ q, q < p ∧ Begins t q ∧ ∀ k, q < k → k < p → ¬ Begins t k := by
  induction p with
  | zero => left; intro k hk; omega
  | succ p ih =>
    by_cases hb : Begins t p
    · exact .inr ⟨p, by omega, hb, by intros; omega⟩
    · rcases ih with h | ⟨q, h1, h2, h3⟩
      · left; intro k hk
        rcases Nat.lt_or_ge k p with h' | h'
        · exact h k h'
        · obtain rfl : k = p := by omega
          exact hb
      · refine .inr ⟨q, by omega, h2, fun k hk1 hk2 => ?_⟩
        rcases Nat.lt_or_ge k p with h' | h'
        · exact h3 k hk1 h'
        · obtain rfl : k = p := by omega
          exact hb

theorem cont_of_not_begins {t : List UInt8} {k : Nat} (hk : k < t.length) (h : ¬ Begins t k) :
    ∃ c, (t ++ [0])[k]? = some c ∧ IsContinuation c := by
  refine ⟨t[k], by rw [List.getElem?_append_left hk]; exact List.getElem?_eq_getElem hk, ?_⟩
  refine Decidable.byContradiction fun hc => h ⟨t[k], List.getElem?_eq_getElem hk, hc⟩

/-- A position from which the loop backwards can go on. -/
structure Stop (t : List UInt8) (p : Nat) (l : UInt8) : Prop where
  octet : (t ++ [0])[p]? = some l
  lead : ¬ IsContinuation l
  room : p + claimed l ≤ t.length + 1

theorem Stop.le {t : List UInt8} {p : Nat} {l : UInt8} (h : Stop t p l) : p ≤ t.length := by
  have := (List.getElem?_eq_some_iff.mp h.octet).1
  simp at this; omega

theorem Stop.eq {t : List UInt8} {p : Nat} {l : UInt8} (h : Stop t p l) :
    iterEq (t ++ [0]) p 0 = .ok (decide (p = 0)) := by
  have hcp := cpSize_claimed l h.lead
  have hpos := cpSize_pos l
  simp only [iterEq, rewind_stop h.octet h.lead, rd_some h.octet, Res.bind_ok]
  rw [eqLoop_eq _ 0 _ p (by rw [hcp]; simpa using h.room)]
  congr 1; apply decide_eq_decide.mpr; omega

theorem stop_end (t : List UInt8) : Stop t t.length 0 := by
  refine ⟨by simp, by decide, ?_⟩
  show t.length + 1 ≤ t.length + 1
  omega

theorem Stop.back {t : List UInt8} {p q : Nat} {l : UInt8} (h : Stop t p l) (hq : q < p) (hb : Begins t q)
    (hgap : ∀ k, q < k → k < p → ¬ Begins t k) : bwd (t ++ [0]) p = .ok q := by
  obtain ⟨l', h1, h2⟩ := hb
  obtain ⟨p', rfl⟩ : ∃ p', p = p' + 1 := ⟨p - 1, by omega⟩
  have hle := h.le
  have hq1 : (t ++ [0])[q]? = some l' := by rw [List.getElem?_append_left (by omega)]; exact h1
  simp only [bwd, rewind_stop h.octet h.lead, Res.bind_ok, retreat]
  exact rewind_to hq1 h2 (by omega) fun k hk1 hk2 => cont_of_not_begins (by omega) (hgap k hk1 (by omega))

/-- Backwards over a readable text: every beginning is visited, from right to left. -/
theorem walkBack_value (t : List UInt8) (hfirst : ∀ o, t.head? = some o → ¬ IsContinuation o)
    (hread : ∀ s, ¬ Unreadable t s) (fuel p : Nat) (l : UInt8) (hp : Stop t p l) (hf : p < fuel) :
    walkBack (t ++ [0]) 0 fuel p = .ok ((begins t p).map (valueAt (t ++ [0]))).reverse := by
  induction fuel generalizing p l with
  | zero => omega
  | succ fuel ih =>
    simp only [walkBack, hp.eq, Res.bind_ok]
    by_cases h0 : p = 0
    · subst h0; simp [begins]
    · simp only [h0, decide_false, Bool.false_eq_true, if_false]
      have hle := hp.le
      rcases last_begins t p with hn | ⟨q, hq, hb, hgap⟩
      · exfalso
        have : 0 < t.length := by omega
        exact hn 0 (by omega) ⟨t[0], List.getElem?_eq_getElem this, hfirst _ (by
          rw [List.head?_eq_getElem?]; exact List.getElem?_eq_getElem this)⟩
      · have hbk := hp.back hq hb hgap
        obtain ⟨l', h1, h2⟩ := hb
        have hlt := (List.getElem?_eq_some_iff.mp h1).1
        have h1' : (t ++ [0])[q]? = some l' := by rw [List.getElem?_append_left hlt]; exact h1
        have hroom : q + claimed l' ≤ t.length + 1 ∧ l' ≠ 0xFF := by
          have := hread q
          constructor
          · exact Nat.le_of_not_lt fun h => this ⟨l', h1, h2, .inl h⟩
          · exact fun h => this ⟨l', h1, h2, .inr h⟩
        have hc := cur_value (rewind_stop h1' h2) h1' (.inl rfl) h2 hroom.2 (by simpa using hroom.1)
        simp only [hbk, hc, Res.bind_ok, ih q l' ⟨h1', h2, hroom.1⟩ (by omega), Res.pure_eq]
        rw [begins_gap t q p hq ⟨l', h1, h2⟩ hgap]
        simp

/-- Backwards into something unreadable. -/
theorem walkBack_ub (t : List UInt8) (fuel p : Nat) (l : UInt8) (hp : Stop t p l) (hf : p < fuel)
    (hbad : (∃ s, s < p ∧ Unreadable t s) ∨ (0 < p ∧ ¬ Begins t 0)) :
    walkBack (t ++ [0]) 0 fuel p = .ub := by
  induction fuel generalizing p l with
  | zero => omega
  | succ fuel ih =>
    have h0 : p ≠ 0 := by rcases hbad with ⟨s, h, _⟩ | ⟨h, _⟩ <;> omega
    simp only [walkBack, hp.eq, Res.bind_ok, h0, decide_false, Bool.false_eq_true, if_false]
    have hle := hp.le
    rcases last_begins t p with hn | ⟨q, hq, hb, hgap⟩
    · have : bwd (t ++ [0]) p = .ub := by
        obtain ⟨p', rfl⟩ : ∃ p', p = p' + 1 := ⟨p - 1, by omega⟩
        simp only [bwd, rewind_stop hp.octet hp.lead, Res.bind_ok, retreat]
        exact rewind_ub fun k hk => cont_of_not_begins (by omega) (hn k (by omega))
      simp [this]
    · have hbk := hp.back hq hb hgap
      have hb' := hb
      obtain ⟨l', h1, h2⟩ := hb
      have hlt := (List.getElem?_eq_some_iff.mp h1).1
      have h1' : (t ++ [0])[q]? = some l' := by rw [List.getElem?_append_left hlt]; exact h1
      by_cases hu : Unreadable t q
      · obtain ⟨l2, g1, g2, g3⟩ := hu
        obtain rfl : l' = l2 := by rw [h1] at g1; exact Option.some.inj g1
        simp [hbk, cur_ub h1' h2 (by simpa using g3)]
      · have hroom : q + claimed l' ≤ t.length + 1 ∧ l' ≠ 0xFF := by
          constructor
          · exact Nat.le_of_not_lt fun h => hu ⟨l', h1, h2, .inl h⟩
          · exact fun h => hu ⟨l', h1, h2, .inr h⟩
        have hc := cur_value (rewind_stop h1' h2) h1' (.inl rfl) h2 hroom.2 (by simpa using hroom.1)
        have hrec := ih q l' ⟨h1', h2, hroom.1⟩ (by omega) (by
          rcases hbad with ⟨s, hs, hus⟩ | ⟨_, hn⟩
          · left
            refine ⟨s, ?_, hus⟩
            have hne : s ≠ q := by rintro rfl; exact hu hus
            obtain ⟨l3, k1, k2, _⟩ := hus
            exact Nat.lt_of_not_le fun h => hgap s (by omega) hs ⟨l3, k1, k2⟩
          · right
            refine ⟨Nat.pos_of_ne_zero ?_, hn⟩
            rintro rfl; exact hn hb')
        simp [hbk, hc, hrec]

/-- More fuel does not cure undefined behaviour. -/
theorem walkBack_mono (m : Mem) (b f : Nat) : ∀ p k, walkBack m b f p = .ub → walkBack m b (f + k) p = .ub := by
  induction f with
  | zero => intro p k h; simp [walkBack] at h
  | succ f ih =>
    intro p k h
    rw [show f + 1 + k = (f + k) + 1 by omega]
    simp only [walkBack] at h ⊢
    cases he : iterEq m p b with
    | ub => simp
    | tmo => rw [he] at h; simp at h
    | ok d =>
      rw [he] at h
      cases d with
      | true => simp at h
      | false =>
        simp only [Res.bind_ok, Bool.false_eq_true, if_false] at h ⊢
        cases hb : bwd m p with
        | ub => simp
        | tmo => rw [hb] at h; simp at h
        | ok q =>
          rw [hb] at h
          simp only [Res.bind_ok] at h ⊢
          cases hc : cur m q with
          | ub => simp
          | tmo => rw [hc] at h; simp at h
          | ok x =>
            rw [hc] at h
            simp only [Res.bind_ok] at h ⊢
            cases hw : walkBack m b f x.2 with
            | ub => rw [ih x.2 k hw]; simp
            | tmo => rw [hw] at h; simp at h
            | ok r => rw [hw] at h; simp at h

end U5e
