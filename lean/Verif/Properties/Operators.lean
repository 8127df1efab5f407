import Verif.Model.EncodedString
import Verif.Spec.Operators
import Verif.Properties.Octets
import Verif.Proofs.Utf8Write
/-!
# C72: what each operator of the UTF-8 iterator does, in memory holding any octets

The theorems give the result of `++`, `--`, `*`, `==` and `*it = c` for every memory and every position, and with it exactly when
they are undefined.
-/
namespace U5e
open Spec

theorem rewind_exact (m : Mem) (p s : Nat) : rewind m p = .ok s ↔ Of m s p := by
  constructor
  · intro h
    induction p with
    | zero =>
      rw [rewind] at h
      cases hm : m[0]? with
      | none => simp [rd, hm] at h
      | some o =>
        rw [rd_some hm, Res.bind_ok] at h
        split at h
        · cases h
        · next hc =>
          simp only [Res.pure_eq, Res.ok.injEq] at h
          subst h
          exact ⟨⟨o, hm, fun h => hc ((isCont_iff o).mpr h)⟩, Nat.le_refl _, fun k _ _ => by omega⟩
    | succ p ih =>
      rw [rewind] at h
      cases hm : m[p + 1]? with
      | none => simp [rd, hm] at h
      | some o =>
        rw [rd_some hm, Res.bind_ok] at h
        split at h
        · next hc =>
          obtain ⟨h1, h2, h3⟩ := ih h
          refine ⟨h1, by omega, fun k hk hk' => ?_⟩
          rcases Nat.lt_or_ge p k with hlt | hge
          · obtain rfl : k = p + 1 := by omega
            exact ⟨o, hm, (isCont_iff o).mp hc⟩
          · exact h3 k hk hge
        · next hc =>
          simp only [Res.pure_eq, Res.ok.injEq] at h
          subst h
          exact ⟨⟨o, hm, fun h => hc ((isCont_iff o).mpr h)⟩, Nat.le_refl _, fun k _ _ => by omega⟩
  · rintro ⟨⟨l, h1, h2⟩, h3, h4⟩
    exact rewind_to h1 h2 h3 h4

/-- What is not a value and not non-termination is undefined. -/
theorem ub_of {α : Type} {r : Res α} (h : r ≠ .tmo) (h' : ∀ x, r ≠ .ok x) : r = .ub := by
  cases r with
  | ok x => exact absurd rfl (h' x)
  | ub => rfl
  | tmo => exact absurd rfl h

theorem ub_iff {α : Type} {r : Res α} {P : α → Prop} (h : r ≠ .tmo) (h' : ∀ x, r = .ok x ↔ P x) :
    r = .ub ↔ ∀ x, ¬ P x := by
  constructor
  · intro hr x hx
    rw [(h' x).mpr hx] at hr
    cases hr
  · intro hn
    exact ub_of h fun x hx => hn x ((h' x).mp hx)

/-- C72, `++it`: from anywhere inside a codepoint, to its beginning plus the number of octets its first octet claims,
if that is in the memory or one past its end; undefined otherwise. -/
theorem C72_increment (m : List UInt8) (p : Nat) :
    (∀ q, fwd m p = .ok q ↔ ∃ s l, Of m s p ∧ m[s]? = some l ∧ q = s + claimed l ∧ s + claimed l ≤ m.length) ∧
    (fwd m p = .ub ↔ ¬ ∃ s l, Of m s p ∧ m[s]? = some l ∧ s + claimed l ≤ m.length) := by
  have key : ∀ q, fwd m p = .ok q ↔ ∃ s l, Of m s p ∧ m[s]? = some l ∧ q = s + claimed l ∧ s + claimed l ≤ m.length := by
    intro q
    constructor
    · intro h
      rw [fwd] at h
      cases hr : rewind m p with
      | ub => rw [hr] at h; cases h
      | tmo => rw [hr] at h; cases h
      | ok s =>
        have ho := (rewind_exact m p s).mp hr
        obtain ⟨l, hl, hc⟩ := ho.1
        rw [hr, Res.bind_ok, rd_some hl, Res.bind_ok, cpSize_claimed l hc, adv] at h
        split at h
        · next hle => cases h; exact ⟨s, l, ho, hl, rfl, hle⟩
        · cases h
    · rintro ⟨s, l, ho, hl, rfl, hle⟩
      obtain ⟨l', hl', hc⟩ := ho.1
      rw [hl] at hl'; cases hl'
      rw [fwd, (rewind_exact m p s).mpr ho, Res.bind_ok, rd_some hl, Res.bind_ok, cpSize_claimed l hc, adv, if_pos hle]
  refine ⟨key, (ub_iff (fwd_no_tmo m p) key).trans ⟨?_, ?_⟩⟩
  · rintro h ⟨s, l, h1, h2, h3⟩
    exact h _ ⟨s, l, h1, h2, rfl, h3⟩
  · rintro h q ⟨s, l, h1, h2, _, h3⟩
    exact h ⟨s, l, h1, h2, h3⟩

theorem bwd_no_tmo (m : Mem) (p : Nat) : bwd m p ≠ .tmo := by
  rw [bwd]
  cases h : rewind m p with
  | ub => simp
  | tmo => exact absurd h (rewind_no_tmo m p)
  | ok s =>
    rw [Res.bind_ok]
    cases s with
    | zero => simp [retreat]
    | succ s => simp only [retreat, Res.bind_ok]; exact rewind_no_tmo m s

/-- C72, `--it`: from anywhere inside a codepoint, to the last beginning before its own; undefined if there is none. -/
theorem C72_decrement (m : List UInt8) (p : Nat) :
    (∀ q, bwd m p = .ok q ↔ ∃ s, Of m s p ∧ q < s ∧ Of m q (s - 1)) ∧
    (bwd m p = .ub ↔ ¬ ∃ s q, Of m s p ∧ q < s ∧ Begins m q) := by
  have key : ∀ q, bwd m p = .ok q ↔ ∃ s, Of m s p ∧ q < s ∧ Of m q (s - 1) := by
    intro q
    constructor
    · intro h
      rw [bwd] at h
      cases hr : rewind m p with
      | ub => rw [hr] at h; cases h
      | tmo => rw [hr] at h; cases h
      | ok s =>
        rw [hr, Res.bind_ok] at h
        cases s with
        | zero => simp [retreat] at h
        | succ s =>
          simp only [retreat, Res.bind_ok] at h
          have h' := (rewind_exact m s q).mp h
          exact ⟨s + 1, (rewind_exact m p _).mp hr, by have := h'.2.1; omega, h'⟩
    · rintro ⟨s, ho, hq, ho'⟩
      obtain ⟨s, rfl⟩ : ∃ k, s = k + 1 := ⟨s - 1, by omega⟩
      rw [bwd, (rewind_exact m p _).mpr ho, Res.bind_ok]
      simp only [retreat, Res.bind_ok]
      exact (rewind_exact m s q).mpr ho'
  refine ⟨key, (ub_iff (bwd_no_tmo m p) key).trans ⟨?_, ?_⟩⟩
  · rintro h ⟨s, q, ho, hq, hb⟩
    obtain ⟨l, hl, hc⟩ := hb
    obtain ⟨l', hl', _⟩ := ho.1
    have hlt := (List.getElem?_eq_some_iff.mp hl').1
    obtain ⟨q', o, hr, hge, hle, _⟩ := rewind_exists (m := m) (b := q) (p := s - 1) hl hc (by omega) (by omega)
    exact h q' ⟨s, ho, by omega, (rewind_exact m _ q').mp hr⟩
  · rintro h q ⟨s, ho, hq, hb⟩
    exact h ⟨s, q, ho, hq, hb.1⟩

theorem cur_no_tmo' (m : Mem) (p : Nat) : cur m p ≠ .tmo := by
  have hdec : ∀ n q v, decLoop m n q v ≠ .tmo := by
    intro n
    induction n with
    | zero => intro q v; simp [decLoop]
    | succ n ih =>
      intro q v
      rw [decLoop]
      cases h1 : adv m q 1 with
      | ub => simp
      | tmo => exact absurd h1 (adv_no_tmo m q 1)
      | ok q' =>
        rw [Res.bind_ok]
        cases h2 : rd m q' with
        | ub => simp
        | tmo => exact absurd h2 (rd_no_tmo m q')
        | ok o => rw [Res.bind_ok]; exact ih _ _
  rw [cur]
  cases h1 : rd m p with
  | ub => simp
  | tmo => exact absurd h1 (rd_no_tmo m p)
  | ok o =>
    rw [Res.bind_ok]
    split
    · simp
    cases h2 : rewind m p with
    | ub => simp
    | tmo => exact absurd h2 (rewind_no_tmo m p)
    | ok s =>
      rw [Res.bind_ok]
      cases h3 : rd m s with
      | ub => simp
      | tmo => exact absurd h3 (rd_no_tmo m s)
      | ok f =>
        rw [Res.bind_ok]
        by_cases h4 : cpSize f ≤ 7
        · simp only [maskFirst, h4, if_true, Res.bind_ok]
          cases h5 : decLoop m (cpSize f - 1) s (promote f &&& (~~~(255#32 <<< (7 - cpSize f)) &&& 255#32)) with
          | ub => simp
          | tmo => exact absurd h5 (hdec _ _ _)
          | ok v => simp
        · simp [maskFirst, h4]

theorem low_six (l : UInt8) (h : l.toNat < 0x80) :
    (promote l &&& ((~~~ (0xFF#32 <<< (7 - cpSize l))) &&& 0xFF#32)).toInt = (l.toNat % 64 : Nat) ∧ cpSize l = 1 := by
  have : ∀ l : UInt8, l.toNat < 0x80 →
      (promote l &&& ((~~~ (0xFF#32 <<< (7 - cpSize l))) &&& 0xFF#32)).toInt = (l.toNat % 64 : Nat) ∧ cpSize l = 1 := by
    apply forall_octet; decide +kernel
  exact this l h

/-- Reading anywhere inside a codepoint whose claimed octets are in memory. -/
theorem cur_of {m : Mem} {p s : Nat} {l : UInt8} (ho : Of m s p) (hl : m[s]? = some l) (hff : l ≠ 0xFF)
    (hle : s + claimed l ≤ m.length) : cur m p = .ok (readAt m s p, s) := by
  obtain ⟨l', hl', hc⟩ := ho.1
  rw [hl] at hl'; cases hl'
  have hr := (rewind_exact m p s).mpr ho
  rcases Nat.eq_or_lt_of_le ho.2.1 with rfl | hlt
  · rw [cur_value hr hl (.inl rfl) hc hff hle]
    simp [readAt, hl]
  · obtain ⟨c, hc1, hc2⟩ := ho.2.2 p hlt (Nat.le_refl _)
    by_cases h7 : l.toNat < 0x80
    · have hn7 : is7bit c = false := by
        rw [Bool.eq_false_iff]; intro h
        have := (is7bit_iff c).mp h
        have := hc2.1
        omega
      obtain ⟨h6, h1⟩ := low_six l h7
      simp only [cur, rd_some hc1, Res.bind_ok, hn7, Bool.false_eq_true, if_false, hr, rd_some hl, maskFirst, h1,
        show (1 : Nat) ≤ 7 by omega, if_true, Nat.sub_self, decLoop, Res.pure_eq]
      rw [h1] at h6
      rw [h6]
      simp only [readAt, hl, h7, true_and, show p ≠ s by omega, ne_eq, not_false_eq_true, if_true]
      rfl
    · rw [cur_value hr hl (.inr ⟨by omega, c, hc1, hc2⟩) hc hff hle]
      simp [readAt, hl, h7]

/-- C72, `*it`: from anywhere inside a codepoint the value of the octets its first octet claims (`readAt`), moving the
iterator to the beginning; undefined exactly if those octets leave the memory, the first octet is 0xFF, or there is no
beginning. -/
theorem C72_read (m : List UInt8) (p : Nat) :
    (∀ v q, cur m p = .ok (v, q) ↔
      ∃ l, Of m q p ∧ m[q]? = some l ∧ l ≠ 0xFF ∧ q + claimed l ≤ m.length ∧ v = readAt m q p) ∧
    (cur m p = .ub ↔ ¬ ∃ s l, Of m s p ∧ m[s]? = some l ∧ l ≠ 0xFF ∧ s + claimed l ≤ m.length) := by
  have key : ∀ x, cur m p = .ok x ↔
      ∃ l, Of m x.2 p ∧ m[x.2]? = some l ∧ l ≠ 0xFF ∧ x.2 + claimed l ≤ m.length ∧ x.1 = readAt m x.2 p := by
    rintro ⟨v, q⟩
    constructor
    · intro h
      have hp : ∃ o, m[p]? = some o := by
        cases hp : m[p]? with
        | none => simp [cur, rd, hp] at h
        | some o => exact ⟨o, rfl⟩
      obtain ⟨o, hp⟩ := hp
      have hdef : ∃ s l, Of m s p ∧ m[s]? = some l ∧ l ≠ 0xFF ∧ s + claimed l ≤ m.length := by
        by_cases h7 : o.toNat < 0x80
        · refine ⟨p, o, ⟨⟨o, hp, fun hc => ?_⟩, Nat.le_refl _, fun k _ _ => by omega⟩, hp, ?_, ?_⟩
          · have := hc.1; omega
          · rintro rfl; exact absurd h7 (by decide)
          · have := (List.getElem?_eq_some_iff.mp hp).1
            simp only [claimed, h7, if_true]; omega
        · have hn7 : is7bit o = false := by
            rw [Bool.eq_false_iff]; intro hb; exact h7 ((is7bit_iff o).mp hb)
          cases hr : rewind m p with
          | ub => simp [cur, rd_some hp, hn7, hr] at h
          | tmo => exact absurd hr (rewind_no_tmo m p)
          | ok s =>
            have ho := (rewind_exact m p s).mp hr
            obtain ⟨l, hl, hc⟩ := ho.1
            refine ⟨s, l, ho, hl, ?_⟩
            refine Classical.byContradiction fun hbad => ?_
            have hbad' : m.length < s + claimed l ∨ l = 0xFF := by
              by_cases hf : l = 0xFF
              · exact .inr hf
              · exact .inl (Nat.lt_of_not_le fun h => hbad ⟨hf, h⟩)
            have hub := cur_ub hl hc hbad'
            have h7l : is7bit l = false := by
              rw [Bool.eq_false_iff]; intro hb
              have h7 := (is7bit_iff l).mp hb
              have := (List.getElem?_eq_some_iff.mp hl).1
              rcases hbad' with hb | rfl
              · simp only [claimed, h7, if_true] at hb; omega
              · simp at h7
            simp only [cur, rd_some hp, Res.bind_ok, hn7, Bool.false_eq_true, if_false, hr] at h
            simp only [cur, rd_some hl, Res.bind_ok, h7l, Bool.false_eq_true, if_false, rewind_stop hl hc] at hub
            rw [rd_some hl, Res.bind_ok, hub] at h
            cases h
      obtain ⟨s, l, ho, hl, hff, hle⟩ := hdef
      rw [cur_of ho hl hff hle] at h
      cases h
      exact ⟨l, ho, hl, hff, hle, rfl⟩
    · rintro ⟨l, ho, hl, hff, hle, hv⟩
      simp only at hv ho hl hle
      rw [cur_of ho hl hff hle, hv]
  refine ⟨fun v q => key (v, q), (ub_iff (cur_no_tmo' m p) key).trans ⟨?_, ?_⟩⟩
  · rintro h ⟨s, l, h1, h2, h3, h4⟩
    exact h (readAt m s p, s) ⟨l, h1, h2, h3, h4, rfl⟩
  · rintro h ⟨v, q⟩ ⟨l, h1, h2, h3, h4, _⟩
    exact h ⟨q, l, h1, h2, h3, h4⟩

theorem eqLoop_exact (m : Mem) (b n : Nat) : ∀ c, c ≤ m.length →
    eqLoop m b n c = if c ≤ b ∧ b < c + n ∧ b ≤ m.length then .ok true
      else if c + n ≤ m.length then .ok false else .ub := by
  induction n with
  | zero =>
    intro c hc
    rw [eqLoop, if_neg (by omega), if_pos (by omega)]; rfl
  | succ n ih =>
    intro c hc
    rw [eqLoop]
    by_cases hcb : c = b
    · subst hcb
      rw [if_pos rfl, if_pos (by omega)]; rfl
    · rw [if_neg hcb, adv]
      by_cases hle : c + 1 ≤ m.length
      · rw [if_pos hle, Res.bind_ok, ih (c + 1) hle]
        by_cases h1 : c + 1 ≤ b ∧ b < c + 1 + n ∧ b ≤ m.length
        · rw [if_pos h1, if_pos (by omega)]
        · rw [if_neg h1, if_neg (show ¬ (c ≤ b ∧ b < c + (n + 1) ∧ b ≤ m.length) by omega)]
          by_cases h2 : c + 1 + n ≤ m.length
          · rw [if_pos h2, if_pos (by omega)]
          · rw [if_neg h2, if_neg (by omega)]
      · rw [if_neg hle, if_neg (by omega), if_neg (by omega)]; rfl

/-- C72, `a == b`: true iff `b` is at one of the octets claimed by the codepoint `a` is inside of (inside the memory or
one past its end), false iff it is not and those octets are all in memory; undefined otherwise. -/
theorem C72_equal (m : List UInt8) (a b : Nat) :
    (iterEq m a b = .ok true ↔ ∃ s l, Of m s a ∧ m[s]? = some l ∧ s ≤ b ∧ b < s + claimed l ∧ b ≤ m.length) ∧
    (iterEq m a b = .ok false ↔
      ∃ s l, Of m s a ∧ m[s]? = some l ∧ ¬ (s ≤ b ∧ b < s + claimed l) ∧ s + claimed l ≤ m.length) ∧
    iterEq m a b ≠ .tmo := by
  cases hr : rewind m a with
  | tmo => exact absurd hr (rewind_no_tmo m a)
  | ub =>
    have hno : ∀ s, ¬ Of m s a := fun s hs => by rw [(rewind_exact m a s).mpr hs] at hr; cases hr
    have : iterEq m a b = .ub := by simp [iterEq, hr]
    rw [this]
    refine ⟨⟨nofun, ?_⟩, ⟨nofun, ?_⟩, nofun⟩
    · rintro ⟨s, _, h, _⟩; exact absurd h (hno s)
    · rintro ⟨s, _, h, _⟩; exact absurd h (hno s)
  | ok s =>
    have ho := (rewind_exact m a s).mp hr
    obtain ⟨l, hl, hc⟩ := ho.1
    have hlt := (List.getElem?_eq_some_iff.mp hl).1
    have huniq : ∀ s', Of m s' a → s' = s := fun s' h' => by
      have h2 := (rewind_exact m a s').mpr h'; rw [hr] at h2; cases h2; rfl
    have he : iterEq m a b = if s ≤ b ∧ b < s + claimed l ∧ b ≤ m.length then .ok true
      else if s + claimed l ≤ m.length then .ok false else .ub := by
      rw [iterEq, hr, Res.bind_ok, rd_some hl, Res.bind_ok, cpSize_claimed l hc, eqLoop_exact m b _ s (by omega)]
    rw [he]
    refine ⟨⟨?_, ?_⟩, ⟨?_, ?_⟩, ?_⟩
    · intro h
      split at h
      · next h1 => exact ⟨s, l, ho, hl, h1⟩
      · split at h <;> cases h
    · rintro ⟨s', l', h1, h2, h3⟩
      obtain rfl := huniq s' h1
      rw [hl] at h2; cases h2
      rw [if_pos h3]
    · intro h
      split at h
      · cases h
      · next h1 =>
        split at h
        · next h2 => exact ⟨s, l, ho, hl, fun h3 => h1 ⟨h3.1, h3.2, by omega⟩, h2⟩
        · cases h
    · rintro ⟨s', l', h1, h2, h3, h4⟩
      obtain rfl := huniq s' h1
      rw [hl] at h2; cases h2
      rw [if_neg (fun h => h3 ⟨h.1, h.2.1⟩), if_pos h4]
    · split
      · simp
      · split <;> simp

/-- "A", a stray continuation octet, "é", a truncated lead octet: reading on the stray octet gives 1 (not U+0041);
the iterator on "é" equals both of its octets; at the truncated lead nothing but `--` is defined. -/
example : (∃ p < 5, ∃ s, Of [0x41, 0x80, 0xC3, 0xA9, 0xE2] s p ∧ s < p) ∧
    cur [0x41, 0x80, 0xC3, 0xA9, 0xE2] 1 = .ok (1, 0) ∧ cur [0x41, 0x80, 0xC3, 0xA9, 0xE2] 3 = .ok (0xE9, 2) ∧
    iterEq [0x41, 0x80, 0xC3, 0xA9, 0xE2] 2 3 = .ok true ∧ iterEq [0x41, 0x80, 0xC3, 0xA9, 0xE2] 2 4 = .ok false ∧
    cur [0x41, 0x80, 0xC3, 0xA9, 0xE2] 4 = .ub ∧ fwd [0x41, 0x80, 0xC3, 0xA9, 0xE2] 4 = .ub ∧
    bwd [0x41, 0x80, 0xC3, 0xA9, 0xE2] 4 = .ok 2 ∧ bwd [0x41, 0x80, 0xC3, 0xA9, 0xE2] 1 = .ub := by
  refine ⟨⟨3, by omega, 2, (rewind_exact _ _ _).mp (by decide +kernel), by omega⟩, ?_⟩
  decide +kernel

theorem low_cont (w : BitVec 32) : lowOctet (0b10000000#32 ||| (w &&& 0b00111111#32)) =
    UInt8.ofNat (0x80 + (w.toInt % 64).toNat) := by
  have e1 : (w.toInt % 64).toNat = w.toNat % 64 := by rw [BitVec.toInt_eq_toNat_bmod]; simp only [Int.bmod]; split <;> omega
  have e2 : w &&& 0b00111111#32 = BitVec.ofNat 32 (w.toNat % 64) := by
    apply BitVec.eq_of_toNat_eq
    rw [BitVec.toNat_and, BitVec.toNat_ofNat, BitVec.toNat_ofNat]
    rw [show (63 % 2 ^ 32 : Nat) = 2 ^ 6 - 1 from rfl, Nat.and_two_pow_sub_one_eq_mod]
    omega
  rw [e1, e2]
  have key : ∀ x : Fin 64, lowOctet (0b10000000#32 ||| BitVec.ofNat 32 x.val) = UInt8.ofNat (0x80 + x.val) := by
    decide +kernel
  exact key ⟨_, Nat.mod_lt _ (by omega)⟩

theorem low_first (w : BitVec 32) (n : Nat) (h1 : 2 ≤ n) (h2 : n ≤ 6) :
    lowOctet ((0xFF#32 <<< (8 - n)) ||| (w &&& 0xFF#32)) =
    UInt8.ofNat ((256 - 2 ^ (8 - n)) ||| (w.toInt % 256).toNat) := by
  have e1 : (w.toInt % 256).toNat = w.toNat % 256 := by rw [BitVec.toInt_eq_toNat_bmod]; simp only [Int.bmod]; split <;> omega
  have e2 : w &&& 0xFF#32 = BitVec.ofNat 32 (w.toNat % 256) := by
    apply BitVec.eq_of_toNat_eq
    rw [BitVec.toNat_and, BitVec.toNat_ofNat, BitVec.toNat_ofNat]
    rw [show (255 % 2 ^ 32 : Nat) = 2 ^ 8 - 1 from rfl, Nat.and_two_pow_sub_one_eq_mod]
    omega
  rw [e1, e2]
  have key : ∀ n : Fin 7, 2 ≤ n.val → ∀ x : Fin 256, lowOctet ((0xFF#32 <<< (8 - n.val)) ||| BitVec.ofNat 32 x.val) =
      UInt8.ofNat ((256 - 2 ^ (8 - n.val)) ||| x.val) := by
    decide +kernel
  exact key ⟨n, by omega⟩ h1 ⟨_, Nat.mod_lt _ (by omega)⟩

theorem sshift_div (v : BitVec 32) (k : Nat) : (v.sshiftRight (k * 6)).toInt = v.toInt / 64 ^ k := by
  rw [BitVec.toInt_sshiftRight, Int.shiftRight_eq_div_pow, Nat.mul_comm, Nat.pow_mul]
  rfl

theorem contOctets_octetsOf (v : BitVec 32) (n : Nat) : contOctets v n =
    (List.range n).reverse.map fun k => UInt8.ofNat (0x80 + (v.toInt / 64 ^ k % 64).toNat) := by
  induction n with
  | zero => rfl
  | succ n ih =>
    rw [contOctets, ih, List.range_succ, List.reverse_append]
    simp only [List.reverse_cons, List.reverse_nil, List.nil_append, List.cons_append, List.map_cons]
    rw [contOctet, Nat.add_sub_cancel, low_cont, sshift_div]

theorem width_szOf (v : BitVec 32) : width v.toInt = max (szOf v.toNat) 1 := by
  have hlt := v.isLt
  rw [BitVec.toInt_eq_toNat_cond]
  unfold width szOf
  repeat' split
  all_goals omega

theorem written_octetsOf (v : BitVec 32) : written v = octetsOf v.toInt := by
  have hw := width_szOf v
  have h6 := szOf_le v.toNat
  rw [written, octetsOf]
  by_cases h : szOf v.toNat ≤ 1
  · rw [if_pos h, if_pos (by omega)]
    have hn : v.toNat < 0x80 := by
      unfold szOf at h
      repeat' split at h
      all_goals omega
    have : ∀ x : Fin 128, lowOctet (BitVec.ofNat 32 x.val &&& 0xFF#32) = UInt8.ofNat x.val := by decide +kernel
    have h1 := this ⟨v.toNat, hn⟩
    simp only [BitVec.ofNat_toNat, BitVec.setWidth_eq] at h1
    rw [h1]
    congr 2
    rw [BitVec.toInt_eq_toNat_cond, if_pos (by omega)]; omega
  · have e : width v.toInt = szOf v.toNat := by omega
    rw [if_neg h, if_neg (by omega), e, firstOctet, low_first _ _ (by omega) h6, sshift_div, contOctets_octetsOf]

/-- C72, `*it = c` through a mutable iterator: writes the octets of `c` from where the iterator stands (which may be
inside a codepoint), leaves the rest of the memory alone and the iterator on the last octet written. It is undefined
exactly if `c` is 0, the octets do not fit, or `*it` is undefined before (the old contents are read first). -/
theorem C72_write (m : List UInt8) (p : Nat) (v : BitVec 32) :
    (∀ m' q, assign m p v = .ok (m', q) ↔
      (∃ s l, Of m s p ∧ m[s]? = some l ∧ l ≠ 0xFF ∧ s + claimed l ≤ m.length) ∧ v.toInt ≠ 0 ∧
      p + width v.toInt ≤ m.length ∧ q + 1 = p + width v.toInt ∧
      m' = m.take p ++ octetsOf v.toInt ++ m.drop (p + width v.toInt)) ∧
    (assign m p v = .ub ↔ ¬ ((∃ s l, Of m s p ∧ m[s]? = some l ∧ l ≠ 0xFF ∧ s + claimed l ≤ m.length) ∧
      v.toInt ≠ 0 ∧ p + width v.toInt ≤ m.length)) := by
  have hlen : (written v).length = width v.toInt := by rw [written_length, width_szOf]
  have hz : v.toInt ≠ 0 ↔ v ≠ 0#32 := by
    rw [ne_eq, ne_eq, ← BitVec.toInt_inj]; rfl
  have hsp : splice m p (written v) = m.take p ++ octetsOf v.toInt ++ m.drop (p + width v.toInt) := by
    rw [splice, hlen, written_octetsOf]
  by_cases hread : ∃ s l, Of m s p ∧ m[s]? = some l ∧ l ≠ 0xFF ∧ s + claimed l ≤ m.length
  · have hcur : ∃ x, cur m p = .ok x := by
      obtain ⟨s, l, h1, h2, h3, h4⟩ := hread
      exact ⟨_, cur_of h1 h2 h3 h4⟩
    obtain ⟨x, hx⟩ := hcur
    have ha : assign m p v = putCodepoint m p v := by rw [assign, hx, Res.bind_ok]
    by_cases hv : v = 0#32
    · have : putCodepoint m p v = .ub := by subst hv; simp [putCodepoint, encodedSize, builtinClz]
      rw [ha, this]
      refine ⟨fun m' q => ⟨nofun, fun h => absurd hv (hz.mp h.2.1)⟩, ⟨fun _ h => hz.mp h.2.1 hv, fun _ => rfl⟩⟩
    · by_cases hfit : p + width v.toInt ≤ m.length
      · rw [ha, putCodepoint_eq m p v hv (by omega), hsp, hlen]
        have hw : 0 < width v.toInt := by rw [width_szOf]; omega
        refine ⟨fun m' q => ?_, ⟨nofun, fun h => absurd ⟨hread, hz.mpr hv, hfit⟩ h⟩⟩
        constructor
        · intro h
          simp only [Res.ok.injEq, Prod.mk.injEq] at h
          exact ⟨hread, hz.mpr hv, hfit, by omega, h.1.symm⟩
        · rintro ⟨_, _, _, h1, h2⟩
          rw [h2, show p + width v.toInt - 1 = q by omega]
      · rw [ha, putCodepoint_ub m p v (by omega)]
        exact ⟨fun m' q => ⟨nofun, fun h => absurd h.2.2.1 hfit⟩, ⟨fun _ h => hfit h.2.2, fun _ => rfl⟩⟩
  · have : assign m p v = .ub := by
      rw [assign, (C72_read m p).2.mpr hread]; rfl
    rw [this]
    exact ⟨fun m' q => ⟨nofun, fun h => absurd h.1 hread⟩, ⟨fun _ h => hread h.1, fun _ => rfl⟩⟩

/-- Writing U+00E9 over "A!" and a negative `int` into six octets; 0 and U+20AC do not fit in two. -/
example : assign [0x41, 0x21] 0 0xE9#32 = .ok ([0xC3, 0xA9], 1) ∧ octetsOf 0xE9 = [0xC3, 0xA9] ∧
    assign (List.replicate 6 0x41) 0 (-1) = .ok ([0xFF, 0xBF, 0xBF, 0xBF, 0xBF, 0xBF], 5) ∧
    octetsOf (-1) = [0xFF, 0xBF, 0xBF, 0xBF, 0xBF, 0xBF] ∧
    assign [0x41, 0x21] 0 0#32 = .ub ∧ assign [0x41, 0x21] 0 0x20AC#32 = .ub := by decide +kernel

/-- Appending one `int`. -/
theorem encodeOne_any (v : BitVec 32) : encodeOne v =
    if v = 0#32 ∨ v.toInt < 0 ∨ OverReads v.toNat then .ub else .ok (appendedFor v.toInt) := by
  have hneg : v.toInt < 0 ↔ 2 ^ 31 ≤ v.toNat := by
    rw [BitVec.toInt_eq_toNat_cond]; have := v.isLt; split <;> omega
  by_cases h0 : v = 0#32
  · rw [if_pos (.inl h0), h0, encodeOne_zero]
  · rw [encodeOne_eq v h0]
    have ho := headOctet_overread v
    by_cases hc : cpSize (headOctet v) ≤ 6
    · rw [if_pos hc, if_neg (by rw [hneg]; rintro (h | h); exact h0 h; exact (ho.mpr h) hc)]
      obtain ⟨cs, h1, _⟩ := written_cons v
      have h1' := h1
      rw [written_octetsOf] at h1'
      rw [appendedFor, ← written_octetsOf, h1]
      simp only [List.headD_cons]
      rw [← h1, cpSize_claimed _ (headOctet_not_cont v), written_length, width_szOf]
    · rw [if_neg hc, if_pos (by rw [hneg]; exact .inr (ho.mp hc))]

/-- C72, appending codepoints to a UTF-8 string, for any `int`s: their octets (`appendedFor`) are appended one after the
other; undefined exactly if one of them is 0, negative, or in `OverReads` (C11). -/
theorem C72_append (out : List UInt8) (vs : List (BitVec 32)) :
    (∀ r, appendFromUtf32 out vs = .ok r ↔
      (∀ v ∈ vs, v.toInt ≠ 0 ∧ 0 ≤ v.toInt ∧ ¬ OverReads v.toNat) ∧ r = out ++ vs.flatMap fun v => appendedFor v.toInt) ∧
    (appendFromUtf32 out vs = .ub ↔ ∃ v ∈ vs, v.toInt = 0 ∨ v.toInt < 0 ∨ OverReads v.toNat) := by
  have hz : ∀ v : BitVec 32, v.toInt = 0 ↔ v = 0#32 := by
    intro v; rw [← BitVec.toInt_inj]; rfl
  induction vs generalizing out with
  | nil => simp [appendFromUtf32, eq_comm]
  | cons v vs ih =>
    rw [appendFromUtf32, encodeOne_any]
    by_cases hb : v = 0#32 ∨ v.toInt < 0 ∨ OverReads v.toNat
    · rw [if_pos hb]
      rw [← hz v] at hb
      refine ⟨fun r => ⟨nofun, fun h => ?_⟩, ⟨fun _ => ⟨v, by simp, hb⟩, fun _ => rfl⟩⟩
      obtain ⟨h1, h2, h3⟩ := h.1 v (by simp)
      rcases hb with h | h | h
      · exact absurd h h1
      · omega
      · exact absurd h h3
    · rw [if_neg hb, Res.bind_ok]
      rw [← hz v] at hb
      simp only [not_or] at hb
      obtain ⟨i1, i2⟩ := ih (out ++ appendedFor v.toInt)
      refine ⟨fun r => ?_, ?_⟩
      · rw [i1 r]
        simp only [List.mem_cons, forall_eq_or_imp, List.flatMap_cons, List.append_assoc]
        constructor
        · rintro ⟨h, hr⟩; exact ⟨⟨⟨hb.1, by omega, hb.2.2⟩, h⟩, hr⟩
        · rintro ⟨⟨_, h⟩, hr⟩; exact ⟨h, hr⟩
      · rw [i2]
        simp only [List.mem_cons, exists_eq_or_imp]
        constructor
        · intro h; exact .inr h
        · rintro (h | h)
          · rcases h with h | h | h
            · exact absurd h hb.1
            · exact absurd h hb.2.1
            · exact absurd h hb.2.2
          · exact h

/-- "é", then U+0915, which gets two octets of which the first claims three, so that a NUL is appended with them. -/
example : appendFromUtf32 [0x41] [0xE9#32, 0x915#32] = .ok [0x41, 0xC3, 0xA9, 0xE4, 0x95, 0x00] ∧
    appendedFor 0xE9 = [0xC3, 0xA9] ∧ appendedFor 0x915 = [0xE4, 0x95, 0x00] := by decide +kernel

/-- C72, `append(first, last)` to a UTF-8 string, from two iterators anywhere in memory holding anything: the octets from
the beginning of the codepoint `first` is inside of to before the beginning of the one `last` is inside of are appended as
they are; undefined exactly if there is no such beginning or they are in the wrong order. -/
theorem C72_append_range (out m : List UInt8) (first last : Nat) :
    (∀ r, appendRange out m first last = .ok r ↔
      ∃ b e, Of m b first ∧ Of m e last ∧ b ≤ e ∧ r = out ++ (m.take e).drop b) ∧
    (appendRange out m first last = .ub ↔ ¬ ∃ b e, Of m b first ∧ Of m e last ∧ b ≤ e) := by
  have key : ∀ r, appendRange out m first last = .ok r ↔
      ∃ b e, Of m b first ∧ Of m e last ∧ b ≤ e ∧ r = out ++ (m.take e).drop b := by
    intro r
    simp only [appendRange, nativeConstIterator, Res.bind_eq_ok, rewind_exact, nativeAppend]
    constructor
    · rintro ⟨b, hb, e, he, h⟩
      split at h
      · cases h
        exact ⟨b, e, hb, he, by omega, rfl⟩
      · cases h
    · rintro ⟨b, e, hb, he, hle, rfl⟩
      refine ⟨b, hb, e, he, ?_⟩
      obtain ⟨l, hl, -⟩ := he.1
      have : e < m.length := (List.getElem?_eq_some_iff.mp hl).1
      rw [if_pos ⟨hle, by omega⟩]
  have hno : appendRange out m first last ≠ .tmo := by
    simp only [appendRange, nativeConstIterator, nativeAppend]
    cases h1 : rewind m first with
    | tmo => exact absurd h1 (rewind_no_tmo _ _)
    | ub => simp
    | ok b =>
      cases h2 : rewind m last with
      | tmo => exact absurd h2 (rewind_no_tmo _ _)
      | ub => simp
      | ok e => simp only [Res.bind_ok]; split <;> simp
  refine ⟨key, ?_⟩
  rw [ub_iff hno key]
  constructor
  · rintro h ⟨b, e, h1, h2, h3⟩; exact h _ ⟨b, e, h1, h2, h3, rfl⟩
  · rintro h r ⟨b, e, h1, h2, h3, -⟩; exact h ⟨b, e, h1, h2, h3⟩

/-- Both iterators inside of a codepoint; and at a continuation octet with nothing before it. -/
example : appendRange [0x41] [0xC3, 0xA9, 0xE2, 0x82, 0xAC, 0] 1 4 = .ok [0x41, 0xC3, 0xA9] ∧
    appendRange [0x41] [0xA9, 0x41, 0] 0 1 = .ub ∧ appendRange [0x41] [0x41, 0x42, 0] 1 0 = .ub := by decide +kernel

/-- C72, `append(first, last)` to a UTF-32 string: the elements between the two; undefined exactly if they are in the wrong
order or after the end. -/
theorem C72_append_range_utf32 (out m : List Int) (first last : Nat) :
    (∀ r, appendRange32 out m first last = .ok r ↔ first ≤ last ∧ last ≤ m.length ∧ r = out ++ (m.drop first).take (last - first)) ∧
    (appendRange32 out m first last = .ub ↔ last < first ∨ m.length < last) := by
  rw [appendRange32]
  by_cases h : first ≤ last ∧ last ≤ m.length
  · rw [if_pos h]
    refine ⟨fun r => ⟨fun hr => ?_, fun hr => ?_⟩, ⟨nofun, fun hr => by omega⟩⟩
    · cases hr; exact ⟨h.1, h.2, by rw [List.drop_take]⟩
    · rw [hr.2.2, List.drop_take]
  · rw [if_neg h]
    exact ⟨fun r => ⟨nofun, fun hr => absurd ⟨hr.1, hr.2.1⟩ h⟩, ⟨fun _ => by omega, fun _ => rfl⟩⟩

/-- Some; the wrong order. -/
example : appendRange32 [7] [1, 2, 3, 0] 1 3 = .ok [7, 2, 3] ∧ appendRange32 [7] [1, 2, 3, 0] 3 1 = .ub := by decide

end U5e
