import Verif.Model.Utf8Bounds
import Verif.Spec.Bounds
import Verif.Proofs.Safety
/-! Lemmas about utf8_bounds. -/
namespace U5e
open Spec

theorem bad_iff (o : Octet) (w : Nat) :
    (isStart o && decide (cpSize o > w)) = decide (Overflows o w) := by
  have k : ∀ o : Octet, 0xC0 ≤ o.toNat → cpSize o = leadingOnes o := by
    apply forall_octet; decide +kernel
  by_cases h : 0xC0 ≤ o.toNat
  · simp [Overflows, (isStart_iff o).mpr h, h, k o h]
  · have : isStart o = false := by
      rw [← Bool.not_eq_true, isStart_iff]; exact h
    simp [Overflows, this, h]

theorem isCont_false {o : Octet} (h : ¬ IsContinuation o) : isCont o = false := by
  rw [← Bool.not_eq_true]; exact fun hh => h ((isCont_iff o).mp hh)

theorem checkLoop_eq (m : Mem) (b n e : Nat) (hn : n ≤ 6) (hbe : b ≤ e) (he : e < m.length) :
    ∃ r, checkLoop m b n e = .ok r ∧
      (r = true ↔ ∀ i o, b < i → i ≤ e → e - i < n → m[i]? = some o →
        ¬ Overflows o (6 - n + (e - i))) := by
  induction n generalizing e with
  | zero => exact ⟨true, rfl, by simp⟩
  | succ n ih =>
    unfold checkLoop
    split
    · next h => subst h; exact ⟨true, rfl, by simp; intros; omega⟩
    · next h =>
      have hr : rd m e = .ok m[e] := rd_some (List.getElem?_eq_getElem he)
      simp only [hr, Res.bind_ok, bad_iff]
      split
      · next hb =>
        refine ⟨false, rfl, ?_⟩
        simp only [Bool.false_eq_true, false_iff]
        intro hall
        exact hall e m[e] (by omega) (Nat.le_refl _) (by omega) (List.getElem?_eq_getElem he)
          (by simpa using hb)
      · next hb =>
        obtain ⟨e', rfl⟩ : ∃ e', e = e' + 1 := ⟨e - 1, by omega⟩
        simp only [retreat, Res.bind_ok]
        obtain ⟨r, h1, h2⟩ := ih e' (by omega) (by omega) (by omega)
        refine ⟨r, h1, h2.trans ?_⟩
        constructor
        · intro hall i o hi1 hi2 hi3 ho
          by_cases hie : i = e' + 1
          · subst hie
            rw [List.getElem?_eq_getElem he] at ho
            obtain rfl := Option.some.inj ho
            simpa using hb
          · have := hall i o hi1 (by omega) (by omega) ho
            rwa [show 6 - n + (e' - i) = 6 - (n + 1) + (e' + 1 - i) by omega] at this
        · intro hall i o hi1 hi2 hi3 ho
          have := hall i o hi1 (by omega) (by omega) ho
          rwa [show 6 - (n + 1) + (e' + 1 - i) = 6 - n + (e' - i) by omega] at this

theorem enforceTail_eq (n : Nat) (m : Mem) (b e : Nat) (ret : Bool) (hn : n ≤ 6) (hbe : b ≤ e)
    (he : e < m.length) :
    ∃ m' r, enforceTail n m b e ret = .ok (m', r) ∧ m'.length = m.length ∧
      (∀ i, m'[i]? = (m[i]?).map fun o =>
        if b < i ∧ i ≤ e ∧ e - i < n ∧ Overflows o (6 - n + (e - i)) then 0x3F else o) ∧
      (r = true ↔ ret = true ∧ ∀ i o, b < i → i ≤ e → e - i < n → m[i]? = some o →
        ¬ Overflows o (6 - n + (e - i))) := by
  induction n generalizing m e ret with
  | zero =>
    refine ⟨m, ret, rfl, rfl, ?_, by simp⟩
    intro i; simp
  | succ n ih =>
    unfold enforceTail
    split
    · next h =>
      subst h
      refine ⟨m, ret, rfl, rfl, ?_, ?_⟩
      · intro i
        have : ∀ o : UInt8, ¬ (e < i ∧ i ≤ e ∧ e - i < n + 1 ∧ Overflows o (6 - (n + 1) + (e - i))) := by
          intro o h; omega
        simp only [this, if_false, Option.map_id']
      · constructor
        · intro h; exact ⟨h, by intros; omega⟩
        · intro h; exact h.1
    · next h =>
      have hg := List.getElem?_eq_getElem he
      have hr : rd m e = .ok m[e] := rd_some hg
      simp only [hr, Res.bind_ok, bad_iff]
      obtain ⟨e', rfl⟩ : ∃ e', e = e' + 1 := ⟨e - 1, by omega⟩
      split
      · next hb =>
        have hb' : Overflows m[e' + 1] (6 - (n + 1)) := by simpa using hb
        simp only [wr, he, if_true, Res.bind_ok, retreat]
        obtain ⟨m', r, h1, h2, h3, h4⟩ := ih (m.set (e' + 1) 0x3F) e' false (by omega) (by omega)
          (by simp; omega)
        refine ⟨m', r, h1, by simpa using h2, ?_, ?_⟩
        · intro i
          rw [h3 i]
          by_cases hi : i = e' + 1
          · subst hi
            rw [List.getElem?_set_self he, hg]
            have hng : ¬ (b < e' + 1 ∧ e' + 1 ≤ e' ∧ e' - (e' + 1) < n ∧
              Overflows (0x3F : UInt8) (6 - n + (e' - (e' + 1)))) := by intro h; omega
            have hpos : b < e' + 1 ∧ e' + 1 ≤ e' + 1 ∧ e' + 1 - (e' + 1) < n + 1 ∧
                Overflows m[e' + 1] (6 - (n + 1) + (e' + 1 - (e' + 1))) :=
              ⟨by omega, by omega, by omega, by simpa using hb'⟩
            simp only [Option.map_some, hng, if_false]
            rw [if_pos hpos]
          · rw [List.getElem?_set_ne (Ne.symm hi)]
            congr 1; funext o
            have e1 : (i ≤ e' ↔ i ≤ e' + 1) := by omega
            by_cases hle : i ≤ e'
            · have e2 : 6 - n + (e' - i) = 6 - (n + 1) + (e' + 1 - i) := by omega
              have e3 : (e' - i < n ↔ e' + 1 - i < n + 1) := by omega
              simp only [e1, e2, e3]
            · rw [if_neg (by intro h; omega), if_neg (by intro h; omega)]
        · simp only [Bool.false_eq_true, false_and, iff_false] at h4
          rw [Bool.not_eq_true] at h4; subst h4
          simp only [Bool.false_eq_true, false_iff, not_and, Classical.not_forall]
          intro _
          exact ⟨e' + 1, m[e' + 1], by omega, Nat.le_refl _, by omega, hg, fun hn => hn (by simpa using hb')⟩
      · next hb =>
        have hb' : ¬ Overflows m[e' + 1] (6 - (n + 1)) := by simpa using hb
        simp only [retreat, Res.bind_ok]
        obtain ⟨m', r, h1, h2, h3, h4⟩ := ih m e' ret (by omega) (by omega) (by omega)
        refine ⟨m', r, h1, h2, ?_, ?_⟩
        · intro i
          rw [h3 i]
          by_cases hi : i = e' + 1
          · subst hi
            rw [hg]
            simp only [Option.map_some]
            rw [if_neg (by intro h; omega), if_neg (by rintro ⟨_, _, _, h⟩; exact hb' (by simpa using h))]
          · congr 1; funext o
            have e1 : (i ≤ e' ↔ i ≤ e' + 1) := by omega
            by_cases hle : i ≤ e'
            · have e2 : 6 - n + (e' - i) = 6 - (n + 1) + (e' + 1 - i) := by omega
              have e3 : (e' - i < n ↔ e' + 1 - i < n + 1) := by omega
              simp only [e1, e2, e3]
            · rw [if_neg (by intro h; omega), if_neg (by intro h; omega)]
        · rw [h4]
          apply and_congr_right; intro _
          constructor
          · intro hall i o hi1 hi2 hi3 ho
            by_cases hie : i = e' + 1
            · subst hie
              rw [hg] at ho
              obtain rfl := Option.some.inj ho
              simpa using hb'
            · have := hall i o hi1 (by omega) (by omega) ho
              rwa [show 6 - n + (e' - i) = 6 - (n + 1) + (e' + 1 - i) by omega] at this
          · intro hall i o hi1 hi2 hi3 ho
            have := hall i o hi1 (by omega) (by omega) ho
            rwa [show 6 - (n + 1) + (e' + 1 - i) = 6 - n + (e' - i) by omega] at this

/-- The first loop of enforce on `pre ++ t ++ z :: post` with `z` not a continuation. -/
theorem enforceLead_eq (t : List Octet) (z : Octet) (hz : ¬ IsContinuation z) (pre post : List Octet)
    (fuel : Nat) (hf : t.length < fuel) (ret : Bool) :
    enforceLead fuel (pre ++ t ++ z :: post) pre.length ret =
      .ok (pre ++ (List.replicate (leadRun t) 0x3F ++ t.drop (leadRun t)) ++ z :: post,
        pre.length + leadRun t, ret && decide (leadRun t = 0)) := by
  induction t generalizing pre fuel ret with
  | nil =>
    cases fuel with
    | zero => omega
    | succ n =>
      have : rd (pre ++ z :: post) pre.length = .ok z := rd_some (by
        rw [List.getElem?_append_right (by omega)]; simp)
      simp [enforceLead, this, isCont_false hz, leadRun]
  | cons o os ih =>
    cases fuel with
    | zero => omega
    | succ n =>
      have hr : rd (pre ++ o :: os ++ z :: post) pre.length = .ok o := rd_some (by
        rw [List.append_assoc, List.getElem?_append_right (by omega)]; simp)
      simp only [enforceLead, hr, Res.bind_ok]
      by_cases hc : IsContinuation o
      · simp only [(isCont_iff o).mpr hc, if_true, wr,
          show pre.length < (pre ++ o :: os ++ z :: post).length by simp, Res.bind_ok, adv,
          List.length_set]
        rw [if_pos (by simp)]
        have hset : (pre ++ o :: os ++ z :: post).set pre.length 0x3F =
            (pre ++ [0x3F]) ++ os ++ z :: post := by
          rw [List.append_assoc, List.set_append_right _ _ (by omega)]; simp
        rw [hset]
        have := ih (pre ++ [0x3F]) n (by simp at hf; omega) false
        rw [List.length_append] at this
        simp only [List.length_cons, List.length_nil, Nat.zero_add] at this
        rw [Res.bind_ok, this]
        simp [leadRun, hc, List.replicate_succ, List.append_assoc]
        omega
      · simp [isCont_false hc, leadRun, hc]


theorem leadRun_le (t : List Octet) : leadRun t ≤ t.length := by
  induction t with
  | nil => simp [leadRun]
  | cons o os ih => unfold leadRun; split <;> simp <;> omega

theorem leadRun_cont (t : List Octet) (i : Nat) (o : Octet) (hi : i < leadRun t) (ho : t[i]? = some o) :
    IsContinuation o := by
  induction t generalizing i with
  | nil => simp at ho
  | cons x xs ih =>
    unfold leadRun at hi
    split at hi
    · next hx =>
      cases i with
      | zero => simp at ho; subst ho; exact hx
      | succ i => exact ih i (by omega) (by simpa using ho)
    · omega

theorem leadRun_stop (t : List Octet) (o : Octet) (ho : t[leadRun t]? = some o) : ¬ IsContinuation o := by
  induction t with
  | nil => simp at ho
  | cons x xs ih =>
    unfold leadRun at ho
    split at ho
    · exact ih (by simpa using ho)
    · next hx => simp at ho; subst ho; exact hx

theorem not_cont_qm : ¬ IsContinuation 0x3F := by decide
theorem overflows_qm (r : Nat) : ¬ Overflows 0x3F r := by
  intro h; have := h.1; revert this; decide

theorem enforced_getElem? (t : List Octet) (i : Nat) : (enforced t)[i]? = (t[i]?).map fun o =>
    if i < leadRun t then 0x3F
    else if leadRun t < i ∧ t.length < i + 6 ∧ Overflows o (t.length - i) then 0x3F else o := by
  simp [enforced, List.getElem?_mapIdx]

theorem enforced_length (t : List Octet) : (enforced t).length = t.length := by simp [enforced]

/-- `enforced t = t` exactly when nothing is to be repaired. -/
theorem enforced_eq_self (t : List Octet) : enforced t = t ↔
    leadRun t = 0 ∧ ∀ i o, leadRun t < i → t.length < i + 6 → t[i]? = some o →
      ¬ Overflows o (t.length - i) := by
  constructor
  · intro h
    have h0 : leadRun t = 0 := by
      rcases Nat.eq_zero_or_pos (leadRun t) with h0 | h0
      · exact h0
      · exfalso
        have hlt : 0 < t.length := by have := leadRun_le t; omega
        have hg : t[0]? = some t[0] := List.getElem?_eq_getElem hlt
        have he := enforced_getElem? t 0
        rw [h, hg] at he
        simp only [Option.map_some, h0, if_true, Option.some.injEq] at he
        exact not_cont_qm (he ▸ leadRun_cont t 0 _ h0 hg)
    refine ⟨h0, ?_⟩
    intro i o hi1 hi2 ho hbad
    have he := enforced_getElem? t i
    rw [h, ho] at he
    rw [Option.map_some, if_neg (by omega), if_pos ⟨hi1, hi2, hbad⟩] at he
    obtain rfl := Option.some.inj he
    exact overflows_qm _ hbad
  · rintro ⟨h0, hall⟩
    apply List.ext_getElem?
    intro i
    rw [enforced_getElem?]
    cases ho : t[i]? with
    | none => rfl
    | some o =>
      rw [Option.map_some, if_neg (by omega), if_neg]
      rintro ⟨h1, h2, h3⟩
      exact hall i o h1 h2 ho h3

theorem boundsEnforce_eq (t : List Octet) (z : Octet) (hz : z.toNat < 0x80) (pre post : List Octet) :
    boundsEnforce (pre ++ t ++ z :: post) pre.length (pre.length + t.length) =
      .ok (pre ++ enforced t ++ z :: post, decide (enforced t = t)) := by
  have hzc : ¬ IsContinuation z := by simp only [IsContinuation]; omega
  have hzo : ∀ r, ¬ Overflows z r := by intro r h; have := h.1; omega
  have hlr := leadRun_le t
  have h1 := enforceLead_eq t z hzc pre post ((pre ++ t ++ z :: post).length + 1) (by simp; omega) true
  have hlen : (List.replicate (leadRun t) (0x3F : Octet) ++ t.drop (leadRun t)).length = t.length := by
    simp; omega
  generalize hM : pre ++ (List.replicate (leadRun t) (0x3F : Octet) ++ t.drop (leadRun t)) ++ z :: post
    = M at h1
  have hMl : M.length = pre.length + t.length + 1 + post.length := by
    rw [← hM, List.length_append, List.length_append, hlen]; simp; omega
  obtain ⟨m', r, h2, h3, h4, h5⟩ := enforceTail_eq 6 M (pre.length + leadRun t) (pre.length + t.length)
    (true && decide (leadRun t = 0)) (Nat.le_refl _) (by omega) (by omega)
  -- octets of M
  have hMpre : ∀ i, i < pre.length → M[i]? = pre[i]? := by
    intro i hi
    rw [← hM, List.append_assoc, List.getElem?_append_left hi]
  have hMt : ∀ i, i < t.length → M[pre.length + i]? =
      if i < leadRun t then some 0x3F else t[i]? := by
    intro i hi
    rw [← hM, List.append_assoc, List.getElem?_append_right (by omega),
      List.getElem?_append_left (by rw [hlen]; omega), show pre.length + i - pre.length = i by omega]
    split
    · next h => rw [List.getElem?_append_left (by simpa using h)]; simp [h]
    · next h =>
      rw [List.getElem?_append_right (by simp; omega)]
      simp only [List.length_replicate, List.getElem?_drop]
      congr 1; omega
  have hMpost : ∀ i, M[pre.length + t.length + i]? = (z :: post)[i]? := by
    intro i
    rw [← hM, List.getElem?_append_right (by simp; omega)]
    congr 1; simp; omega
  have hm' : m' = pre ++ enforced t ++ z :: post := by
    apply List.ext_getElem?
    intro i
    rw [h4 i]
    rcases Nat.lt_or_ge i pre.length with hi | hi
    · rw [hMpre i hi, List.append_assoc, List.getElem?_append_left hi]
      have : ∀ o : UInt8, ¬ (pre.length + leadRun t < i ∧ i ≤ pre.length + t.length ∧
        pre.length + t.length - i < 6 ∧ Overflows o (6 - 6 + (pre.length + t.length - i))) := by
        intro o h; omega
      simp only [this, if_false, Option.map_id']
    · obtain ⟨j, rfl⟩ : ∃ j, i = pre.length + j := ⟨i - pre.length, by omega⟩
      rcases Nat.lt_or_ge j t.length with hj | hj
      · rw [hMt j hj, List.append_assoc, List.getElem?_append_right (by omega),
          List.getElem?_append_left (by rw [enforced_length]; omega),
          show pre.length + j - pre.length = j by omega, enforced_getElem?]
        have hg : t[j]? = some t[j] := List.getElem?_eq_getElem hj
        rw [hg]
        by_cases hjr : j < leadRun t
        · simp only [hjr, if_true, Option.map_some]
          rw [if_neg (by intro h; omega)]
        · simp only [hjr, if_false, Option.map_some]
          have e1 : 6 - 6 + (pre.length + t.length - (pre.length + j)) = t.length - j := by omega
          rw [e1]
          by_cases hc : leadRun t < j ∧ t.length < j + 6 ∧ Overflows t[j] (t.length - j)
          · rw [if_pos hc, if_pos ⟨by omega, by omega, by omega, hc.2.2⟩]
          · rw [if_neg hc, if_neg]
            rintro ⟨a, b, c, d⟩
            exact hc ⟨by omega, by omega, d⟩
      · obtain ⟨k, rfl⟩ : ∃ k, j = t.length + k := ⟨j - t.length, by omega⟩
        rw [← Nat.add_assoc, hMpost k, List.getElem?_append_right (by simp [enforced_length]),
          show pre.length + t.length + k - (pre ++ enforced t).length = k by
            simp [enforced_length]]
        cases k with
        | zero =>
          simp only [List.getElem?_cons_zero, Option.map_some]
          rw [if_neg]; rintro ⟨_, _, _, d⟩; exact hzo _ d
        | succ k =>
          have : ∀ o : UInt8, ¬ (pre.length + leadRun t < pre.length + t.length + (k + 1) ∧
            pre.length + t.length + (k + 1) ≤ pre.length + t.length ∧
            pre.length + t.length - (pre.length + t.length + (k + 1)) < 6 ∧
            Overflows o (6 - 6 + (pre.length + t.length - (pre.length + t.length + (k + 1))))) := by
            intro o h; omega
          simp only [this, if_false, Option.map_id']
  have hr : r = decide (enforced t = t) := by
    apply Bool.eq_iff_iff.mpr
    rw [h5, decide_eq_true_eq, enforced_eq_self]
    simp only [Bool.true_and, decide_eq_true_eq]
    apply and_congr_right; intro h0
    constructor
    · intro hall i o hi1 hi2 ho hbad
      have hlt := (List.getElem?_eq_some_iff.mp ho).1
      refine hall (pre.length + i) o (by omega) (by omega) (by omega) ?_ ?_
      · rw [hMt i hlt, if_neg (by omega), ho]
      · rwa [show 6 - 6 + (pre.length + t.length - (pre.length + i)) = t.length - i by omega]
    · intro hall i o hi1 hi2 hi3 ho hbad
      obtain ⟨j, rfl⟩ : ∃ j, i = pre.length + j := ⟨i - pre.length, by omega⟩
      rcases Nat.lt_or_ge j t.length with hj | hj
      · rw [hMt j hj, if_neg (by omega)] at ho
        refine hall j o (by omega) (by omega) ho ?_
        rwa [show 6 - 6 + (pre.length + t.length - (pre.length + j)) = t.length - j by omega] at hbad
      · obtain rfl : j = t.length := by omega
        have := hMpost 0
        rw [Nat.add_zero, ho] at this
        obtain rfl := Option.some.inj this
        exact hzo _ hbad
  rw [boundsEnforce, h1, Res.bind_ok]
  simp only [h2, hm', hr]

theorem boundsCheck_eq (m : Mem) (b e : Nat) (hbe : b ≤ e) (he : e < m.length) :
    ∃ r, boundsCheck m b e = .ok r ∧
      (r = true ↔ (∃ o, m[b]? = some o ∧ ¬ IsContinuation o) ∧
        ∀ i o, b < i → i ≤ e → e < i + 6 → m[i]? = some o → ¬ Overflows o (e - i)) := by
  have hg : m[b]? = some m[b] := List.getElem?_eq_getElem (by omega)
  simp only [boundsCheck, rd_some hg, Res.bind_ok]
  by_cases hc : IsContinuation m[b]
  · refine ⟨false, by simp [(isCont_iff _).mpr hc], ?_⟩
    simp only [Bool.false_eq_true, false_iff]
    rintro ⟨⟨o, h1, h2⟩, _⟩
    rw [hg] at h1
    obtain rfl := Option.some.inj h1
    exact h2 hc
  · obtain ⟨r, h1, h2⟩ := checkLoop_eq m b 6 e (Nat.le_refl _) hbe he
    refine ⟨r, by simp [isCont_false hc, h1], h2.trans ?_⟩
    constructor
    · intro hall
      refine ⟨⟨_, hg, hc⟩, ?_⟩
      intro i o a b' c d
      have := hall i o a b' (by omega) d
      rwa [show 6 - 6 + (e - i) = e - i by omega] at this
    · rintro ⟨_, hall⟩ i o a b' c d
      rw [show 6 - 6 + (e - i) = e - i by omega]
      exact hall i o a b' (by omega) d

end U5e
