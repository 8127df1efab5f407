import Verif.Proofs.Walk
/-! Iteration over arbitrary octets. -/
namespace U5e
open Spec

theorem rewind_exists {m : Mem} {b p : Nat} {o : Octet} (hb : m[b]? = some o)
    (ho : ¬ IsContinuation o) (hbp : b ≤ p) (hp : p < m.length) :
    ∃ s l, rewind m p = .ok s ∧ b ≤ s ∧ s ≤ p ∧ m[s]? = some l ∧ ¬ IsContinuation l ∧
      ∀ k, s < k → k ≤ p → ∃ c, m[k]? = some c ∧ IsContinuation c := by
  induction p with
  | zero =>
    obtain rfl : b = 0 := by omega
    exact ⟨0, o, rewind_stop hb ho, by omega, by omega, hb, ho, by intros; omega⟩
  | succ p ih =>
    by_cases hc : IsContinuation m[p + 1]
    · have hbp' : b ≤ p := by
        rcases Nat.lt_or_ge p b with h | h
        · obtain rfl : b = p + 1 := by omega
          rw [List.getElem?_eq_getElem hp] at hb
          exact absurd hc (by rw [Option.some.inj hb]; exact ho)
        · exact h
      have hg : m[p + 1]? = some m[p + 1] := List.getElem?_eq_getElem hp
      obtain ⟨s, l, h1, h2, h3, h4, h5, h6⟩ := ih hbp' (by omega)
      refine ⟨s, l, by rw [rewind_cont hg hc]; exact h1, h2, by omega, h4, h5, ?_⟩
      intro k hk1 hk2
      rcases Nat.lt_or_ge p k with h | h
      · obtain rfl : k = p + 1 := by omega
        exact ⟨_, hg, hc⟩
      · exact h6 k hk1 h
    · have hg : m[p + 1]? = some m[p + 1] := List.getElem?_eq_getElem hp
      exact ⟨p + 1, _, rewind_stop hg hc, hbp, Nat.le_refl _, hg, hc, by intros; omega⟩

/-- `rewind` when there is a non-continuation octet at `s` and only continuation octets up to `p`. -/
theorem rewind_to {m : Mem} {s p : Nat} {l : Octet} (hs : m[s]? = some l) (hl : ¬ IsContinuation l)
    (hsp : s ≤ p) (hc : ∀ k, s < k → k ≤ p → ∃ c, m[k]? = some c ∧ IsContinuation c) :
    rewind m p = .ok s := by
  induction p with
  | zero => obtain rfl : s = 0 := by omega
            exact rewind_stop hs hl
  | succ p ih =>
    rcases Nat.lt_or_ge p s with h | h
    · obtain rfl : s = p + 1 := by omega
      exact rewind_stop hs hl
    · obtain ⟨c, h1, h2⟩ := hc (p + 1) (by omega) (Nat.le_refl _)
      rw [rewind_cont h1 h2]
      exact ih h (fun k hk1 hk2 => hc k hk1 (by omega))

theorem decLoop_ok (m : Mem) (n q : Nat) (v : BitVec 32) (h : q + n < m.length) :
    ∃ w, decLoop m n q v = .ok w := by
  induction n generalizing q v with
  | zero => exact ⟨v, rfl⟩
  | succ n ih =>
    have hr : rd m (q + 1) = .ok m[q + 1] := rd_some (List.getElem?_eq_getElem (by omega))
    simp only [decLoop, adv, show q + 1 ≤ m.length by omega, if_true, Res.bind_ok, hr]
    exact ih (q + 1) _ (by omega)

/-- Decoding is safe wherever the announced octets are inside the buffer and the lead is not 0xFF. -/
theorem cur_ok {m : Mem} {p s : Nat} {l : Octet} (hr : rewind m p = .ok s) (hs : m[s]? = some l)
    (hp : p < m.length) (hl : l ≠ 0xFF) (hsz : s + cpSize l ≤ m.length) :
    ∃ c q, cur m p = .ok (c, q) ∧ (q = s ∨ q = p) := by
  have hrp : rd m p = .ok m[p] := rd_some (List.getElem?_eq_getElem hp)
  have hrs : rd m s = .ok l := rd_some hs
  have h7 : ∀ l : Octet, l ≠ 0xFF → cpSize l ≤ 7 := by apply forall_octet; decide +kernel
  simp only [cur, hrp, Res.bind_ok]
  split
  · exact ⟨_, _, rfl, .inr rfl⟩
  · simp only [hr, hrs, Res.bind_ok, maskFirst, h7 l hl, if_true]
    obtain ⟨w, hw⟩ := decLoop_ok m (cpSize l - 1) s
      (promote l &&& ((~~~ (0xFF#32 <<< (7 - cpSize l))) &&& 0xFF#32)) (by
        have := cpSize_pos l
        have := (List.getElem?_eq_some_iff.mp hs).1
        omega)
    rw [hw]
    exact ⟨_, _, rfl, .inl rfl⟩

/-- One round of the loop from `p`: either it is the end, or the loop goes on at `s + size`. -/
theorem walk_step {m : Mem} {e p s : Nat} {l : Octet} (hr : rewind m p = .ok s)
    (hs : m[s]? = some l) (hsp : s ≤ p) (hpe : p ≤ e) (he : e < m.length)
    (hl : s + cpSize l ≤ e → l ≠ 0xFF) :
    (iterEq m p e = .ok true ∧ e < s + cpSize l) ∨
    (s + cpSize l ≤ e ∧ iterEq m p e = .ok false ∧ ∃ c q, cur m p = .ok (c, q) ∧
      fwd m q = .ok (s + cpSize l)) := by
  have hrs : rd m s = .ok l := rd_some hs
  by_cases hin : e < s + cpSize l
  · left
    refine ⟨?_, hin⟩
    simp only [iterEq, hr, hrs, Res.bind_ok]
    exact eqLoop_hit m e _ s (by omega) hin (by omega)
  · right
    have hle : s + cpSize l ≤ e := by omega
    have hpos := cpSize_pos l
    refine ⟨hle, ?_, ?_⟩
    · simp only [iterEq, hr, hrs, Res.bind_ok]
      rw [eqLoop_eq m e _ s (by omega)]
      congr 1; apply decide_eq_false; omega
    · obtain ⟨c, q, h1, h2⟩ := cur_ok hr hs (by omega) (hl hle) (by omega)
      refine ⟨c, q, h1, ?_⟩
      have hq : rewind m q = .ok s := by
        rcases h2 with rfl | rfl
        · by_cases hcont : IsContinuation l
          · -- rewind never stops on a continuation octet
            exfalso
            have : ∀ p s, rewind m p = .ok s → ∀ l, m[s]? = some l → ¬ IsContinuation l := by
              intro p
              induction p with
              | zero =>
                intro s h l hl hc
                cases hm : m[0]? with
                | none => simp [rewind, rd, hm] at h
                | some x =>
                  by_cases hx : isCont x = true
                  · simp [rewind, rd, hm, hx] at h
                  · simp [rewind, rd, hm, hx] at h; subst h
                    rw [hm] at hl; obtain rfl := Option.some.inj hl
                    exact hx ((isCont_iff _).mpr hc)
              | succ p ih =>
                intro s h l hl hc
                cases hm : m[p + 1]? with
                | none => simp [rewind, rd, hm] at h
                | some x =>
                  by_cases hx : isCont x = true
                  · simp [rewind, rd, hm, hx] at h; exact ih s h l hl hc
                  · simp [rewind, rd, hm, hx] at h; subst h
                    rw [hm] at hl; obtain rfl := Option.some.inj hl
                    exact hx ((isCont_iff _).mpr hc)
            exact this p q hr l hs hcont
          · exact rewind_stop hs hcont
        · exact hr
      simp only [fwd, hq, hrs, Res.bind_ok, adv, show s + cpSize l ≤ m.length by omega, if_true]

theorem walk_safe {m : Mem} {b e : Nat} {o : Octet} (hb : m[b]? = some o) (ho : ¬ IsContinuation o)
    (he : e < m.length) (hff : ∀ k l, b ≤ k → k < e → m[k]? = some l → l ≠ 0xFF) (fuel p : Nat)
    (hbp : b ≤ p) (hpe : p ≤ e) : walk m e fuel p ≠ .ub := by
  induction fuel generalizing p with
  | zero => simp [walk]
  | succ fuel ih =>
    obtain ⟨s, l, h1, h2, h3, h4, _, _⟩ := rewind_exists hb ho hbp (by omega)
    rcases walk_step h1 h4 h3 hpe he (fun h => hff s l h2 (by have := cpSize_pos l; omega) h4) with ⟨h, _⟩ | ⟨hle, h, c, q, h5, h6⟩
    · simp [walk, h]
    · have := ih (s + cpSize l) (by omega) hle
      simp only [walk, h, h5, h6, Res.bind_ok, Bool.false_eq_true, if_false]
      cases hw : walk m e fuel (s + cpSize l) with
      | ok a => simp
      | ub => exact absurd hw this
      | tmo => simp

/-- Termination when no continuation run is long enough to bring `++` back to where it was. -/
theorem walk_terminates {m : Mem} {b e : Nat} {o : Octet} (hb : m[b]? = some o)
    (ho : ¬ IsContinuation o) (he : e < m.length)
    (hff : ∀ k l, b ≤ k → k < e → m[k]? = some l → l ≠ 0xFF)
    (hrun : ∀ s j l, b ≤ s → s < j → j ≤ e → m[s]? = some l → ¬ IsContinuation l →
      (∀ k, s < k → k ≤ j → ∃ c, m[k]? = some c ∧ IsContinuation c) → j - s < cpSize l)
    (fuel p s : Nat) (hbs : b ≤ s) (hsp : s ≤ p) (hpe : p ≤ e) (hr : rewind m p = .ok s)
    (hfuel : e - s < fuel) : ∃ cs, walk m e fuel p = .ok cs := by
  induction fuel generalizing p s with
  | zero => omega
  | succ fuel ih =>
    obtain ⟨s', l, h1, h2, h3, h4, h5, h6⟩ := rewind_exists hb ho (show b ≤ p by omega) (by omega)
    obtain rfl : s' = s := Res.ok.inj (h1.symm.trans hr)
    rcases walk_step h1 h4 h3 hpe he (fun h => hff s' l h2 (by have := cpSize_pos l; omega) h4) with ⟨h, _⟩ | ⟨hle, h, c, q, h7, h8⟩
    · exact ⟨[], by simp [walk, h]⟩
    · have hpos := cpSize_pos l
      obtain ⟨t, l', g1, g2, g3, g4, g5, g6⟩ :=
        rewind_exists h4 h5 (show s' ≤ s' + cpSize l by omega) (by omega)
      have hts : s' < t := by
        rcases Nat.lt_or_ge s' t with hlt | hge
        · exact hlt
        · obtain rfl : t = s' := by omega
          have := hrun t (t + cpSize l) l h2 (by omega) hle h4 h5 g6
          omega
      obtain ⟨cs, hcs⟩ := ih (s' + cpSize l) t (by omega) g3 hle g1 (by omega)
      exact ⟨_, by simp only [walk, h, h7, h8, Res.bind_ok, Bool.false_eq_true, if_false, hcs]; rfl⟩

/-- If `++` lands on a continuation octet whose run goes back to the same start, the loop spins. -/
theorem walk_spins {m : Mem} {e p s : Nat} {l : Octet} (hr : rewind m p = .ok s)
    (hs : m[s]? = some l) (hsp : s ≤ p) (hpe : p ≤ e) (he : e < m.length) (hl : l ≠ 0xFF)
    (hle : s + cpSize l ≤ e) (hback : rewind m (s + cpSize l) = .ok s) (fuel : Nat) :
    walk m e fuel p = .tmo := by
  induction fuel generalizing p with
  | zero => rfl
  | succ fuel ih =>
    rcases walk_step hr hs hsp hpe he (fun _ => hl) with ⟨_, h⟩ | ⟨_, h, c, q, h7, h8⟩
    · omega
    · simp only [walk, h, h7, h8, Res.bind_ok, Bool.false_eq_true, if_false,
        ih hback (by omega) hle, Res.bind_tmo]

end U5e
