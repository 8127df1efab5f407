import Verif.Proofs.Bounds
/-!
# C06, C07, C13–C17: arbitrary octets, utf8_bounds

`walk` is the loop `while (it != end) { *it; ++it; }`; `boundsCheck`, `boundsEnforce` are
utf8_bounds::check / enforce. `Overflows o room`, `leadRun`, `enforced` are in Spec/Bounds.lean.
-/
namespace U5e
open Spec

/-- C06. Iterating ANY octets is memory-safe, for any number of iterations, as soon as the first
octet is not a continuation octet and there is no 0xFF: nothing outside `[begin, end]` is needed.
`post` may be empty; `z` is the octet at the end position (NUL for strings, anything for a view). -/
theorem C06_memory_safe (pre t post : List UInt8) (z : UInt8)
    (hfirst : ∀ o, (t ++ [z]).head? = some o → ¬ IsContinuation o) (hff : ∀ o ∈ t, o ≠ 0xFF)
    (fuel : Nat) :
    walk (pre ++ t ++ z :: post) (pre.length + t.length) fuel pre.length ≠ .ub := by
  have hg : ∀ i, (pre ++ t ++ z :: post)[pre.length + i]? = (t ++ z :: post)[i]? := by
    intro i
    rw [List.append_assoc, List.getElem?_append_right (by omega)]; congr 1; omega
  have h0 : ∃ o, (t ++ z :: post)[0]? = some o ∧ ¬ IsContinuation o := by
    cases t with
    | nil => exact ⟨z, rfl, hfirst z rfl⟩
    | cons x xs => exact ⟨x, rfl, hfirst x rfl⟩
  obtain ⟨o, ho, hoc⟩ := h0
  refine walk_safe (b := pre.length) (o := o) ?_ hoc (by simp) ?_ fuel pre.length
    (Nat.le_refl _) (by omega)
  · have := hg 0; rw [Nat.add_zero] at this; rw [this, ho]
  · intro k l hk1 hk2 hl
    obtain ⟨j, rfl⟩ : ∃ j, k = pre.length + j := ⟨k - pre.length, by omega⟩
    rw [hg j, List.getElem?_append_left (by omega)] at hl
    exact hff l (List.mem_of_getElem? hl)

/-- Instance: a truncated view (E3 cut off) between other octets, followed by a lead octet. -/
example := C06_memory_safe [0x80, 0xFF] [0x41, 0xC3, 0x42, 0xE3, 0x81] [0x80] 0xC3
  (by intro o h; obtain rfl := Option.some.inj h; decide) (by decide) 9

/-- C06 for texts accepted by `check` and NUL-terminated (the documented use). -/
theorem C06_after_check (t : List UInt8) (hff : ∀ o ∈ t, o ≠ 0xFF)
    (hcheck : boundsCheck (t ++ [0]) 0 t.length = .ok true) (fuel : Nat) :
    walk (t ++ [0]) t.length fuel 0 ≠ .ub := by
  obtain ⟨r, h1, h2⟩ := boundsCheck_eq (t ++ [0]) 0 t.length (by omega) (by simp)
  rw [hcheck] at h1
  obtain rfl := Res.ok.inj h1
  obtain ⟨⟨o, ho, hoc⟩, _⟩ := h2.mp rfl
  have := C06_memory_safe [] t [] 0 (by
    intro x hx
    rw [List.head?_eq_getElem?, ho] at hx
    obtain rfl := Option.some.inj hx
    exact hoc) hff fuel
  simpa using this

/-- Instance: malformed text that `check` accepts. -/
example := C06_after_check [0x41, 0x80, 0x41, 0xC3, 0x42, 0x43] (by decide) (by decide +kernel) 9

/-- C06, backwards: over a text accepted by `check` with at least six octets and without 0xFE/0xFF,
the loop `while (it != begin) { --it; *it; }` is memory-safe too. -/
theorem C06_backward (t : List UInt8) (hfe : ∀ o ∈ t, o.toNat < 0xFE) (hlen : 6 ≤ t.length)
    (hcheck : boundsCheck (t ++ [0]) 0 t.length = .ok true) (fuel : Nat) :
    walkBack (t ++ [0]) 0 fuel t.length ≠ .ub := by
  obtain ⟨r, h1, h2⟩ := boundsCheck_eq (t ++ [0]) 0 t.length (by omega) (by simp)
  rw [hcheck] at h1
  obtain rfl := Res.ok.inj h1
  obtain ⟨⟨o, ho, hoc⟩, hall⟩ := h2.mp rfl
  have hsz : ∀ o : UInt8, cpSize o = if o.toNat < 0xC0 then 1 else leadingOnes o := by
    apply forall_octet; decide +kernel
  have h6 : ∀ o : UInt8, o.toNat < 0xFE → leadingOnes o ≤ 6 := by
    apply forall_octet; decide +kernel
  have hroom : ∀ i l, i < t.length → (t ++ [0])[i]? = some l →
      i + cpSize l ≤ t.length ∧ l ≠ 0xFF := by
    intro i l hi hl
    rw [List.getElem?_append_left hi] at hl
    have hl6 := h6 l (hfe l (List.mem_of_getElem? hl))
    have hne : l ≠ 0xFF := by
      rintro rfl; exact absurd (hfe _ (List.mem_of_getElem? hl)) (by decide)
    refine ⟨?_, hne⟩
    rw [hsz]; split
    · omega
    · next hlead =>
      rcases Nat.lt_or_ge t.length (i + leadingOnes l) with hbad | hok
      · have : 0 < i := by omega
        exfalso
        exact hall i l this (by omega) (by omega) (by rw [List.getElem?_append_left hi]; exact hl)
          ⟨by omega, by omega⟩
      · exact hok
  have main : ∀ fuel p, p ≤ t.length → walkBack (t ++ [0]) 0 fuel p ≠ .ub := by
    intro fuel
    induction fuel with
    | zero => intro p _; simp [walkBack]
    | succ fuel ih =>
      intro p hp
      obtain ⟨s, l, g1, g2, g3, g4, g5, _⟩ := rewind_exists ho hoc (show 0 ≤ p by omega)
        (by simp; omega)
      have hsl : s + cpSize l ≤ (t ++ [0]).length := by
        rcases Nat.lt_or_ge s t.length with h | h
        · have := (hroom s l h g4).1; simp; omega
        · obtain rfl : s = t.length := by omega
          rw [List.getElem?_append_right (Nat.le_refl _)] at g4
          simp at g4; subst g4
          have : cpSize 0 = 1 := by decide +kernel
          simp [this]
      have he : iterEq (t ++ [0]) p 0 = .ok (decide (s ≤ 0 ∧ 0 < s + cpSize l)) := by
        simp only [iterEq, g1, rd_some g4, Res.bind_ok]
        exact eqLoop_eq _ 0 _ s hsl
      simp only [walkBack, he, Res.bind_ok]
      split
      · simp
      · next hd =>
        have hs0 : s ≠ 0 := by
          rintro rfl
          have := cpSize_pos l
          exact hd (by simpa using by omega)
        obtain ⟨s', rfl⟩ : ∃ s', s = s' + 1 := ⟨s - 1, by omega⟩
        obtain ⟨q, l', k1, k2, k3, k4, k5, _⟩ := rewind_exists ho hoc (show 0 ≤ s' by omega)
          (by simp; omega)
        have hb : bwd (t ++ [0]) p = .ok q := by simp [bwd, g1, retreat, k1]
        obtain ⟨hr1, hr2⟩ := hroom q l' (by omega) k4
        obtain ⟨c, q', hc, hq'⟩ := cur_ok (rewind_stop k4 k5) k4 (by simp; omega) hr2
          (by simp; omega)
        have hqq : q' = q := by rcases hq' with h | h <;> exact h
        subst hqq
        simp only [hb, hc, Res.bind_ok]
        have := ih q' (by omega)
        cases hw : walkBack (t ++ [0]) 0 fuel q' with
        | ok a => simp
        | ub => exact absurd hw this
        | tmo => simp
  exact main fuel t.length (Nat.le_refl _)

/-- Instance: the same text backwards. -/
example := C06_backward [0x41, 0x80, 0x41, 0xC3, 0x42, 0x43] (by decide) (by decide)
  (by decide +kernel) 9

example : boundsCheck ([0x41, 0x80, 0x41, 0xC3, 0x42, 0x43] ++ [0]) 0 6 = .ok true := by
  decide +kernel

/-- Non-vacuity, and limits: truncated and malformed text is safe; text starting with a
continuation octet is not; 0xFF has undefined decoding. -/
example : boundsCheck ([0x41, 0x80, 0xC3, 0x42, 0x43] ++ [0]) 0 5 = .ok true := by decide +kernel
theorem C06_limits :
    walk ([0x80] ++ [0]) 1 1 0 = .ub ∧
    walk ([0xFF, 0x41, 0x41, 0x41, 0x41, 0x41, 0x41, 0x41, 0x41] ++ [0]) 9 1 0 = .ub := by
  decide +kernel

/-- C07. Exactly when the loop `while (it != end) ++it` terminates, for any octets that may be iterated
at all (`hff` is the exact condition of `C06_exact`): iff none of the positions the iterator rests on is followed by as many continuation
octets as it claims octets. If it terminates it does so within `t.length + 1` rounds; if it does not,
it is still running after any number of rounds. The naive claim "it terminates for every text accepted
by check" is false: `C07_check_accepts_spinning_text`. -/
theorem C07_termination (t : List UInt8)
    (hfirst : ∀ o, t.head? = some o → ¬ IsContinuation o)
    (hff : ∀ s, Rests t s → t[s]? = some 0xFF → t.length < s + 8) :
    ((∀ s, Rests t s → ¬ Stuck t s) →
      ∃ cs, walk (t ++ [0]) t.length (t.length + 1) 0 = .ok cs) ∧
    ((∃ s, Rests t s ∧ Stuck t s) → ∀ fuel, walk (t ++ [0]) t.length fuel 0 = .tmo) := by
  have hz : ¬ IsContinuation 0 := by decide
  have h0 : ∃ o, (t ++ [0])[0]? = some o ∧ ¬ IsContinuation o := by
    cases t with
    | nil => exact ⟨0, rfl, hz⟩
    | cons x xs => exact ⟨x, rfl, hfirst x rfl⟩
  obtain ⟨o, ho, hoc⟩ := h0
  have hlen : t.length < (t ++ [0]).length := by simp
  have hin : ∀ {k : Nat} {c : UInt8}, t[k]? = some c → (t ++ [0])[k]? = some c := by
    intro k c h
    rw [List.getElem?_append_left (List.getElem?_eq_some_iff.mp h).1]; exact h
  have hout : ∀ {k : Nat} {c : UInt8}, k < t.length → (t ++ [0])[k]? = some c → t[k]? = some c := by
    intro k c hk h
    rwa [List.getElem?_append_left hk] at h
  have hcont : ∀ {k : Nat} {c : UInt8}, (t ++ [0])[k]? = some c → IsContinuation c →
      t[k]? = some c := by
    intro k c h hc
    rcases Nat.lt_or_ge k t.length with hk | hk
    · exact hout hk h
    · have := (List.getElem?_eq_some_iff.mp h).1
      obtain rfl : k = t.length := by simp at this; omega
      rw [List.getElem?_append_right (Nat.le_refl _)] at h
      simp at h; subst h; exact absurd hc hz
  have h8 : cpSize 0xFF = 8 := by decide +kernel
  have hffm : ∀ {s : Nat} {l : UInt8}, Rests t s ∨ s = t.length → (t ++ [0])[s]? = some l →
      s + cpSize l ≤ t.length → l ≠ 0xFF := by
    rintro s l hs h hle rfl
    rw [h8] at hle
    rcases hs with hs | hs
    · have := hff s hs (hout (by omega) h); omega
    · omega
  constructor
  · intro hno
    have main : ∀ fuel p s, Rests t s ∨ s = t.length → s ≤ p → p ≤ t.length →
        rewind (t ++ [0]) p = .ok s → t.length - s < fuel →
        ∃ cs, walk (t ++ [0]) t.length fuel p = .ok cs := by
      intro fuel
      induction fuel with
      | zero => intros; omega
      | succ fuel ih =>
        intro p s hs hsp hpe hr hfuel
        obtain ⟨s', l, h1, h2, h3, h4, h5, h6⟩ := rewind_exists ho hoc (show 0 ≤ p by omega)
          (by omega)
        obtain rfl : s' = s := Res.ok.inj (h1.symm.trans hr)
        rcases walk_step h1 h4 h3 hpe hlen (hffm hs h4) with
          ⟨h, _⟩ | ⟨hle, h, c, q, h7, h8⟩
        · exact ⟨[], by simp [walk, h]⟩
        · have hpos := cpSize_pos l
          have hst : s' < t.length := by omega
          have hrest : Rests t s' := by
            rcases hs with hs | hs
            · exact hs
            · omega
          have hl := hout hst h4
          have hcl := cpSize_claimed l h5
          obtain ⟨u, l', g1, g2, g3, g4, g5, g6⟩ :=
            rewind_exists h4 h5 (show s' ≤ s' + cpSize l by omega) (by omega)
          have hlt : s' < u := by
            rcases Nat.lt_or_ge s' u with hlt | hge
            · exact hlt
            · obtain rfl : u = s' := by omega
              refine absurd ⟨l, hl, ?_⟩ (hno u hrest)
              intro k hk1 hk2
              obtain ⟨c, hc1, hc2⟩ := g6 k hk1 (by omega)
              exact ⟨c, hcont hc1 hc2, hc2⟩
          have hu : Rests t u ∨ u = t.length := by
            rcases Nat.lt_or_ge u t.length with hu | hu
            · left
              refine .step hrest hl hlt (by omega) (hout hu g4) g5 ?_
              intro k hk1 hk2
              obtain ⟨c, hc1, hc2⟩ := g6 k hk1 (by omega)
              exact ⟨c, hcont hc1 hc2, hc2⟩
            · right; omega
          obtain ⟨cs, hcs⟩ := ih (s' + cpSize l) u hu g3 hle g1 (by omega)
          exact ⟨_, by
            simp only [walk, h, h7, h8, Res.bind_ok, Bool.false_eq_true, if_false, hcs]; rfl⟩
    exact main (t.length + 1) 0 0 (.inl .start) (by omega) (by omega) (rewind_stop ho hoc) (by omega)
  · rintro ⟨s, hs, hstuck⟩
    have hnc : ∀ s l, Rests t s → t[s]? = some l → ¬ IsContinuation l := by
      intro s l h hl
      cases h with
      | start => exact hfirst l (by rw [List.head?_eq_getElem?]; exact hl)
      | step h1 h2 h3 h4 h5 h6 h7 =>
        rw [hl] at h5; obtain rfl := Option.some.inj h5; exact h6
    have back : ∀ s, Rests t s →
        (∀ fuel p, s ≤ p → p ≤ t.length → rewind (t ++ [0]) p = .ok s →
          walk (t ++ [0]) t.length fuel p = .tmo) →
        ∀ fuel, walk (t ++ [0]) t.length fuel 0 = .tmo := by
      intro s hs
      induction hs with
      | start => intro h fuel; exact h fuel 0 (by omega) (by omega) (rewind_stop ho hoc)
      | @step s s' l o' h1 h2 h3 h4 h5 h6 h7 ih =>
        intro h
        apply ih
        intro fuel p hsp hpe hr
        cases fuel with
        | zero => rfl
        | succ fuel =>
          have hl := hnc s l h1 h2
          have hcl := cpSize_claimed l hl
          have hs'lt := (List.getElem?_eq_some_iff.mp h5).1
          have hend : s + claimed l < t.length := by
            rcases Nat.lt_or_ge s' (s + claimed l) with hlt | hge
            · obtain ⟨c, hc, _⟩ := h7 (s + claimed l) hlt (Nat.le_refl _)
              exact (List.getElem?_eq_some_iff.mp hc).1
            · omega
          rcases walk_step hr (hin h2) hsp hpe hlen (hffm (.inl h1) (hin h2)) with
            ⟨_, hh⟩ | ⟨hle, hh, c, q, h8, h9⟩
          · omega
          · have hr' : rewind (t ++ [0]) (s + cpSize l) = .ok s' := by
              refine rewind_to (hin h5) h6 (by omega) ?_
              intro k hk1 hk2
              obtain ⟨c, hc1, hc2⟩ := h7 k hk1 (by omega)
              exact ⟨c, hin hc1, hc2⟩
            simp only [walk, hh, h8, h9, Res.bind_ok, Bool.false_eq_true, if_false,
              h fuel (s + cpSize l) (by omega) hle hr', Res.bind_tmo]
    apply back s hs
    intro fuel p hsp hpe hr
    obtain ⟨l, hl, hall⟩ := hstuck
    have hlc := hnc s l hs hl
    have hcl := cpSize_claimed l hlc
    have hpos := cpSize_pos l
    obtain ⟨c, hc, _⟩ := hall (s + claimed l) (by omega) (Nat.le_refl _)
    have hend := (List.getElem?_eq_some_iff.mp hc).1
    refine walk_spins hr (hin hl) hsp hpe hlen (hffm (.inl hs) (hin hl) (by omega)) (by omega) ?_ fuel
    refine rewind_to (hin hl) hlc (by omega) ?_
    intro k hk1 hk2
    obtain ⟨c, hc1, hc2⟩ := hall k hk1 (by omega)
    exact ⟨c, hin hc1, hc2⟩

/-- Instance: text with a misplaced continuation octet (C3 A9 A9), on which a loop can get stuck. -/
example := C07_termination [0x41, 0xC3, 0xA9, 0xA9]
  (by intro o h; obtain rfl := Option.some.inj h; decide)
  (by
    intro s _ h
    have hm := List.mem_of_getElem? h
    exact absurd hm (by decide))

/-- C06, exactly: over a NUL-terminated text with nothing readable before it, the loop
`while (it != end) { *it; ++it; }` runs into undefined behaviour (after some number of rounds) iff the
text starts with a continuation octet, or the iterator comes to rest on an octet 0xFF at least eight
octets before the end (whose decoding shifts by a negative count). -/
theorem C06_exact (t : List UInt8) :
    (∃ fuel, walk (t ++ [0]) t.length fuel 0 = .ub) ↔
      (∃ o, t.head? = some o ∧ IsContinuation o) ∨
      ∃ s, Rests t s ∧ t[s]? = some 0xFF ∧ s + 8 ≤ t.length := by
  have hz : ¬ IsContinuation 0 := by decide
  have h8 : cpSize 0xFF = 8 := by decide +kernel
  by_cases hc0 : ∃ o, t.head? = some o ∧ IsContinuation o
  · simp only [hc0, true_or, iff_true]
    obtain ⟨o, ho, hoc⟩ := hc0
    refine ⟨1, ?_⟩
    cases t with
    | nil => simp at ho
    | cons x xs =>
      obtain rfl := Option.some.inj ho
      simp [walk, iterEq, rewind, rd, (isCont_iff x).mpr hoc]
  have hfirst : ∀ o, t.head? = some o → ¬ IsContinuation o := fun o h hc => hc0 ⟨o, h, hc⟩
  simp only [hc0, false_or]
  have h0 : ∃ o, (t ++ [0])[0]? = some o ∧ ¬ IsContinuation o := by
    cases t with
    | nil => exact ⟨0, rfl, hz⟩
    | cons x xs => exact ⟨x, rfl, hfirst x rfl⟩
  obtain ⟨o, ho, hoc⟩ := h0
  have hlen : t.length < (t ++ [0]).length := by simp
  have hin : ∀ {k : Nat} {c : UInt8}, t[k]? = some c → (t ++ [0])[k]? = some c := by
    intro k c h
    rw [List.getElem?_append_left (List.getElem?_eq_some_iff.mp h).1]; exact h
  have hout : ∀ {k : Nat} {c : UInt8}, k < t.length → (t ++ [0])[k]? = some c → t[k]? = some c := by
    intro k c hk h
    rwa [List.getElem?_append_left hk] at h
  have hcont : ∀ {k : Nat} {c : UInt8}, (t ++ [0])[k]? = some c → IsContinuation c →
      t[k]? = some c := by
    intro k c h hc
    rcases Nat.lt_or_ge k t.length with hk | hk
    · exact hout hk h
    · have := (List.getElem?_eq_some_iff.mp h).1
      obtain rfl : k = t.length := by simp at this; omega
      rw [List.getElem?_append_right (Nat.le_refl _)] at h
      simp at h; subst h; exact absurd hc hz
  have hnc : ∀ s l, Rests t s → t[s]? = some l → ¬ IsContinuation l := by
    intro s l h hl
    cases h with
    | start => exact hfirst l (by rw [List.head?_eq_getElem?]; exact hl)
    | step h1 h2 h3 h4 h5 h6 h7 =>
      rw [hl] at h5; obtain rfl := Option.some.inj h5; exact h6
  -- one round at an octet 0xFF that does not reach the end
  have hbad : ∀ fuel p s, t[s]? = some 0xFF → s + 8 ≤ t.length → s ≤ p → p ≤ t.length →
      rewind (t ++ [0]) p = .ok s → walk (t ++ [0]) t.length (fuel + 1) p = .ub := by
    intro fuel p s hs hle hsp hpe hr
    obtain ⟨s', l, g1, g2, g3, g4, g5, g6⟩ := rewind_exists ho hoc (show 0 ≤ p by omega) (by omega)
    obtain rfl : s' = s := Res.ok.inj (g1.symm.trans hr)
    have he : iterEq (t ++ [0]) p t.length = .ok false := by
      simp only [iterEq, hr, rd_some (hin hs), Res.bind_ok, h8]
      rw [eqLoop_eq _ _ _ _ (by omega)]
      congr 1; apply decide_eq_false; omega
    have hp7 : ∃ x, rd (t ++ [0]) p = .ok x ∧ is7bit x = false := by
      rcases Nat.lt_or_ge s' p with hlt | hge
      · obtain ⟨c, hc1, hc2⟩ := g6 p hlt (Nat.le_refl _)
        refine ⟨c, rd_some hc1, ?_⟩
        cases h7 : is7bit c with
        | false => rfl
        | true => have := (is7bit_iff c).mp h7; have := hc2.1; omega
      · obtain rfl : s' = p := by omega
        exact ⟨0xFF, rd_some (hin hs), by decide +kernel⟩
    obtain ⟨x, hx, hx7⟩ := hp7
    simp only [walk, he, cur, hx, hx7, hr, rd_some (hin hs), h8, maskFirst, Res.bind_ok,
      Bool.false_eq_true, if_false]
    rfl
  constructor
  · rintro ⟨fuel, hub⟩
    apply Classical.byContradiction
    intro hno
    have hff : ∀ s, Rests t s → t[s]? = some 0xFF → t.length < s + 8 := by
      intro s h1 h2
      rcases Nat.lt_or_ge t.length (s + 8) with h | h
      · exact h
      · exact absurd ⟨s, h1, h2, h⟩ hno
    have main : ∀ fuel p s, Rests t s ∨ s = t.length → s ≤ p → p ≤ t.length →
        rewind (t ++ [0]) p = .ok s → walk (t ++ [0]) t.length fuel p ≠ .ub := by
      intro fuel
      induction fuel with
      | zero => intros; simp [walk]
      | succ fuel ih =>
        intro p s hs hsp hpe hr
        obtain ⟨s', l, h1, h2, h3, h4, h5, h6⟩ := rewind_exists ho hoc (show 0 ≤ p by omega)
          (by omega)
        obtain rfl : s' = s := Res.ok.inj (h1.symm.trans hr)
        rcases walk_step h1 h4 h3 hpe hlen (by
            rintro hle rfl
            rw [h8] at hle
            rcases hs with hs | hs
            · have := hff s' hs (hout (by omega) h4); omega
            · omega) with ⟨h, _⟩ | ⟨hle, h, c, q, h7, h9⟩
        · simp [walk, h]
        · have hpos := cpSize_pos l
          have hst : s' < t.length := by omega
          have hrest : Rests t s' := by
            rcases hs with hs | hs
            · exact hs
            · omega
          have hl := hout hst h4
          have hcl := cpSize_claimed l h5
          obtain ⟨u, l', g1, g2, g3, g4, g5, g6⟩ :=
            rewind_exists h4 h5 (show s' ≤ s' + cpSize l by omega) (by omega)
          have hu : Rests t u ∨ u = t.length := by
            rcases Nat.lt_or_ge u t.length with hu | hu
            · left
              rcases Nat.lt_or_ge s' u with hlt | hge
              · refine .step hrest hl hlt (by omega) (hout hu g4) g5 ?_
                intro k hk1 hk2
                obtain ⟨c, hc1, hc2⟩ := g6 k hk1 (by omega)
                exact ⟨c, hcont hc1 hc2, hc2⟩
              · obtain rfl : u = s' := by omega
                exact hrest
            · right; omega
          have := ih (s' + cpSize l) u hu g3 hle g1
          simp only [walk, h, h7, h9, Res.bind_ok, Bool.false_eq_true, if_false]
          cases hw : walk (t ++ [0]) t.length fuel (s' + cpSize l) with
          | ok a => simp
          | ub => exact absurd hw this
          | tmo => simp
    exact main fuel 0 0 (.inl .start) (by omega) (by omega) (rewind_stop ho hoc) hub
  · rintro ⟨s, hs, hsff, hle⟩
    have back : ∀ s, Rests t s →
        (∃ fuel, ∀ p, s ≤ p → p ≤ t.length → rewind (t ++ [0]) p = .ok s →
          walk (t ++ [0]) t.length fuel p = .ub) →
        ∃ fuel, walk (t ++ [0]) t.length fuel 0 = .ub := by
      intro s hs
      induction hs with
      | start => rintro ⟨fuel, h⟩; exact ⟨fuel, h 0 (by omega) (by omega) (rewind_stop ho hoc)⟩
      | @step s s' l o' h1 h2 h3 h4 h5 h6 h7 ih =>
        rintro ⟨fuel, h⟩
        apply ih
        have hl := hnc s l h1 h2
        have hcl := cpSize_claimed l hl
        have hs'lt := (List.getElem?_eq_some_iff.mp h5).1
        have hend : s + claimed l < t.length := by
          rcases Nat.lt_or_ge s' (s + claimed l) with hlt | hge
          · obtain ⟨c, hc, _⟩ := h7 (s + claimed l) hlt (Nat.le_refl _)
            exact (List.getElem?_eq_some_iff.mp hc).1
          · omega
        by_cases hlff : l = 0xFF
        · subst hlff
          rw [h8] at hcl
          exact ⟨1, fun p hp1 hp2 hr => hbad 0 p s h2 (by omega) hp1 hp2 hr⟩
        refine ⟨fuel + 1, fun p hsp hpe hr => ?_⟩
        rcases walk_step hr (hin h2) hsp hpe hlen (fun _ => hlff) with
          ⟨_, hh⟩ | ⟨hle, hh, c, q, h10, h9⟩
        · omega
        · have hr' : rewind (t ++ [0]) (s + cpSize l) = .ok s' := by
            refine rewind_to (hin h5) h6 (by omega) ?_
            intro k hk1 hk2
            obtain ⟨c, hc1, hc2⟩ := h7 k hk1 (by omega)
            exact ⟨c, hin hc1, hc2⟩
          simp only [walk, hh, h10, h9, Res.bind_ok, Bool.false_eq_true, if_false,
            h (s + cpSize l) (by omega) hle hr', Res.bind_ub]
    exact back s hs ⟨1, fun p hp1 hp2 hr => hbad 0 p s hsff hle hp1 hp2 hr⟩

/-- Both disjuncts and their negation occur. -/
example : Rests (List.replicate 8 0xFF) 0 ∧ (List.replicate 8 (0xFF : UInt8))[0]? = some 0xFF ∧
    0 + 8 ≤ (List.replicate 8 (0xFF : UInt8)).length := ⟨.start, by decide, by decide⟩

/-- Both cases of C07 occur: in E2 41 80 42 the stray continuation octet is jumped over and nothing is
stuck; 41 80 is stuck at once. -/
example : (∀ s, Rests [0xE2, 0x41, 0x80, 0x42] s → ¬ Stuck [0xE2, 0x41, 0x80, 0x42] s) ∧
    ∃ s, Rests [0x41, 0x80] s ∧ Stuck [0x41, 0x80] s := by
  constructor
  · have hr : ∀ s, Rests [0xE2, 0x41, 0x80, 0x42] s → s = 0 ∨ s = 3 := by
      intro s h
      induction h with
      | start => left; rfl
      | @step s s' l o h1 h2 h3 h4 h5 h6 h7 ih =>
        rcases ih with rfl | rfl
        · obtain rfl : l = 0xE2 := by simpa using h2.symm
          rw [show claimed 0xE2 = 3 by decide] at h4 h7
          right
          rcases Nat.lt_or_ge s' 3 with hlt | hge
          · obtain ⟨c, hc, hcc⟩ := h7 3 hlt (by omega)
            obtain rfl : c = 0x42 := by simpa using hc.symm
            exact absurd hcc (by decide)
          · omega
        · have := (List.getElem?_eq_some_iff.mp h5).1
          simp at this; omega
    rintro s hs ⟨l, hl, hall⟩
    rcases hr s hs with rfl | rfl
    · obtain ⟨c, hc, hcc⟩ := hall 1 (by omega) (by
        obtain rfl : l = 0xE2 := by simpa using hl.symm
        decide)
      obtain rfl : c = 0x41 := by simpa using hc.symm
      exact absurd hcc (by decide)
    · obtain rfl : l = 0x42 := by simpa using hl.symm
      obtain ⟨c, hc, _⟩ := hall 4 (by omega) (by decide)
      simp at hc
  · refine ⟨0, .start, 0x41, rfl, ?_⟩
    intro k h1 h2
    have h2 : k ≤ 1 := h2
    obtain rfl : k = 1 := by omega
    exact ⟨0x80, rfl, by decide⟩

/-- C07, a sufficient condition that is easy to check: no octet is followed by more continuation
octets than it announces (in particular well-formed text, C01, but also text with truncated sequences
in the middle). -/
theorem C07_short_runs (t : List UInt8)
    (hfirst : ∀ o, t.head? = some o → ¬ IsContinuation o) (hff : ∀ o ∈ t, o ≠ 0xFF)
    (hrun : ∀ s j l, s < j → t[s]? = some l → ¬ IsContinuation l → OnlyContinuations t s j →
      j - s < claimed l) :
    ∃ cs, walk (t ++ [0]) t.length (t.length + 1) 0 = .ok cs := by
  refine (C07_termination t hfirst fun s _ h => absurd rfl (hff _ (List.mem_of_getElem? h))).1 ?_
  rintro s hs ⟨l, hl, hall⟩
  have hlc : ¬ IsContinuation l := by
    cases hs with
    | start => exact hfirst l (by rw [List.head?_eq_getElem?]; exact hl)
    | step h1 h2 h3 h4 h5 h6 h7 =>
      rw [hl] at h5; obtain rfl := Option.some.inj h5; exact h6
  have := hrun s (s + claimed l) l (by
    have := cpSize_pos l; rw [cpSize_claimed l hlc] at this; omega) hl hlc hall
  omega

/-- Non-vacuity of the run condition: "é", a truncated lead, "B". -/
example : ∀ s j l, s < j → ([0xC3, 0xA9, 0xC3, 0x42] : List UInt8)[s]? = some l →
    ¬ IsContinuation l → OnlyContinuations [0xC3, 0xA9, 0xC3, 0x42] s j → j - s < claimed l := by
  intro s j l hsj hs hl hall
  obtain ⟨c, h1, h2⟩ := hall j hsj (Nat.le_refl _)
  match j, h1 with
  | 0, _ => omega
  | 1, _ =>
    obtain rfl : s = 0 := by omega
    obtain rfl : l = 0xC3 := by simpa using hs.symm
    decide
  | 2, h => obtain rfl := Option.some.inj h; exact absurd h2 (by decide)
  | 3, h => obtain rfl := Option.some.inj h; exact absurd h2 (by decide)
  | n + 4, h => simp at h
example : ∃ cs, walk ([0x41, 0xC3, 0x42, 0xC3, 0xA9] ++ [0]) 5 6 0 = .ok cs :=
  ⟨[0x41, 0xC2, 0xE9], by decide +kernel⟩

/-- C07, a large class of texts on which the loop spins: whenever a complete sequence `u` is followed by one stray continuation octet
before the end, the loop never ends - whatever well-shaped text comes before and whatever comes
after. -/
theorem C07_spins (us : List (List UInt8)) (hus : WellShaped us) (u : List UInt8) (hu : IsUnit u)
    (c : UInt8) (hc : IsContinuation c) (rest : List UInt8) (fuel : Nat) :
    walk (us.flatten ++ u ++ c :: rest ++ [0]) (us.flatten ++ u ++ c :: rest).length fuel 0 = .tmo := by
  generalize hM : us.flatten ++ u ++ c :: rest ++ [0] = M
  generalize hE : (us.flatten ++ u ++ c :: rest).length = E
  -- a suffix version: start at position p where `us` begins
  have gen : ∀ (us : List (List UInt8)) (_ : WellShaped us) (p : Nat)
      (_ : Holds M p (us.flatten ++ u ++ [c])) (_ : p + us.flatten.length + u.length < E)
      (_ : E < M.length) (fuel : Nat), walk M E fuel p = .tmo := by
    intro us
    induction us with
    | nil =>
      intro _ p hm hE' hEM fuel
      simp only [List.flatten_nil, List.nil_append, List.length_nil, Nat.add_zero] at hm hE'
      obtain ⟨l, hl, ha, hlc, hsz⟩ := hu.lead
      have hmu : Holds M p u := hm.left
      have hpos := hu.length_pos
      have hrp : rewind M p = .ok p := by simpa using rewind_unit hu hmu hpos
      have hg : M[p]? = some l := by have := hmu 0 hpos; rw [hl] at this; simpa using this
      have hlff : l ≠ 0xFF := by rintro rfl; simp [announced] at ha; omega
      refine walk_spins hrp hg (Nat.le_refl _) (by omega) hEM hlff (by omega) ?_ fuel
      rw [hsz]
      have hcg : M[p + (u.length - 1) + 1]? = some c := by
        have := hm.right 0 (by simp)
        simp only [Nat.add_zero, List.getElem?_cons_zero] at this
        rw [show p + (u.length - 1) + 1 = p + u.length by omega]; exact this
      rw [show p + u.length = p + (u.length - 1) + 1 by omega, rewind_cont hcg hc]
      exact rewind_unit hu hmu (by omega)
    | cons v vs ih =>
      intro hw p hm hE' hEM fuel
      cases fuel with
      | zero => rfl
      | succ n =>
        have hv : IsUnit v := hw v (by simp)
        simp only [List.flatten_cons, List.append_assoc] at hm
        simp only [List.flatten_cons, List.length_append] at hE'
        have hmv : Holds M p v := hm.left
        have hpos := hv.length_pos
        have h1 := iterEq_unit hv hmv hpos E
        have h2 := cur_unit hv hmv hpos
        have h3 := fwd_unit hv hmv hpos
        rw [Nat.add_zero] at h1 h2 h3
        rw [show decide (p ≤ E ∧ E < p + v.length) = false by apply decide_eq_false; omega] at h1
        have h4 := ih (fun w hw' => hw w (by simp [hw'])) (p + v.length)
          (by simpa [List.append_assoc] using hm.right) (by omega) hEM n
        simp only [walk, h1, h2, h3, h4, Res.bind_ok, Res.bind_tmo, Bool.false_eq_true, if_false]
  have hm : Holds M 0 (us.flatten ++ u ++ [c]) := by
    have := holds_append [] (us.flatten ++ u ++ [c]) (rest ++ [0])
    simp only [List.nil_append, List.length_nil] at this
    rw [← hM]; simpa [List.append_assoc] using this
  exact gen us hus 0 hm (by rw [← hE]; simp) (by rw [← hE, ← hM]; simp) fuel

/-- Instance: "Aé" followed by a stray continuation octet. -/
example := C07_spins [[0x41]] (by simp [WellShaped, IsUnit, announced, IsContinuation]) [0xC3, 0xA9]
  (by decide) 0x80 (by decide) [0x42] 100

/-- … and such a text is accepted by `check`: "A\x80". -/
theorem C07_check_accepts_spinning_text :
    boundsCheck ([0x41, 0x80] ++ [0]) 0 2 = .ok true ∧
    ∀ fuel, walk ([0x41, 0x80] ++ [0]) 2 fuel 0 = .tmo :=
  ⟨by decide +kernel, fun fuel => by
    simpa using C07_spins [] (by intro u hu; simp at hu) [0x41] (by decide) 0x80 (by decide) [] fuel⟩

/-- C13. `check` is defined for every window with readable end position, and true exactly when the
first octet is not a continuation octet and none of the up to six positions end, end-1, …, end-5
strictly after begin holds a lead octet announcing more octets than remain up to end. -/
theorem C13_check_window (m : List UInt8) (b e : Nat) (hbe : b ≤ e) (he : e < m.length) :
    ∃ r, boundsCheck m b e = .ok r ∧
      (r = true ↔ (∃ o, m[b]? = some o ∧ ¬ IsContinuation o) ∧
        ∀ i o, b < i → i ≤ e → e < i + 6 → m[i]? = some o → ¬ Overflows o (e - i)) :=
  boundsCheck_eq m b e hbe he

example : (0 : Nat) ≤ 3 ∧ 3 < ([0x41, 0xE2, 0x82, 0] : List UInt8).length ∧
    boundsCheck [0x41, 0xE2, 0x82, 0] 0 3 = .ok false := by decide +kernel

/-- C13, limit: `check` dereferences `end` - for a view that ends where its allocation ends this is an
out-of-bounds read. -/
theorem C13_check_derefs_end (m : List UInt8) (b : Nat) (hb : b < m.length)
    (hc : ∀ o, m[b]? = some o → ¬ IsContinuation o) : boundsCheck m b m.length = .ub := by
  have hg : m[b]? = some m[b] := List.getElem?_eq_getElem hb
  have : rd m m.length = .ub := by simp [rd]
  simp [boundsCheck, rd_some hg, isCont_false (hc _ hg), checkLoop, show m.length ≠ b by omega, this]

/-- Instance: three octets, all of the array in the view. -/
example : boundsCheck [0x41, 0xC3, 0xA9] 0 3 = .ub :=
  C13_check_derefs_end [0x41, 0xC3, 0xA9] 0 (by decide)
    (by intro o h; obtain rfl := Option.some.inj h; decide)

/-- C14. What acceptance by `check` says about a NUL-terminated text, exactly: it does not start inside
a codepoint, and every lead octet that announces octets past the end is the very first octet, or is one
of the octets 0xFE/0xFF (announcing 7 or 8 octets) at least six octets before the end. Those two kinds
are missed by `check` (`C14_unsound`), everything else is caught. -/
theorem C14_exact (t : List UInt8) :
    boundsCheck (t ++ [0]) 0 t.length = .ok true ↔
      (∀ o, t.head? = some o → ¬ IsContinuation o) ∧
      ∀ i o, t[i]? = some o → Overflows o (t.length - i) →
        i = 0 ∨ (0xFE ≤ o.toNat ∧ i + 6 ≤ t.length) := by
  obtain ⟨r, h1, h2⟩ := boundsCheck_eq (t ++ [0]) 0 t.length (by omega) (by simp)
  rw [h1]
  simp only [Res.ok.injEq]
  rw [h2]
  have h6 : ∀ o : UInt8, o.toNat < 0xFE → leadingOnes o ≤ 6 := by
    apply forall_octet; decide +kernel
  constructor
  · rintro ⟨⟨z, hz, hzc⟩, hall⟩
    constructor
    · intro o ho hc
      cases t with
      | nil => simp at ho
      | cons x xs => simp at ho hz; subst ho; subst hz; exact hzc hc
    · intro i o ho hbad
      have hlt := (List.getElem?_eq_some_iff.mp ho).1
      rcases Nat.eq_zero_or_pos i with h | hpos
      · exact .inl h
      · right
        have hw : i + 6 ≤ t.length := by
          rcases Nat.lt_or_ge t.length (i + 6) with h | h
          · exact absurd hbad (hall i o hpos (by omega) h
              (by rw [List.getElem?_append_left hlt]; exact ho))
          · exact h
        refine ⟨?_, hw⟩
        rcases Nat.lt_or_ge o.toNat 0xFE with h | h
        · have := h6 o h; have := hbad.2; omega
        · exact h
  · rintro ⟨hfirst, hall⟩
    constructor
    · cases t with
      | nil => exact ⟨0, rfl, by decide⟩
      | cons x xs => exact ⟨x, rfl, hfirst x rfl⟩
    · intro i o hi hie hw ho hbad
      have hlt : i < t.length := by
        rcases Nat.lt_or_ge i t.length with h | h
        · exact h
        · obtain rfl : i = t.length := by omega
          rw [List.getElem?_append_right (Nat.le_refl _)] at ho
          simp at ho; subst ho
          exact absurd hbad.1 (by decide)
      rw [List.getElem?_append_left hlt] at ho
      rcases hall i o ho hbad with h | ⟨_, h⟩ <;> omega

/-- C14: `check` rejects only texts that start inside a codepoint or end inside one. -/
theorem C14_complete (t : List UInt8) (h : boundsCheck (t ++ [0]) 0 t.length = .ok false) :
    (∃ o, t.head? = some o ∧ IsContinuation o) ∨
    (∃ i o, 0 < i ∧ t[i]? = some o ∧ Overflows o (t.length - i)) := by
  obtain ⟨r, h1, h2⟩ := boundsCheck_eq (t ++ [0]) 0 t.length (by omega) (by simp)
  rw [h] at h1
  obtain rfl := Res.ok.inj h1
  simp only [Bool.false_eq_true, false_iff] at h2
  by_cases hc : ∃ o, t.head? = some o ∧ IsContinuation o
  · exact .inl hc
  · right
    have h0 : ∃ o, (t ++ [0])[0]? = some o ∧ ¬ IsContinuation o := by
      cases t with
      | nil => exact ⟨0, rfl, by decide⟩
      | cons x xs => exact ⟨x, rfl, fun hx => hc ⟨x, rfl, hx⟩⟩
    have h3 : ¬ (∀ i o, 0 < i → i ≤ t.length → t.length < i + 6 → (t ++ [0])[i]? = some o →
        ¬ Overflows o (t.length - i)) := fun hall => h2 ⟨h0, hall⟩
    simp only [Classical.not_forall, Classical.not_not] at h3
    obtain ⟨i, o, hi, hie, _, ho, hbad⟩ := h3
    have hlt : i < t.length := by
      rcases Nat.lt_or_ge i t.length with h | h
      · exact h
      · obtain rfl : i = t.length := by omega
        rw [List.getElem?_append_right (Nat.le_refl _)] at ho
        simp at ho; subst ho
        exact absurd hbad.1 (by decide)
    rw [List.getElem?_append_left hlt] at ho
    exact ⟨i, o, hi, ho, hbad⟩

/-- Instance: a rejected text, "A" followed by a truncated three-octet sequence. -/
example := C14_complete [0x41, 0xE2, 0x82] (by decide +kernel)

/-- C14: the documented guarantee for texts without the octets 0xFE/0xFF: after `check` no lead octet
overflows, except possibly the very first one of a text of fewer than six octets. -/
theorem C14_sound (t : List UInt8) (h : boundsCheck (t ++ [0]) 0 t.length = .ok true) :
    (∀ o, t.head? = some o → ¬ IsContinuation o) ∧
    ∀ i o, t[i]? = some o → o.toNat < 0xFE → (0 < i ∨ 6 ≤ t.length) →
      ¬ Overflows o (t.length - i) := by
  obtain ⟨r, h1, h2⟩ := boundsCheck_eq (t ++ [0]) 0 t.length (by omega) (by simp)
  rw [h] at h1
  obtain rfl := Res.ok.inj h1
  obtain ⟨⟨z, hz, hzc⟩, hall⟩ := h2.mp rfl
  constructor
  · intro o ho hc
    cases t with
    | nil => simp at ho
    | cons x xs => simp at ho hz; subst ho; subst hz; exact hzc hc
  · intro i o ho hfe hi hbad
    have hlt := (List.getElem?_eq_some_iff.mp ho).1
    have h6 : ∀ o : UInt8, o.toNat < 0xFE → leadingOnes o ≤ 6 := by
      apply forall_octet; decide +kernel
    have := h6 o hfe
    have hb2 := hbad.2
    refine hall i o (by omega) (by omega) (by omega) ?_ hbad
    rw [List.getElem?_append_left hlt]; exact ho

/-- Instance: an accepted text with multi-octet sequences and a malformed middle. -/
example := C14_sound [0x41, 0x80, 0xE2, 0x82, 0xAC, 0xC3, 0xA9] (by decide +kernel)

/-- C14, the two kinds of misses: a lone lead octet is accepted, and so is 0xFE six octets before the end. -/
theorem C14_unsound :
    (boundsCheck ([0xC3] ++ [0]) 0 1 = .ok true ∧ Overflows 0xC3 1) ∧
    (boundsCheck ([0x41, 0xFE, 0x41, 0x41, 0x41, 0x41, 0x41] ++ [0]) 0 7 = .ok true ∧
      Overflows 0xFE 6) := by decide +kernel

/-- C14 corollary: after `check`, decoding at any lead octet after the first stays inside the
NUL-terminated buffer. -/
theorem C14_decode_stays_inside (t : List UInt8)
    (h : boundsCheck (t ++ [0]) 0 t.length = .ok true) (i : Nat) (o : UInt8) (ho : t[i]? = some o)
    (hlead : 0xC0 ≤ o.toNat) (hfe : o.toNat < 0xFE) (hi : 0 < i ∨ 6 ≤ t.length) :
    ∃ r, cur (t ++ [0]) i = .ok r := by
  have hov := (C14_sound t h).2 i o ho hfe hi
  have hlt := (List.getElem?_eq_some_iff.mp ho).1
  have hsz : ∀ o : UInt8, 0xC0 ≤ o.toNat → cpSize o = leadingOnes o ∧ ¬ IsContinuation o := by
    apply forall_octet; decide +kernel
  have ho' : (t ++ [0])[i]? = some o := by rw [List.getElem?_append_left hlt]; exact ho
  obtain ⟨c, q, hc, _⟩ := cur_ok (rewind_stop ho' (hsz o hlead).2) ho' (by simp; omega)
    (by rintro rfl; revert hfe; decide) (by
      rw [(hsz o hlead).1]
      have : ¬ (t.length - i < leadingOnes o) := fun hh => hov ⟨hlead, hh⟩
      simp; omega)
  exact ⟨_, hc⟩

/-- Instance: dereferencing at the lead C3 just before the end. -/
example := C14_decode_stays_inside [0x41, 0x80, 0xE2, 0x82, 0xAC, 0xC3, 0xA9] (by decide +kernel) 5
  0xC3 (by decide) (by decide) (by decide) (by decide)

/-- C16. On a NUL-terminated text (or a view followed by a 7-bit octet) `enforce` is defined - it
never reads or writes outside -, leaves everything around the text alone including the terminator,
turns the text `t` into `enforced t`, and returns true exactly when nothing changed. -/
theorem C16_enforce_effect (pre t post : List UInt8) (z : UInt8) (hz : z.toNat < 0x80) :
    boundsEnforce (pre ++ t ++ z :: post) pre.length (pre.length + t.length) =
      .ok (pre ++ enforced t ++ z :: post, decide (enforced t = t)) :=
  boundsEnforce_eq t z hz pre post

/-- Instance: a view in the middle of an array, with both kinds of repair. -/
example := C16_enforce_effect [0x81] [0x80, 0x41, 0xE3, 0x81] [0xFF] 0x20 (by decide)

/-- C16. What `enforce` may do: nothing outside the text, same length; an octet changes only into '?', and only if it is a
leading continuation octet or an overflowing lead octet among the last five. -/
theorem C16_only_bounds (pre t post : List UInt8) (z : UInt8) (hz : z.toNat < 0x80) :
    ∃ t' r, boundsEnforce (pre ++ t ++ z :: post) pre.length (pre.length + t.length) =
        .ok (pre ++ t' ++ z :: post, r) ∧ (r = true ↔ t' = t) ∧ t'.length = t.length ∧
    ∀ (i : Nat) (o o' : UInt8), t[i]? = some o → t'[i]? = some o' → o' ≠ o →
      o' = 0x3F ∧
      ((IsContinuation o ∧ ∀ j c, j ≤ i → t[j]? = some c → IsContinuation c) ∨
       (t.length < i + 6 ∧ Overflows o (t.length - i))) := by
  refine ⟨enforced t, _, boundsEnforce_eq t z hz pre post, by simp, enforced_length t, ?_⟩
  intro i o o' ho ho' hne
  rw [enforced_getElem?, ho] at ho'
  simp only [Option.map_some, Option.some.injEq] at ho'
  split at ho'
  · next hi =>
    refine ⟨ho'.symm, .inl ⟨leadRun_cont t i o hi ho, ?_⟩⟩
    intro j c hj hc
    exact leadRun_cont t j c (by omega) hc
  · split at ho'
    · next h => exact ⟨ho'.symm, .inr ⟨h.2.1, h.2.2⟩⟩
    · exact absurd ho'.symm hne

example : boundsEnforce ([0x81] ++ [0x80, 0x41, 0xE3, 0x81] ++ 0 :: []) 1 5 =
    .ok ([0x81] ++ [0x3F, 0x41, 0x3F, 0x81] ++ 0 :: [], false) := by decide +kernel

/-- C16, limits: on a view that is not followed by a 7-bit octet, `enforce` writes outside the view:
the octet at the end position when it is a lead octet, and continuation octets following a view
made of continuation octets only. -/
theorem C16_writes_past_view :
    boundsEnforce [0x41, 0xC3, 0xA9, 0] 0 1 = .ok ([0x41, 0x3F, 0xA9, 0], false) ∧
    boundsEnforce [0x41, 0x41, 0x41, 0x41, 0x41, 0x41, 0x80, 0x80, 0] 6 7 =
      .ok ([0x41, 0x41, 0x41, 0x41, 0x41, 0x41, 0x3F, 0x3F, 0], false) := by decide +kernel

theorem boundsCheck_text (t : List UInt8) :
    boundsCheck (t ++ [0]) 0 t.length = .ok (decide (enforced t = t)) := by
  obtain ⟨r, h1, h2⟩ := boundsCheck_eq (t ++ [0]) 0 t.length (by omega) (by simp)
  rw [h1]; congr 1
  apply Bool.eq_iff_iff.mpr
  rw [h2, decide_eq_true_eq, enforced_eq_self]
  constructor
  · rintro ⟨⟨o, ho, hoc⟩, hall⟩
    have h0 : leadRun t = 0 := by
      cases t with
      | nil => rfl
      | cons x xs => simp at ho; subst ho; simp [leadRun, hoc]
    refine ⟨h0, ?_⟩
    intro i o' hi1 hi2 ho' 
    have hlt := (List.getElem?_eq_some_iff.mp ho').1
    exact hall i o' (by omega) (by omega) (by omega) (by rw [List.getElem?_append_left hlt]; exact ho')
  · rintro ⟨h0, hall⟩
    constructor
    · cases t with
      | nil => exact ⟨0, rfl, by decide⟩
      | cons x xs =>
        refine ⟨x, rfl, fun hx => ?_⟩
        simp [leadRun, hx] at h0
    · intro i o hi1 hi2 hi3 ho hbad
      rcases Nat.lt_or_ge i t.length with hlt | hge
      · rw [List.getElem?_append_left hlt] at ho
        exact hall i o (by omega) (by omega) ho hbad
      · obtain rfl : i = t.length := by omega
        rw [List.getElem?_append_right (Nat.le_refl _)] at ho
        simp at ho; subst ho
        exact absurd hbad.1 (by decide)

/-- `check` and `enforce` agree: on a NUL-terminated text `enforce` returns exactly what `check`
would have returned, and changes nothing when it is true. -/
theorem C16_agrees_with_check (t : List UInt8) :
    ∃ t' r, boundsEnforce (t ++ [0]) 0 t.length = .ok (t' ++ [0], r) ∧
      boundsCheck (t ++ [0]) 0 t.length = .ok r ∧ (r = true ↔ t' = t) := by
  refine ⟨enforced t, decide (enforced t = t), ?_, boundsCheck_text t, by simp⟩
  have := boundsEnforce_eq t 0 (by decide) [] []
  simpa using this

theorem leadRun_enforced (t : List UInt8) : leadRun (enforced t) = 0 := by
  rcases Nat.eq_zero_or_pos (leadRun (enforced t)) with h | h
  · exact h
  · exfalso
    have hl := leadRun_le (enforced t)
    have hlen := enforced_length t
    have hg : t[0]? = some t[0] := List.getElem?_eq_getElem (by omega)
    have he := enforced_getElem? t 0
    rw [hg, Option.map_some] at he
    have hc := leadRun_cont _ 0 _ h he
    split at hc
    · exact not_cont_qm hc
    · next h0 =>
      split at hc
      · exact not_cont_qm hc
      · have hz : leadRun t = 0 := by omega
        exact leadRun_stop t _ (by rw [hz]; exact hg) hc

theorem enforced_check (t : List UInt8) :
    boundsCheck (enforced t ++ [0]) 0 (enforced t).length = .ok true ↔
      ¬ ∃ o, 0 < leadRun t ∧ t[leadRun t]? = some o ∧ t.length < leadRun t + 6 ∧
        Overflows o (t.length - leadRun t) := by
  rw [boundsCheck_text]
  simp only [Res.ok.injEq, decide_eq_true_eq]
  rw [enforced_eq_self, leadRun_enforced]
  simp only [true_and, enforced_length]
  constructor
  · rintro hall ⟨o, hpos, ho, hwin, hbad⟩
    refine hall (leadRun t) o hpos hwin ?_ hbad
    rw [enforced_getElem?, ho]
    simp
  · intro hno i o hi hwin ho hbad
    rw [enforced_getElem?] at ho
    cases ht : t[i]? with
    | none => rw [ht] at ho; simp at ho
    | some x =>
      rw [ht, Option.map_some, Option.some.injEq] at ho
      split at ho
      · exact overflows_qm _ (ho ▸ hbad)
      · next hlt =>
        split at ho
        · exact overflows_qm _ (ho ▸ hbad)
        · next hcond =>
          subst ho
          by_cases hk : leadRun t < i
          · exact hcond ⟨hk, hwin, hbad⟩
          · have hieq : i = leadRun t := by omega
            exact hno ⟨x, by omega, by rw [← hieq]; exact ht, by omega, by rw [← hieq]; exact hbad⟩

theorem enforced_idem (t : List UInt8) :
    enforced (enforced t) = enforced t ↔
      ¬ ∃ o, 0 < leadRun t ∧ t[leadRun t]? = some o ∧ t.length < leadRun t + 6 ∧
        Overflows o (t.length - leadRun t) := by
  rw [← enforced_check t, boundsCheck_text]
  simp

theorem cutAfterRun_iff (t : List UInt8) : CutAfterRun t ↔
    ∃ o, 0 < leadRun t ∧ t[leadRun t]? = some o ∧ t.length < leadRun t + 6 ∧
        Overflows o (t.length - leadRun t) := by
  constructor
  · rintro ⟨cs, o, r, rfl, hne, hcs, hr, ho⟩
    have hoc : ¬ IsContinuation o := by
      have := ho.1
      simp only [IsContinuation]; omega
    have hrun : leadRun (cs ++ o :: r) = cs.length := by
      clear hne
      induction cs with
      | nil => simp [leadRun, hoc]
      | cons c cs ih =>
        have := ih (fun x hx => hcs x (by simp [hx]))
        simp [leadRun, hcs c (by simp), this]
    rw [hrun]
    refine ⟨o, List.length_pos_iff.mpr hne, by simp, by simp; omega, ?_⟩
    have : (cs ++ o :: r).length - cs.length = r.length + 1 := by simp
    rw [this]; exact ho
  · rintro ⟨o, hpos, ho, hw, hov⟩
    obtain ⟨hlt, heq⟩ := List.getElem?_eq_some_iff.mp ho
    refine ⟨t.take (leadRun t), o, t.drop (leadRun t + 1), ?_, ?_, ?_, ?_, ?_⟩
    · rw [← heq, List.getElem_cons_drop, List.take_append_drop]
    · intro h
      have := congrArg List.length h
      simp at this
      rcases this with h | h
      · omega
      · subst h; simp at hlt
    · intro c hc
      obtain ⟨j, hj, rfl⟩ := List.getElem_of_mem hc
      have hj' : j < leadRun t := by simp at hj; omega
      refine leadRun_cont t j _ hj' ?_
      rw [List.getElem_take]; exact List.getElem?_eq_getElem _
    · simp; omega
    · have : (t.drop (leadRun t + 1)).length + 1 = t.length - leadRun t := by simp; omega
      rw [this]; exact hov

/-- C15. After `enforce`, `check` accepts - except (`C15_counterexample`) in exactly one situation: the
text starts with at least one continuation octet, and directly after this run of continuation octets
there is a truncated lead octet, within the last five octets. -/
theorem C15_enforce_then_check (t : List UInt8) :
    ∃ t' r, boundsEnforce (t ++ [0]) 0 t.length = .ok (t' ++ [0], r) ∧
      (boundsCheck (t' ++ [0]) 0 t'.length = .ok true ↔ ¬ CutAfterRun t) := by
  refine ⟨enforced t, decide (enforced t = t), ?_, ?_⟩
  · simpa using boundsEnforce_eq t 0 (by decide) [] []
  · rw [enforced_check, cutAfterRun_iff]

/-- C15, the usual case: a text that does not start inside a codepoint is repaired. -/
theorem C15_repaired (t : List UInt8) (h : ∀ o, t.head? = some o → ¬ IsContinuation o) :
    ∃ t' r, boundsEnforce (t ++ [0]) 0 t.length = .ok (t' ++ [0], r) ∧
      boundsCheck (t' ++ [0]) 0 t'.length = .ok true := by
  refine ⟨enforced t, decide (enforced t = t), ?_, ?_⟩
  · have := boundsEnforce_eq t 0 (by decide) [] []
    simpa using this
  · rw [enforced_check]
    rintro ⟨o, hpos, _⟩
    cases t with
    | nil => simp [leadRun] at hpos
    | cons x xs => simp [leadRun, h x rfl] at hpos

example : ∀ o, ([0x41, 0xE3, 0x81] : List UInt8).head? = some o → ¬ IsContinuation o := by
  intro o h; obtain rfl := Option.some.inj h; decide

theorem C15_counterexample :
    boundsEnforce ([0x80, 0xC3] ++ [0]) 0 2 = .ok ([0x3F, 0xC3] ++ [0], false) ∧
    boundsCheck ([0x3F, 0xC3] ++ [0]) 0 2 = .ok false := by decide +kernel

/-- C17. A second `enforce` changes nothing and returns true - except (`C17_counterexample`) in exactly
the situation of C15, where it returns false. -/
theorem C17_idempotent (t : List UInt8) :
    ∃ t' r t'' r', boundsEnforce (t ++ [0]) 0 t.length = .ok (t' ++ [0], r) ∧
      boundsEnforce (t' ++ [0]) 0 t'.length = .ok (t'' ++ [0], r') ∧
      (t'' = t' ↔ ¬ CutAfterRun t) ∧ (r' = true ↔ ¬ CutAfterRun t) := by
  refine ⟨enforced t, decide (enforced t = t), enforced (enforced t),
    decide (enforced (enforced t) = enforced t), ?_, ?_, ?_, ?_⟩
  · simpa using boundsEnforce_eq t 0 (by decide) [] []
  · simpa using boundsEnforce_eq (enforced t) 0 (by decide) [] []
  · rw [enforced_idem, cutAfterRun_iff]
  · rw [decide_eq_true_iff, enforced_idem, cutAfterRun_iff]

/-- C17 for texts not starting inside a codepoint, in terms of the function itself: the second call
returns true and leaves the memory as the first left it. -/
theorem C17_second_call (t : List UInt8) (h : ∀ o, t.head? = some o → ¬ IsContinuation o) :
    ∃ t' r, boundsEnforce (t ++ [0]) 0 t.length = .ok (t' ++ [0], r) ∧
      boundsEnforce (t' ++ [0]) 0 t'.length = .ok (t' ++ [0], true) := by
  have h2 : enforced (enforced t) = enforced t := by
    rw [enforced_idem]
    rintro ⟨o, hpos, _⟩
    cases t with
    | nil => simp [leadRun] at hpos
    | cons x xs => simp [leadRun, h x rfl] at hpos
  refine ⟨enforced t, decide (enforced t = t), ?_, ?_⟩
  · simpa using boundsEnforce_eq t 0 (by decide) [] []
  · simpa [h2] using boundsEnforce_eq (enforced t) 0 (by decide) [] []

/-- Instance: a text whose truncated end is repaired by the first call. -/
example := C17_second_call [0x41, 0xE3, 0x81] (by intro o h; obtain rfl := Option.some.inj h; decide)

/-- … and for every text two calls are enough: the third returns true and changes nothing, and after
two calls `check` accepts. -/
theorem C17_stable_after_two (t : List UInt8) :
    ∃ t' r t'' r', boundsEnforce (t ++ [0]) 0 t.length = .ok (t' ++ [0], r) ∧
      boundsEnforce (t' ++ [0]) 0 t'.length = .ok (t'' ++ [0], r') ∧
      boundsEnforce (t'' ++ [0]) 0 t''.length = .ok (t'' ++ [0], true) ∧
      boundsCheck (t'' ++ [0]) 0 t''.length = .ok true := by
  have h2 : enforced (enforced (enforced t)) = enforced (enforced t) := by
    rw [enforced_idem (enforced t)]
    rintro ⟨o, hpos, _⟩
    rw [leadRun_enforced] at hpos; omega
  refine ⟨enforced t, decide (enforced t = t), enforced (enforced t),
    decide (enforced (enforced t) = enforced t), ?_, ?_, ?_, ?_⟩
  · simpa using boundsEnforce_eq t 0 (by decide) [] []
  · simpa using boundsEnforce_eq (enforced t) 0 (by decide) [] []
  · simpa [h2] using boundsEnforce_eq (enforced (enforced t)) 0 (by decide) [] []
  · rw [boundsCheck_text]; simpa using h2

/-- Non-vacuity of C15/C17: the exceptional situation occurs, and is not the only one. -/
example : CutAfterRun [0x80, 0xC3] ∧ ¬ CutAfterRun [0x80, 0x41, 0xC3] := by
  refine ⟨⟨[0x80], 0xC3, [], rfl, by decide, by decide, by decide, by decide⟩, ?_⟩
  rw [cutAfterRun_iff]
  rintro ⟨o, -, ho, -, hov⟩
  have : o = 0x41 := by
    have h : ([0x80, 0x41, 0xC3] : List UInt8)[leadRun [0x80, 0x41, 0xC3]]? = some 0x41 := by decide
    rw [h] at ho; exact (Option.some.inj ho).symm
  subst this; revert hov; decide

theorem C17_counterexample :
    boundsEnforce ([0x80, 0xC3] ++ [0]) 0 2 = .ok ([0x3F, 0xC3] ++ [0], false) ∧
    boundsEnforce ([0x3F, 0xC3] ++ [0]) 0 2 = .ok ([0x3F, 0x3F] ++ [0], false) := by decide +kernel

end U5e
