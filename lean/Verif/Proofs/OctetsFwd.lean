import Verif.Proofs.Octets
/-! Values and positions when iterating forwards over arbitrary octets. -/
namespace U5e
open Spec

/-- An increment goes from position of rest `s` to `s'`. -/
def Hop (t : List UInt8) (s s' : Nat) : Prop :=
  ∃ l o, t[s]? = some l ∧ s < s' ∧ s' ≤ s + claimed l ∧ t[s']? = some o ∧ ¬ IsContinuation o ∧
    OnlyContinuations t s' (s + claimed l)

theorem Hop.unique {t : List UInt8} {s a b : Nat} (h1 : Hop t s a) (h2 : Hop t s b) : a = b := by
  obtain ⟨l, o, g1, g2, g3, g4, g5, g6⟩ := h1
  obtain ⟨l', o', k1, k2, k3, k4, k5, k6⟩ := h2
  obtain rfl : l = l' := by rw [g1] at k1; exact Option.some.inj k1
  rcases Nat.lt_trichotomy a b with h | h | h
  · obtain ⟨c, hc1, hc2⟩ := g6 b h k3
    rw [k4] at hc1; cases hc1; exact absurd hc2 k5
  · exact h
  · obtain ⟨c, hc1, hc2⟩ := k6 a h g3
    rw [g4] at hc1; cases hc1; exact absurd hc2 g5

theorem rests_cases {t : List UInt8} {x : Nat} (h : Rests t x) : x = 0 ∨ ∃ y, Rests t y ∧ Hop t y x := by
  cases h with
  | start => exact .inl rfl
  | step hr h1 h2 h3 h4 h5 h6 => exact .inr ⟨_, hr, _, _, h1, h2, h3, h4, h5, h6⟩

theorem Hop.rests {t : List UInt8} {s s' : Nat} (h : Hop t s s') (hs : Rests t s) : Rests t s' := by
  obtain ⟨l, o, g1, g2, g3, g4, g5, g6⟩ := h
  exact .step hs g1 g2 g3 g4 g5 g6

/-- Two positions of rest: an increment leads from the smaller one to the larger one or to one in between. -/
theorem rests_between {t : List UInt8} (x : Nat) : Rests t x → ∀ s, Rests t s → s < x → ∃ s', Hop t s s' ∧ s' ≤ x := by
  induction x using Nat.strongRecOn with
  | _ x ih =>
    intro hx s hs hsx
    rcases rests_cases hx with rfl | ⟨y, hy, hyx⟩
    · omega
    · have hlt : y < x := by obtain ⟨l, o, _, g2, _⟩ := hyx; exact g2
      rcases Nat.lt_trichotomy y s with h | h | h
      · obtain ⟨a, ha, hle⟩ := ih s hsx hs y hy h
        have := ha.unique hyx
        omega
      · subst h; exact ⟨x, hyx, Nat.le_refl _⟩
      · obtain ⟨a, ha, hle⟩ := ih y hlt hy s hs h
        exact ⟨a, ha, by omega⟩

theorem Hop.bound {t : List UInt8} {s s' : Nat} (h : Hop t s s') : ∃ l, t[s]? = some l ∧ s + claimed l < t.length := by
  obtain ⟨l, o, g1, g2, g3, g4, g5, g6⟩ := h
  refine ⟨l, g1, ?_⟩
  rcases Nat.lt_or_ge s' (s + claimed l) with h | h
  · obtain ⟨c, hc, _⟩ := g6 _ h (Nat.le_refl _)
    exact (List.getElem?_eq_some_iff.mp hc).1
  · obtain rfl : s' = s + claimed l := by omega
    exact (List.getElem?_eq_some_iff.mp g4).1

theorem rests_lead {t : List UInt8} (hfirst : ∀ o, t.head? = some o → ¬ IsContinuation o) {s : Nat} {l : UInt8}
    (h : Rests t s) (hl : t[s]? = some l) : ¬ IsContinuation l := by
  rcases rests_cases h with rfl | ⟨y, _, l', o, _, _, _, g4, g5, _⟩
  · exact hfirst l (by rw [List.head?_eq_getElem?]; exact hl)
  · rw [g4] at hl; cases hl; exact g5

theorem claimed_pos (l : UInt8) : 1 ≤ claimed l := by
  have : ∀ l : UInt8, 1 ≤ claimed l := by apply forall_octet; decide +kernel
  exact this l

theorem walk_value (t : List UInt8) (hfirst : ∀ o, t.head? = some o → ¬ IsContinuation o)
    (hff : ∀ s, Rests t s → t[s]? = some 0xFF → t.length < s + 8) (hst : ∀ s, Rests t s → ¬ Stuck t s)
    (fuel p s : Nat) (l : UInt8) (hs : Rests t s) (hl : t[s]? = some l) (hsp : s ≤ p) (hpl : p < t.length)
    (hgap : OnlyContinuations t s p) (hf : t.length - s < fuel) :
    ∃ ps : List Nat, ps.Pairwise (· < ·) ∧ (∀ x, x ∈ ps ↔ s ≤ x ∧ Visits t x) ∧
      walk (t ++ [0]) t.length fuel p = .ok (ps.map (valueAt (t ++ [0]))) := by
  induction fuel generalizing p s l with
  | zero => omega
  | succ fuel ih =>
    have hlt := (List.getElem?_eq_some_iff.mp hl).1
    have hlead := rests_lead hfirst hs hl
    have hm : ∀ {k : Nat} {o : UInt8}, t[k]? = some o → (t ++ [0])[k]? = some o := by
      intro k o h
      rw [List.getElem?_append_left (List.getElem?_eq_some_iff.mp h).1]; exact h
    have hcp := cpSize_claimed l hlead
    have hpos := claimed_pos l
    have hr : rewind (t ++ [0]) p = .ok s := rewind_to (hm hl) hlead hsp fun k h1 h2 => by
      obtain ⟨c, h3, h4⟩ := hgap k h1 h2
      exact ⟨c, hm h3, h4⟩
    have hFF : claimed 0xFF = 8 := by decide
    have hl' : s + cpSize l ≤ t.length → l ≠ 0xFF := by
      rintro h rfl
      have := hff s hs hl
      rw [hcp, hFF] at h; omega
    -- no further stop after `s` unless an increment leads there
    have hnone : ∀ x, s < x → Rests t x → ∃ s', Hop t s s' ∧ s' ≤ x := fun x hx hrx => rests_between x hrx s hs hx
    rcases walk_step hr (hm hl) hsp (by omega) (by simp) hl' with ⟨h, hin⟩ | ⟨hle, h, c, q, h5, h6⟩
    · refine ⟨[], by simp, fun x => ?_, by simp [walk, h]⟩
      simp only [List.not_mem_nil, false_iff, not_and]
      rintro hx ⟨hrx, l2, k1, k2⟩
      rcases Nat.lt_or_ge s x with h' | h'
      · obtain ⟨s', hop, _⟩ := hnone x h' hrx
        obtain ⟨l3, j1, j2⟩ := hop.bound
        rw [hl] at j1; cases j1; omega
      · obtain rfl : x = s := by omega
        rw [hl] at k1; cases k1; omega
    · rw [hcp] at hle h6
      have hpc : p = s ∨ (0x80 ≤ l.toNat ∧ ∃ c, (t ++ [0])[p]? = some c ∧ IsContinuation c) := by
        rcases Nat.lt_or_ge s p with h' | h'
        · right
          obtain ⟨c, c1, c2⟩ := hgap p h' (Nat.le_refl _)
          refine ⟨?_, c, hm c1, c2⟩
          rcases Nat.lt_or_ge l.toNat 0x80 with h7 | h7
          · exfalso
            have h1 : claimed l = 1 := by simp [claimed, h7]
            exact hst s hs ⟨l, hl, fun k k1 k2 => hgap k k1 (by omega)⟩
          · exact h7
        · left; omega
      have hval := cur_value hr (hm hl) hpc hlead (hl' (by omega)) (by simp; omega)
      rw [hval] at h5
      obtain ⟨rfl, rfl⟩ : valueAt (t ++ [0]) s = c ∧ s = q := by simpa using h5
      have hstep : ∀ rest, walk (t ++ [0]) t.length fuel (s + claimed l) = .ok rest →
          walk (t ++ [0]) t.length (fuel + 1) p = .ok (valueAt (t ++ [0]) s :: rest) := by
        intro rest hrest
        simp only [walk, h, hval, h6, hrest, Res.bind_ok, Bool.false_eq_true, if_false, Res.pure_eq]
      rcases Nat.lt_or_ge (s + claimed l) t.length with hin | hin
      · -- land inside the text
        obtain ⟨o, ho⟩ : ∃ o, t.head? = some o := by
          cases t with
          | nil => simp at hlt
          | cons a r => exact ⟨a, rfl⟩
        obtain ⟨s', o', g1, g2, g3, g4, g5, g6⟩ := rewind_exists (m := t) (b := 0) (p := s + claimed l)
          (by rw [List.head?_eq_getElem?] at ho; exact ho) (hfirst o ho) (by omega) hin
        have hss : s < s' := by
          refine Nat.lt_of_not_le fun hle' => hst s hs ⟨l, hl, fun k k1 k2 => g6 k (by omega) k2⟩
        have hop : Hop t s s' := ⟨l, o', hl, hss, g3, g4, g5, g6⟩
        obtain ⟨ps, i1, i2, i3⟩ := ih (s + claimed l) s' o' (hop.rests hs) g4 g3 hin g6 (by omega)
        refine ⟨s :: ps, ?_, fun x => ?_, hstep _ i3⟩
        · refine List.pairwise_cons.mpr ⟨fun x hx => ?_, i1⟩
          have := ((i2 x).mp hx).1; omega
        · rw [List.mem_cons, i2]
          constructor
          · rintro (rfl | ⟨h1, h2⟩)
            · exact ⟨Nat.le_refl _, hs, l, hl, by omega⟩
            · exact ⟨by omega, h2⟩
          · rintro ⟨h1, h2⟩
            rcases Nat.lt_or_ge s x with h' | h'
            · right
              obtain ⟨s2, hop2, hle2⟩ := hnone x h' h2.1
              rw [hop2.unique hop] at hle2
              exact ⟨hle2, h2⟩
            · left; omega
      · -- land exactly on the end
        have he : s + claimed l = t.length := by omega
        obtain ⟨f', rfl⟩ : ∃ f', fuel = f' + 1 := ⟨fuel - 1, by omega⟩
        have hend : walk (t ++ [0]) t.length (f' + 1) (s + claimed l) = .ok [] := by
          rw [he]
          have : iterEq (t ++ [0]) t.length t.length = .ok true :=
            iterEq_self (m := t ++ [0]) (o := 0) (by simp) (by decide)
          simp [walk, this]
        refine ⟨[s], by simp, fun x => ?_, hstep _ hend⟩
        rw [List.mem_singleton]
        constructor
        · rintro rfl
          exact ⟨Nat.le_refl _, hs, l, hl, by omega⟩
        · rintro ⟨h1, h2, _⟩
          rcases Nat.lt_or_ge s x with h' | h'
          · obtain ⟨s2, hop2, hle2⟩ := hnone x h' h2
            obtain ⟨l3, j1, j2⟩ := hop2.bound
            rw [hl] at j1; cases j1; omega
          · omega

end U5e
