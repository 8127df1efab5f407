import Verif.Model.Search
import Verif.Spec.Search
import Verif.Proofs.Grapheme
/-! `std::search` over iterators that simulate lists. -/
namespace U5e
open Spec

variable {I J : CpIter} {pos qos : Nat → Nat} {cs ds : List Int}

theorem stdFindEq_sim (S : Sim I pos cs) (T : Sim J qos ds) {d : Int} {b : Nat} (hd : ds[b]? = some d) (fuel i : Nat)
    (hi : i ≤ cs.length) (hf : cs.length - i < fuel) :
    ∃ k, stdFindEq I J (qos b) (pos cs.length) fuel (pos i) = .ok (pos k) ∧ i ≤ k ∧ k ≤ cs.length ∧
      (∀ j, i ≤ j → j < k → cs[j]? ≠ some d) ∧ (k < cs.length → cs[k]? = some d) := by
  induction fuel generalizing i with
  | zero => omega
  | succ fuel ih =>
    rw [stdFindEq, S.eq i cs.length hi (Nat.le_refl _), Res.bind_ok]
    by_cases h : i = cs.length
    · subst h
      exact ⟨cs.length, by simp, Nat.le_refl _, Nat.le_refl _, fun j h1 h2 => by omega, fun h => by omega⟩
    · obtain ⟨c, hc, _⟩ := drop_cons_of_lt (l := cs) (i := i) (by omega)
      simp only [h, decide_false, Bool.false_eq_true, if_false, S.deref i c hc, T.deref b d hd, Res.bind_ok]
      by_cases hcd : c = d
      · subst hcd
        exact ⟨i, by simp, Nat.le_refl _, hi, fun j h1 h2 => by omega, fun _ => hc⟩
      · simp only [hcd, if_false, S.inc i (by omega), Res.bind_ok]
        obtain ⟨k, h1, h2, h3, h4, h5⟩ := ih (i + 1) (by omega) (by omega)
        refine ⟨k, h1, by omega, h3, fun j hj1 hj2 => ?_, h5⟩
        by_cases hji : j = i
        · subst hji; rw [hc]; intro e; exact hcd (Option.some.inj e)
        · exact h4 j (by omega) hj2

theorem stdMatch_sim (S : Sim I pos cs) (T : Sim J qos ds) (fuel a b : Nat) (ha : a < cs.length) (hb : b < ds.length)
    (hf : ds.length - b ≤ fuel) :
    ∃ r, stdMatch I J (pos cs.length) (qos ds.length) fuel (pos a) (qos b) = .ok r ∧
      (r = .found → ds.drop b <+: cs.drop a) ∧ (r = .exhausted → cs.length - a < ds.length - b) ∧
      (r = .mismatch → ¬ ds.drop b <+: cs.drop a) := by
  induction fuel generalizing a b with
  | zero => omega
  | succ fuel ih =>
    obtain ⟨c, hc, hcd⟩ := drop_cons_of_lt (l := cs) (i := a) ha
    obtain ⟨d, hd, hdd⟩ := drop_cons_of_lt (l := ds) (i := b) hb
    rw [stdMatch, S.deref a c hc, Res.bind_ok]
    simp only [T.deref b d hd, Res.bind_ok]
    rw [hcd, hdd, List.cons_prefix_cons]
    by_cases h : c = d
    · subst h
      simp only [if_true, T.inc b hb, Res.bind_ok, T.eq (b + 1) ds.length (by omega) (Nat.le_refl _), true_and]
      by_cases hb1 : b + 1 = ds.length
      · refine ⟨.found, by simp [hb1], fun _ => ?_, by simp, by simp⟩
        rw [hb1, List.drop_length]; exact List.nil_prefix
      · simp only [hb1, decide_false, Bool.false_eq_true, if_false, S.inc a ha, Res.bind_ok,
          S.eq (a + 1) cs.length (by omega) (Nat.le_refl _)]
        by_cases ha1 : a + 1 = cs.length
        · exact ⟨.exhausted, by simp [ha1], by simp, fun _ => by omega, by simp⟩
        · simp only [ha1, decide_false, Bool.false_eq_true, if_false]
          obtain ⟨r, h1, h2, h3, h4⟩ := ih (a + 1) (b + 1) (by omega) (by omega) (by omega)
          exact ⟨r, h1, h2, fun hr => by have := h3 hr; omega, h4⟩
    · simp only [h, if_false]
      exact ⟨.mismatch, rfl, by simp, by simp, fun _ hp => h hp.1.symm⟩

theorem prefix_drop_get {d : Int} {ds' : List Int} {j : Nat} (h : d :: ds' <+: cs.drop j) : cs[j]? = some d := by
  obtain ⟨t, ht⟩ := h
  have := congrArg (fun l => l[0]?) ht
  simpa using this.symm

theorem stdSearchLoop_sim (S : Sim I pos cs) (T : Sim J qos ds) (hds : 2 ≤ ds.length) (inner : Nat)
    (hi1 : cs.length < inner) (hi2 : ds.length < inner) (fuel i : Nat) (hi : i ≤ cs.length) (hf : cs.length - i < fuel)
    (hno : ∀ j, j < i → ¬ ds <+: cs.drop j) :
    ∃ k, stdSearchLoop I J (pos cs.length) (qos 0) (qos ds.length) (qos 1) inner fuel (pos i) = .ok (pos k) ∧
      FirstMatch ds cs k := by
  induction fuel generalizing i with
  | zero => omega
  | succ fuel ih =>
    obtain ⟨d, hd, hdd⟩ := drop_cons_of_lt (l := ds) (i := 0) (by omega)
    rw [List.drop_zero] at hdd
    obtain ⟨f, h1, h2, h3, h4, h5⟩ := stdFindEq_sim S T hd inner i hi (by omega)
    have hno' : ∀ j, j < f → ¬ ds <+: cs.drop j := by
      intro j hj hp
      by_cases hji : j < i
      · exact hno j hji hp
      · rw [hdd] at hp
        exact h4 j (by omega) hj (prefix_drop_get hp)
    rw [stdSearchLoop, h1, Res.bind_ok, S.eq f cs.length h3 (Nat.le_refl _), Res.bind_ok]
    by_cases hfe : f = cs.length
    · exact ⟨cs.length, by simp [hfe], fun j hj => hno' j (by omega), .inr rfl⟩
    · have hshort : cs.length - f < ds.length → ∀ j, j < cs.length → ¬ ds <+: cs.drop j := by
        intro hs j hj hp
        by_cases hjf : j < f
        · exact hno' j hjf hp
        · have := hp.length_le
          rw [List.length_drop] at this; omega
      simp only [hfe, decide_false, Bool.false_eq_true, if_false, S.inc f (by omega), Res.bind_ok,
        S.eq (f + 1) cs.length (by omega) (Nat.le_refl _)]
      by_cases hf1 : f + 1 = cs.length
      · exact ⟨cs.length, by simp [hf1], hshort (by omega), .inr rfl⟩
      · simp only [hf1, decide_false, Bool.false_eq_true, if_false]
        obtain ⟨r, g1, g2, g3, g4⟩ := stdMatch_sim S T inner (f + 1) 1 (by omega) (by omega) (by omega)
        rw [g1, Res.bind_ok]
        obtain ⟨c, hc, hcd⟩ := drop_cons_of_lt (l := cs) (i := f) (by omega)
        have hcd' : c = d := by
          have := h5 (by omega)
          rw [hc] at this; exact Option.some.inj this
        have hpre : ds <+: cs.drop f ↔ ds.drop 1 <+: cs.drop (f + 1) := by
          conv => lhs; rw [hdd, hcd, List.cons_prefix_cons]
          exact ⟨fun h => h.2, fun h => ⟨hcd'.symm, h⟩⟩
        cases r with
        | found => exact ⟨f, rfl, hno', .inl ⟨by omega, hpre.mpr (g2 rfl)⟩⟩
        | exhausted => exact ⟨cs.length, rfl, hshort (by have := g3 rfl; omega), .inr rfl⟩
        | mismatch =>
          simp only
          exact ih (f + 1) (by omega) (by omega) (fun j hj => by
            by_cases hjf : j = f
            · subst hjf; exact fun hp => g4 rfl (hpre.mp hp)
            · exact hno' j (by omega))

theorem stdSearch_sim (S : Sim I pos cs) (T : Sim J qos ds) (fuel : Nat) (hf1 : cs.length < fuel)
    (hf2 : ds.length < fuel) :
    ∃ k, stdSearch I J (pos cs.length) (qos ds.length) fuel (pos 0) (qos 0) = .ok (pos k) ∧ k ≤ cs.length ∧
      FirstMatch ds cs k := by
  have hle : ∀ {k}, FirstMatch ds cs k → k ≤ cs.length := by
    intro k h; rcases h.2 with h | h <;> omega
  rw [stdSearch, S.eq 0 cs.length (Nat.zero_le _) (Nat.le_refl _), Res.bind_ok]
  by_cases h0 : 0 = cs.length
  · refine ⟨0, by simp [h0], Nat.zero_le _, fun j hj => by omega, .inr h0⟩
  · simp only [h0, decide_false, Bool.false_eq_true, if_false, T.eq 0 ds.length (Nat.zero_le _) (Nat.le_refl _),
      Res.bind_ok]
    by_cases hd0 : 0 = ds.length
    · have : ds = [] := List.length_eq_zero_iff.mp hd0.symm
      subst this
      exact ⟨0, by simp, Nat.zero_le _, fun j hj => by omega, .inl ⟨by omega, List.nil_prefix⟩⟩
    · simp only [hd0, decide_false, Bool.false_eq_true, if_false, T.inc 0 (by omega), Res.bind_ok,
        T.eq (0 + 1) ds.length (by omega) (Nat.le_refl _)]
      by_cases hd1 : 0 + 1 = ds.length
      · obtain ⟨d, hd, hdd⟩ := drop_cons_of_lt (l := ds) (i := 0) (by omega)
        rw [List.drop_zero, hd1, List.drop_length] at hdd
        obtain ⟨k, h1, h2, h3, h4, h5⟩ := stdFindEq_sim S T hd fuel 0 (Nat.zero_le _) (by omega)
        refine ⟨k, by simp only [hd1, decide_true, if_true]; exact h1, h3, fun j hj hp => ?_, ?_⟩
        · rw [hdd] at hp; exact h4 j (Nat.zero_le _) hj (prefix_drop_get hp)
        · by_cases hk : k = cs.length
          · exact .inr hk
          · refine .inl ⟨by omega, ?_⟩
            obtain ⟨c, hc, hcd⟩ := drop_cons_of_lt (l := cs) (i := k) (by omega)
            rw [h5 (by omega)] at hc
            rw [hdd, hcd, List.cons_prefix_cons]
            exact ⟨Option.some.inj hc, List.nil_prefix⟩
      · simp only [hd1, decide_false, Bool.false_eq_true, if_false]
        obtain ⟨k, h1, h2⟩ := stdSearchLoop_sim S T (by omega) fuel hf1 hf2 fuel 0 (Nat.zero_le _) (by omega)
          (fun j hj => by omega)
        exact ⟨k, h1, hle h2, h2⟩

end U5e
