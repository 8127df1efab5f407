import Verif.Proofs.Uax15
/-! The greedy composition against D117. -/
namespace U5e
open Spec

/-- Primary composites with Hangul. -/
abbrev ucomp : Int → Int → Option Int := uaxComp compResolve

theorem hangulComposition_hang {a b c : Int} (h : hangulComposition a b = some c) :
    Hang a ∧ 0x1100 ≤ b ∧ b ≤ 0x11FF ∧ IsHangulSyllable c ∧
      (∀ F : Form, F.ufull c = F.ufull a ++ F.ufull b) := by
  rw [hangulComposition] at h
  split at h
  · next hh =>
    obtain ⟨h1, h2, h3, h4⟩ := hh
    simp only [Option.some.injEq] at h
    subst h
    have hc : IsHangulSyllable (0xAC00 + ((a - 0x1100) * 21 + (b - 0x1161)) * 28) := by
      simp only [IsHangulSyllable]; omega
    refine ⟨.inl (by omega), by omega, by omega, hc, ?_⟩
    intro F
    rw [F.ufull_syl hc, F.ufull_jamo (x := a) (by omega), F.ufull_jamo (x := b) (by omega), hangulDecomposition]
    simp only [List.cons_append, List.nil_append, List.cons.injEq]
    refine ⟨by omega, by omega, ?_⟩
    rw [if_pos (by omega)]
  · split at h
    · next hh =>
      obtain ⟨h1, h2, h3, h4⟩ := hh
      simp only [Option.some.injEq] at h
      subst h
      have h1' := h1
      simp only [IsHangulSyllable] at h1'
      have hc : IsHangulSyllable (a + (b - 0x11A7)) := by simp only [IsHangulSyllable]; omega
      refine ⟨.inr h1, by omega, by omega, hc, ?_⟩
      intro F
      rw [F.ufull_syl hc, F.ufull_syl h1, F.ufull_jamo (x := b) (by omega), hangulDecomposition, hangulDecomposition]
      rw [if_neg (by omega), if_pos (by omega)]
      simp only [List.cons_append, List.nil_append, List.cons.injEq]
      exact ⟨by omega, by omega, by omega, trivial⟩
    · simp at h

theorem hangulComposition_second {a b c : Int} (h : hangulComposition a b = some c) :
    (0x1161 ≤ b ∧ b < 0x1176) ∨ (0x11A7 < b ∧ b < 0x11C3) := by
  rw [hangulComposition] at h
  split at h
  · omega
  · split at h
    · omega
    · simp at h

/-- Facts about primary composites. -/
theorem ucomp_cases {a b c : Int} (h : ucomp a b = some c) :
    hangulComposition a b = some c ∨ (hangulComposition a b = none ∧ compResolve a b = some c) := by
  rw [ucomp, uaxComp] at h
  cases hh : hangulComposition a b with
  | some s => rw [hh] at h; exact .inl h
  | none => rw [hh] at h; exact .inr ⟨rfl, h⟩

theorem ucomp_of_comp {a b c : Int} (h : compResolve a b = some c) : ucomp a b = some c := by
  have hn : hangulComposition a b = none := by
    cases hh : hangulComposition a b with
    | none => rfl
    | some s => exact absurd (hangulComposition_hang hh).1 (hang_comp h).1
  rw [ucomp, uaxComp, hn]; exact h

theorem comp_none_of_ucomp {a b : Int} (h : ucomp a b = none) : compResolve a b = none := by
  cases hc : compResolve a b with
  | none => rfl
  | some c => rw [ucomp_of_comp hc] at h; simp at h

theorem ucomp_ccc {a b c : Int} (h : ucomp a b = some c) : cccResolve a = 0 ∧ cccResolve c = 0 := by
  rcases ucomp_cases h with h | ⟨_, h⟩
  · obtain ⟨h1, h2, h3, h4, _⟩ := hangulComposition_hang h
    exact ⟨hang_ccc h1, hang_ccc (.inr h4)⟩
  · exact ⟨(comp_facts h).ccc1, (comp_facts h).ccc3⟩

theorem Form.comp_second (F : Form) {a b c : Int} (h : compResolve a b = some c) : full F.map b = [b] := by
  refine F.facts.none_ ?_
  cases F <;> first | exact (comp_facts h).dec2 | exact (comp_facts h).kdec2

theorem Form.ucomp_ufull (F : Form) {a b c : Int} (h : ucomp a b = some c) :
    F.ufull c = F.ufull a ++ F.ufull b ∧ F.ufull b = [b] := by
  rcases ucomp_cases h with h | ⟨_, h⟩
  · obtain ⟨h1, h2, h3, h4, h5⟩ := hangulComposition_hang h
    exact ⟨h5 F, F.ufull_jamo ⟨h2, h3⟩⟩
  · obtain ⟨h1, h2, h3⟩ := hang_comp h
    rw [F.ufull_not (fun hs => h1 (.inr hs)), F.ufull_not (fun hs => h2 (.inr hs)),
      F.ufull_not (fun hs => h3 (.inr hs))]
    exact ⟨F.comp_full h, F.comp_second h⟩

/-- A composite is never the second of a composition. -/
theorem ucomp_result_not_second {a b c : Int} (h : ucomp a b = some c) (x : Int) : ucomp x c = none := by
  cases hx : ucomp x c with
  | none => rfl
  | some d =>
    exfalso
    rcases ucomp_cases h with h | ⟨_, h⟩ <;> rcases ucomp_cases hx with hx | ⟨_, hx⟩
    · have h1 := (hangulComposition_hang h).2.2.2.1
      have h2 := (hangulComposition_hang hx).2
      exact not_syl_jamo ⟨h2.1, h2.2.1⟩ h1
    · exact (hang_comp hx).2.1 (.inr (hangulComposition_hang h).2.2.2.1)
    · have h2 := (hangulComposition_hang hx).2
      exact (hang_comp h).2.2 (.inl ⟨h2.1, h2.2.1⟩)
    · have := comp_result_not_second h x
      rw [hx] at this; simp at this

/-- A composite does not combine with a mark that was passed over. -/
theorem ucomp_passed {l c p m : Int} (h : ucomp l c = some p) (h0 : 0 < cccResolve m)
    (hlt : cccResolve m < cccResolve c) : ucomp p m = none := by
  cases hx : ucomp p m with
  | none => rfl
  | some q =>
    exfalso
    rcases ucomp_cases hx with hx | ⟨_, hx⟩
    · have h2 := (hangulComposition_hang hx).2
      have := hang_ccc (c := m) (.inl ⟨h2.1, h2.2.1⟩)
      omega
    · rcases ucomp_cases h with h | ⟨_, h⟩
      · exact (hang_comp hx).1 (.inr (hangulComposition_hang h).2.2.2.1)
      · have e1 := Form.D.comp_full h
        have e2 := Form.D.comp_full hx
        rw [e1, Form.D.comp_second h, Form.D.comp_second hx] at e2
        have hsort := Form.D.facts.sorted q
        rw [e2, CccSorted, List.pairwise_append] at hsort
        have := hsort.2.2 c (by simp) m (by simp)
        omega

/-! ### Unblocked pairs in a reversed text -/

/-- No unblocked composable pair, in a reversed text. -/
def NoPairR (acc : List Int) : Prop :=
  ∀ q c mid s p, acc = q ++ c :: (mid ++ s :: p) → cccResolve s = 0 →
    Unblocked cccResolve mid c → ucomp s c = none

theorem noPairR_iff (acc : List Int) :
    NoPairR acc ↔ ¬ HasUnblockedPair cccResolve ucomp acc.reverse := by
  constructor
  · rintro h ⟨p, s, mid, c, q, he, h1, h2, h3⟩
    have := congrArg List.reverse he
    simp at this
    exact h3 (h q.reverse c mid.reverse s p.reverse this h1 (fun m hm => h2 m (by simpa using hm)))
  · intro h q c mid s p he h1 h2
    cases hc : ucomp s c with
    | none => rfl
    | some d =>
      exfalso
      refine h ⟨p.reverse, s, mid.reverse, c, q.reverse, ?_, h1, fun m hm => h2 m (by simpa using hm),
        by rw [hc]; simp⟩
      rw [he]; simp

theorem NoPairR.suffix {u v : List Int} (h : NoPairR (u ++ v)) : NoPairR v := by
  rintro q c mid s p rfl
  exact h (u ++ q) c mid s p (by simp)

/-- The last starter and what follows it are determined. -/
theorem split_unique {ccc : Int → Int} {m1 m2 : List Int} {s1 s2 : Int} {p1 p2 : List Int}
    (h : m1 ++ s1 :: p1 = m2 ++ s2 :: p2) (h1 : ∀ x ∈ m1, ccc x ≠ 0) (h2 : ∀ x ∈ m2, ccc x ≠ 0)
    (hs1 : ccc s1 = 0) (hs2 : ccc s2 = 0) : m1 = m2 ∧ s1 = s2 ∧ p1 = p2 := by
  induction m1 generalizing m2 with
  | nil =>
    cases m2 with
    | nil => simp at h; exact ⟨rfl, h⟩
    | cons a m2 =>
      simp at h
      exact absurd hs1 (by rw [h.1]; exact h2 a (by simp))
  | cons a m1 ih =>
    cases m2 with
    | nil =>
      simp at h
      exact absurd hs2 (by rw [← h.1]; exact h1 a (by simp))
    | cons b m2 =>
      simp at h
      obtain ⟨rfl, h⟩ := h
      obtain ⟨rfl, h3⟩ := ih h (fun x hx => h1 x (by simp [hx])) (fun x hx => h2 x (by simp [hx]))
      exact ⟨rfl, h3⟩

/-- The cases of one D117 step. -/
theorem composeStep_cases (acc : List Int) (c : Int) :
    (∃ mid s before p, acc = mid ++ s :: before ∧ cccResolve s = 0 ∧ Unblocked cccResolve mid c ∧
      ucomp s c = some p ∧ composeStep cccResolve ucomp acc c = mid ++ p :: before) ∨
    ((∀ mid s before, acc = mid ++ s :: before → cccResolve s = 0 → Unblocked cccResolve mid c →
      ucomp s c = none) ∧ composeStep cccResolve ucomp acc c = c :: acc) := by
  have hsplit := List.takeWhile_append_dropWhile (p := fun m => cccResolve m != 0) (l := acc)
  have hmid : ∀ x ∈ acc.takeWhile (fun m => cccResolve m != 0), cccResolve x ≠ 0 := by
    intro x hx
    have := List.all_eq_true.mp (List.all_takeWhile (p := fun m => cccResolve m != 0) (l := acc)) x hx
    simpa using this
  rw [composeStep]
  generalize acc.takeWhile (fun m => cccResolve m != 0) = mid at hsplit hmid
  cases hd : acc.dropWhile (fun m => cccResolve m != 0) with
  | nil =>
    right
    refine ⟨?_, rfl⟩
    rintro mid' s before rfl hs _
    rw [hd] at hsplit
    exfalso
    have : s ∈ mid := by rw [List.append_nil] at hsplit; rw [hsplit]; simp
    exact hmid s this hs
  | cons s before =>
    have hs : cccResolve s = 0 := by
      have := List.head_dropWhile_not (p := fun m => cccResolve m != 0) (l := acc) (by rw [hd]; simp)
      simp only [hd, List.head_cons] at this
      simpa using this
    rw [hd] at hsplit
    simp only
    have hblock : mid.all (fun m => decide (cccResolve m < cccResolve c)) = true ↔ Unblocked cccResolve mid c := by
      rw [List.all_eq_true]
      constructor
      · intro h m hm
        have h1 := h m hm
        have h2 := hmid m hm
        have := ccc_nonneg m
        simp at h1; omega
      · intro h m hm; have := h m hm; simp; omega
    have huniq : ∀ mid' s' before', acc = mid' ++ s' :: before' → cccResolve s' = 0 →
        Unblocked cccResolve mid' c → mid' = mid ∧ s' = s := by
      intro mid' s' before' he hs' hu
      rw [← hsplit] at he
      obtain ⟨h1, h2, _⟩ := split_unique (ccc := cccResolve) he hmid
        (fun x hx => by have := (hu x hx).1; omega) hs hs'
      exact ⟨h1.symm, h2.symm⟩
    split
    · next hall =>
      rw [hblock] at hall
      cases hc : ucomp s c with
      | some p => exact .inl ⟨mid, s, before, p, hsplit.symm, hs, hall, hc, by simp⟩
      | none =>
        refine .inr ⟨?_, by simp⟩
        intro mid' s' before' he hs' hu
        obtain ⟨_, rfl⟩ := huniq mid' s' before' he hs' hu
        exact hc
    · next hall =>
      rw [hblock] at hall
      refine .inr ⟨?_, rfl⟩
      intro mid' s' before' he hs' hu
      obtain ⟨rfl, rfl⟩ := huniq mid' s' before' he hs' hu
      exact absurd hu hall

theorem noPairR_cons {c : Int} {acc : List Int} (h : NoPairR acc)
    (hc : ∀ mid s before, acc = mid ++ s :: before → cccResolve s = 0 → Unblocked cccResolve mid c →
      ucomp s c = none) : NoPairR (c :: acc) := by
  intro q c' mid s p he h1 h2
  cases q with
  | nil =>
    simp at he
    obtain ⟨rfl, rfl⟩ := he
    exact hc mid s p rfl h1 h2
  | cons a q =>
    simp at he
    exact h q c' mid s p he.2 h1 h2

theorem composeStep_noPair {acc : List Int} (c : Int) (h : NoPairR acc) :
    NoPairR (composeStep cccResolve ucomp acc c) := by
  rcases composeStep_cases acc c with ⟨mid, s, before, p, rfl, hs, hu, hc, he⟩ | ⟨hn, he⟩
  · rw [he]
    have hp := (ucomp_ccc hc).2
    have hbase : NoPairR (p :: before) := by
      have hb : NoPairR before := NoPairR.suffix (u := mid ++ [s]) (by simpa using h)
      refine noPairR_cons hb ?_
      intro mid' s' before' _ _ _
      exact ucomp_result_not_second hc s'
    clear h
    -- push the elements of mid back
    clear he
    induction mid with
    | nil => exact hbase
    | cons m mid ih =>
      rw [List.cons_append]
      have hu' : Unblocked cccResolve mid c := fun x hx => hu x (by simp [hx])
      refine noPairR_cons (ih hu') ?_
      intro mid' s' before' he' hs' hu''
      obtain ⟨_, rfl, _⟩ := split_unique (ccc := cccResolve) he'
        (fun x hx => by have := (hu' x hx).1; omega) (fun x hx => by have := (hu'' x hx).1; omega) hp hs'
      have := hu m (by simp)
      exact ucomp_passed hc this.1 this.2
  · rw [he]
    exact noPairR_cons h hn

/-- The result of D117 has no unblocked composable pair. -/
theorem uaxCompose_noPair (l : List Int) :
    ¬ HasUnblockedPair cccResolve ucomp (uaxCompose cccResolve ucomp l) := by
  rw [uaxCompose, ← noPairR_iff]
  have : ∀ acc, NoPairR acc → NoPairR (l.foldl (composeStep cccResolve ucomp) acc) := by
    induction l with
    | nil => exact fun _ h => h
    | cons c l ih => exact fun acc h => ih _ (composeStep_noPair c h)
  refine this [] ?_
  intro q c mid s p he; simp at he

/-! ### Greedy composition as a fold -/

def greedyStep (acc : List Int) (c : Int) : List Int :=
  match acc with
  | [] => [c]
  | a :: t =>
    match compResolve a c with
    | some p => p :: t
    | none => c :: a :: t

theorem greedy_composeFrom (l : List Int) (a : Int) (t : List Int) :
    (l.foldl greedyStep (a :: t)).reverse = t.reverse ++ composeFrom compResolve a l := by
  induction l generalizing a t with
  | nil => simp [composeFrom]
  | cons b l ih =>
    rw [List.foldl_cons, greedyStep, composeFrom]
    cases compResolve a b with
    | some c => exact ih c t
    | none => simp only; rw [ih]; simp

theorem greedy_compose (l : List Int) : (l.foldl greedyStep []).reverse = compose compResolve l := by
  cases l with
  | nil => rfl
  | cons a l =>
    rw [List.foldl_cons]
    show (l.foldl greedyStep [a]).reverse = _
    rw [greedy_composeFrom]; rfl

/-- Without a remaining unblocked pair, greedy composition is D117. -/
theorem greedy_eq (l : List Int) : NoPairR (l.foldl greedyStep []) →
    l.foldl (composeStep cccResolve ucomp) [] = l.foldl greedyStep [] := by
  have key : ∀ n, ∀ l : List Int, l.length = n → NoPairR (l.foldl greedyStep []) →
      l.foldl (composeStep cccResolve ucomp) [] = l.foldl greedyStep [] := by
    intro n
    induction n with
    | zero => intro l hl _; rw [List.length_eq_zero_iff.mp hl]; rfl
    | succ n ih =>
      intro l hl
      obtain ⟨l, c, rfl⟩ : ∃ l' c, l = l' ++ [c] := by
        rcases List.eq_nil_or_concat l with rfl | ⟨l', c, rfl⟩
        · simp at hl
        · exact ⟨l', c, by simp⟩
      have hl' : l.length = n := by simpa using hl
      have ih := ih l hl'
      rw [List.foldl_append, List.foldl_append]
      simp only [List.foldl_cons, List.foldl_nil]
      have hunc := compose_uncomposable l
      rw [← greedy_compose] at hunc
      generalize l.foldl greedyStep [] = acc at ih hunc
      intro hnp
      cases acc with
      | nil =>
        rw [ih (by intro q c mid s p he; simp at he)]; rfl
      | cons a t =>
        cases hc : compResolve a c with
        | some p =>
          have hg : greedyStep (a :: t) c = p :: t := by rw [greedyStep, hc]
          rw [hg] at hnp ⊢
          have ha := (comp_facts hc).ccc1
          have hno : NoPairR (a :: t) := by
            refine noPairR_cons (NoPairR.suffix (u := [p]) hnp) ?_
            rintro mid s before rfl hs hu
            cases mid with
            | cons m mid => have := hu m (by simp); omega
            | nil =>
              have h1 : compResolve s a = none := by
                rw [Uncomposable, List.nil_append, List.reverse_cons, List.reverse_cons] at hunc
                refine adj_iff.mp hunc before.reverse s a [] (by simp)
              rw [ucomp, uaxComp]
              cases hh : hangulComposition s a with
              | none => exact h1
              | some d =>
                have h2 := (hangulComposition_hang hh).2
                exact absurd (.inl ⟨h2.1, h2.2.1⟩) (hang_comp hc).1
          rw [ih hno]
          rcases composeStep_cases (a :: t) c with ⟨mid, s, before, p', he, hs, hu, hc', he'⟩ | ⟨hn, he'⟩
          · obtain ⟨rfl, rfl, rfl⟩ := split_unique (ccc := cccResolve) (m1 := []) (s1 := a) (p1 := t) he
              (by simp) (fun x hx => by have := (hu x hx).1; omega) ha hs
            rw [ucomp_of_comp hc] at hc'; cases hc'
            rw [he']; rfl
          · have := hn [] a t rfl ha (by simp [Unblocked])
            rw [ucomp_of_comp hc] at this; simp at this
        | none =>
          have hg : greedyStep (a :: t) c = c :: a :: t := by rw [greedyStep, hc]
          rw [hg] at hnp ⊢
          rw [ih (NoPairR.suffix (u := [c]) hnp)]
          rcases composeStep_cases (a :: t) c with ⟨mid, s, before, p', he, hs, hu, hc', he'⟩ | ⟨hn, he'⟩
          · have := hnp [] c mid s before (by rw [he]; rfl) hs hu
            rw [hc'] at this; simp at this
          · exact he'
  exact key _ l rfl

/-- Greedy composition is D117 exactly if no unblocked composable pair remains. -/
theorem compose_eq_uaxCompose_iff (l : List Int) :
    compose compResolve l = uaxCompose cccResolve ucomp l ↔
      ¬ HasUnblockedPair cccResolve ucomp (compose compResolve l) := by
  constructor
  · intro h; rw [h]; exact uaxCompose_noPair l
  · intro h
    rw [← greedy_compose, ← noPairR_iff] at h
    rw [← greedy_compose, uaxCompose, greedy_eq l h]

/-! ### D117 and Hangul syllables in its input -/

theorem step_push {c : Int} (h : ∀ x, ucomp x c = none) (acc : List Int) :
    composeStep cccResolve ucomp acc c = c :: acc := by
  rcases composeStep_cases acc c with ⟨mid, s, before, p, _, _, _, hc, _⟩ | ⟨_, he⟩
  · rw [h s] at hc; simp at hc
  · exact he

theorem step_compose {a c p : Int} (h : ucomp a c = some p) (acc : List Int) :
    composeStep cccResolve ucomp (a :: acc) c = p :: acc := by
  have ha := (ucomp_ccc h).1
  rcases composeStep_cases (a :: acc) c with ⟨mid, s, before, p', he, hs, hu, hc', he'⟩ | ⟨hn, he'⟩
  · obtain ⟨rfl, rfl, rfl⟩ := split_unique (ccc := cccResolve) (m1 := []) (s1 := a) (p1 := acc) he
      (by simp) (fun x hx => by have := (hu x hx).1; omega) ha hs
    rw [h] at hc'; cases hc'; rw [he']; rfl
  · have := hn [] a acc rfl ha (by simp [Unblocked])
    rw [h] at this; simp at this

theorem ucomp_hang {a b : Int} (h : Hang b) : ucomp a b = hangulComposition a b := by
  rw [ucomp, uaxComp]
  cases hangulComposition a b with
  | some s => rfl
  | none =>
    cases hc : compResolve a b with
    | none => rfl
    | some c => exact absurd h (hang_comp hc).2.1

theorem ucomp_syl_second {s : Int} (h : IsHangulSyllable s) (x : Int) : ucomp x s = none := by
  rw [ucomp_hang (.inr h)]
  cases hh : hangulComposition x s with
  | none => rfl
  | some d =>
    have h2 := (hangulComposition_hang hh).2
    exact absurd h (not_syl_jamo ⟨h2.1, h2.2.1⟩)

theorem fold_syl {s : Int} (h : IsHangulSyllable s) (acc : List Int) :
    (hangulDecomposition s).foldl (composeStep cccResolve ucomp) acc = s :: acc := by
  have hs := h
  obtain ⟨h1, h2⟩ := hs
  have hpush : ∀ x, ucomp x (0x1100 + (s - 0xAC00) / 588) = none := by
    intro x
    rw [ucomp_hang (.inl (by omega))]
    cases hh : hangulComposition x (0x1100 + (s - 0xAC00) / 588) with
    | none => rfl
    | some d => have := hangulComposition_second hh; omega
  have hlv : ucomp (0x1100 + (s - 0xAC00) / 588) (0x1161 + (s - 0xAC00) % 588 / 28) =
      some (s - (s - 0xAC00) % 28) := by
    rw [ucomp_hang (.inl (by omega)), hangulComposition, if_pos (by omega)]
    congr 1; omega
  rw [hangulDecomposition]
  split
  · next h0 =>
    simp only [List.append_nil, List.foldl_cons, List.foldl_nil]
    rw [step_push hpush, step_compose hlv]
    congr 1; omega
  · next h0 =>
    simp only [List.cons_append, List.nil_append, List.foldl_cons, List.foldl_nil]
    rw [step_push hpush, step_compose hlv]
    refine step_compose ?_ acc
    rw [ucomp_hang (.inl (by omega)), hangulComposition, if_neg (by omega), if_pos]
    · congr 1; omega
    · refine ⟨?_, by omega, by omega, by omega⟩
      simp only [IsHangulSyllable]; omega

theorem Form.fold_udec (F : Form) {l : List Int} (h : ∀ e ∈ l, full F.map e = [e]) (acc : List Int) :
    (F.udec l).foldl (composeStep cccResolve ucomp) acc = l.foldl (composeStep cccResolve ucomp) acc := by
  induction l generalizing acc with
  | nil => rfl
  | cons e l ih =>
    rw [F.udec_cons, List.foldl_append, ih (fun x hx => h x (by simp [hx])), List.foldl_cons]
    congr 1
    by_cases hs : IsHangulSyllable e
    · rw [F.ufull_syl hs, fold_syl hs, step_push (ucomp_syl_second hs)]
    · rw [F.ufull_not hs, h e (by simp)]; rfl

theorem Form.uaxCompose_udec (F : Form) {l : List Int} (h : ∀ e ∈ l, full F.map e = [e]) :
    uaxCompose cccResolve ucomp (F.udec l) = uaxCompose cccResolve ucomp l := by
  rw [uaxCompose, F.fold_udec h, uaxCompose]

/-! ### D117 preserves canonical equivalence -/

theorem Form.corder_fold (F : Form) (l acc : List Int)
    (hacc : ∀ e ∈ acc, cccResolve e ≠ 0 → F.ufull e = [e])
    (hl : ∀ e ∈ l, cccResolve e ≠ 0 → F.ufull e = [e]) :
    corder cccResolve (F.udec (l.foldl (composeStep cccResolve ucomp) acc).reverse) =
      corder cccResolve (F.udec (acc.reverse ++ l)) := by
  induction l generalizing acc with
  | nil => simp
  | cons c l ih =>
    rw [List.foldl_cons]
    rcases composeStep_cases acc c with ⟨mid, s, before, p, rfl, hs, hu, hc, he⟩ | ⟨hn, he⟩
    · rw [he]
      have hmid : ∀ e ∈ mid, F.ufull e = [e] := fun e hm =>
        hacc e (by simp [hm]) (by have := (hu e hm).1; omega)
      rw [ih]
      · obtain ⟨hp, hcc⟩ := F.ucomp_ufull hc
        have h1 : F.udec ((mid ++ p :: before).reverse ++ l) =
            (F.udec before.reverse ++ F.ufull s) ++ (c :: mid.reverse) ++ F.udec l := by
          simp only [List.reverse_append, List.reverse_cons, F.udec_append, F.udec_cons]
          rw [show F.ufull p = F.ufull s ++ [c] by rw [hp, hcc],
            show F.udec mid.reverse = mid.reverse from flatMap_single fun x hx => hmid x (by simpa using hx)]
          simp
        have h2 : F.udec ((mid ++ s :: before).reverse ++ c :: l) =
            (F.udec before.reverse ++ F.ufull s) ++ (mid.reverse ++ [c]) ++ F.udec l := by
          simp only [List.reverse_append, List.reverse_cons, F.udec_append, F.udec_cons, hcc]
          rw [show F.udec mid.reverse = mid.reverse from flatMap_single fun x hx => hmid x (by simpa using hx)]
          simp
        rw [h1, h2]
        exact corder_exchanges_eq ((exchanges_move mid.reverse c
          (fun m hm => hu m (by simpa using hm))).context _ _)
      · intro e he' h0
        rcases List.mem_append.mp he' with h' | h'
        · exact hmid e h'
        · rcases List.mem_cons.mp h' with rfl | h'
          · exact absurd (ucomp_ccc hc).2 h0
          · exact hacc e (by simp [h']) h0
      · exact fun e h' => hl e (by simp [h'])
    · rw [he, ih]
      · simp
      · intro e he' h0
        rcases List.mem_cons.mp he' with rfl | h'
        · exact hl e (by simp) h0
        · exact hacc e h' h0
      · exact fun e h' => hl e (by simp [h'])

theorem Form.corder_uaxCompose (F : Form) {l : List Int} (hl : ∀ e ∈ l, cccResolve e ≠ 0 → F.ufull e = [e]) :
    corder cccResolve (F.udec (uaxCompose cccResolve ucomp l)) = corder cccResolve (F.udec l) := by
  rw [uaxCompose, F.corder_fold l [] (by simp) hl]; rfl

/-! ### Order and Hangul expansion -/

theorem Form.udec_cinsert (F : Form) {x : Int} (hx : F.ufull x = [x]) {m : List Int}
    (h : ∀ e ∈ m, full F.map e = [e]) :
    cinsert cccResolve x (F.udec m) = F.udec (cinsert cccResolve x m) := by
  induction m with
  | nil => rw [cinsert, F.udec_cons, hx]; rfl
  | cons y m ih =>
    have ih := ih (fun e he => h e (by simp [he]))
    by_cases hs : IsHangulSyllable y
    · have h0 := hang_ccc (.inr hs)
      rw [cinsert, if_neg (by omega), F.udec_cons, F.udec_cons, F.udec_cons, hx, F.ufull_syl hs]
      have hj := fun z => jamo_of_syl (x := z) hs
      cases hd : hangulDecomposition y with
      | nil => have := hangulDecomposition_length (c := y); rw [hd] at this; simp at this
      | cons j js =>
        rw [hd] at hj
        have := hang_ccc (.inl (hj j (by simp)))
        rw [List.cons_append, cinsert, if_neg (by omega)]; rfl
    · have hy : F.ufull y = [y] := by rw [F.ufull_not hs, h y (by simp)]
      rw [F.udec_cons, hy, List.cons_append, List.nil_append]
      rw [show cinsert cccResolve x (y :: F.udec m) = if cccResolve y < cccResolve x ∧ 0 < cccResolve y then
        y :: cinsert cccResolve x (F.udec m) else x :: y :: F.udec m from rfl]
      rw [show cinsert cccResolve x (y :: m) = if cccResolve y < cccResolve x ∧ 0 < cccResolve y then
        y :: cinsert cccResolve x m else x :: y :: m from rfl]
      split
      · rw [ih, F.udec_cons, hy]; rfl
      · rw [F.udec_cons, F.udec_cons, hx, hy]; rfl

theorem Form.corder_udec (F : Form) {l : List Int} (h : ∀ e ∈ l, full F.map e = [e]) :
    corder cccResolve (F.udec l) = F.udec (corder cccResolve l) := by
  induction l with
  | nil => rfl
  | cons x l ih =>
    have hl : ∀ e ∈ l, full F.map e = [e] := fun e he => h e (by simp [he])
    have ih := ih hl
    by_cases hs : IsHangulSyllable x
    · rw [corder_cons, cinsert_starter ccc_nonneg (hang_ccc (.inr hs)), F.udec_cons, F.udec_cons,
        corder_starters ccc_nonneg, ih]
      intro y hy
      rw [F.ufull_syl hs] at hy
      exact hang_ccc (.inl (jamo_of_syl hs hy))
    · have hx : F.ufull x = [x] := by rw [F.ufull_not hs, h x (by simp)]
      rw [corder_cons, F.udec_cons, hx, List.cons_append, List.nil_append, corder_cons, ih]
      refine F.udec_cinsert hx fun e he => ?_
      exact hl e ((corder_perm l).mem_iff.mp he)

theorem Form.startersFirst_udec (F : Form) {l : List Int} (h : ∀ e ∈ l, full F.map e = [e]) :
    StartersFirst cccResolve (F.udec l) ↔ StartersFirst cccResolve l := by
  induction l with
  | nil => exact Iff.rfl
  | cons x l ih =>
    have hl : ∀ e ∈ l, full F.map e = [e] := fun e he => h e (by simp [he])
    have ih := ih hl
    rw [F.udec_cons, StartersFirst, List.pairwise_append, StartersFirst, List.pairwise_cons]
    rw [StartersFirst, StartersFirst] at ih
    rw [ih]
    by_cases hs : IsHangulSyllable x
    · have hj : ∀ y ∈ F.ufull x, cccResolve y = 0 := by
        intro y hy; rw [F.ufull_syl hs] at hy
        exact hang_ccc (.inl (jamo_of_syl hs hy))
      have h0 := hang_ccc (.inr hs)
      constructor
      · rintro ⟨_, h2, _⟩; exact ⟨fun y _ hx => absurd h0 hx, h2⟩
      · rintro ⟨_, h2⟩
        refine ⟨?_, h2, fun y hy z _ hyz => absurd (hj y hy) hyz⟩
        refine List.pairwise_iff_forall_sublist.mpr ?_
        intro a b hab ha
        exact absurd (hj a (hab.subset (by simp))) ha
    · have hx : F.ufull x = [x] := by rw [F.ufull_not hs, h x (by simp)]
      rw [hx]
      -- elements of udec l that are starters correspond to elements of l that are starters
      have key : (∀ z ∈ F.udec l, cccResolve z ≠ 0) ↔ (∀ z ∈ l, cccResolve z ≠ 0) := by
        constructor
        · intro hz z hzl h0
          by_cases hzs : IsHangulSyllable z
          · cases hd : hangulDecomposition z with
            | nil => have := hangulDecomposition_length (c := z); rw [hd] at this; simp at this
            | cons j js =>
              refine hz j ?_ (hang_ccc (.inl (jamo_of_syl hzs (by rw [hd]; simp))))
              refine List.mem_flatMap.mpr ⟨z, hzl, ?_⟩
              show j ∈ F.ufull z
              rw [F.ufull_syl hzs, hd]; simp
          · refine hz z (List.mem_flatMap.mpr ⟨z, hzl, ?_⟩) h0
            show z ∈ F.ufull z
            rw [F.ufull_not hzs, hl z hzl]; simp
        · intro hz z hzl
          obtain ⟨e, he, hze⟩ := List.mem_flatMap.mp hzl
          by_cases hes : IsHangulSyllable e
          · exact absurd (hang_ccc (.inr hes)) (hz e he)
          · have hze : z ∈ F.ufull e := hze
            rw [F.ufull_not hes, hl e he] at hze
            simp at hze; subst hze; exact hz z he
      constructor
      · rintro ⟨_, h2, h3⟩
        refine ⟨fun z hz hx0 => ?_, h2⟩
        exact key.mp (fun w hw => h3 x (by simp) w hw hx0) z hz
      · rintro ⟨h1, h2⟩
        refine ⟨by simp, h2, ?_⟩
        intro a ha b hb ha0
        simp at ha; subst ha
        exact key.mpr (fun w hw => h1 w hw ha0) b hb

/-! ### C36 on lists -/

variable {sort : SortFn}

theorem Form.base_text_elem (F : Form) (hs : ConformingSort sort) {cs : List Int} {e : Int}
    (he : e ∈ F.base.text sort cs) : full F.map e = [e] := by
  rw [F.base_text] at he
  obtain ⟨g, _, heg⟩ := List.mem_flatMap.mp he
  have := (hs.perm _).mem_iff.mp heg
  obtain ⟨c, _, hc⟩ := List.mem_flatMap.mp this
  exact F.facts.elem_full hc

theorem decompose_elem (F : Form) {l : List Int} {e : Int} (he : e ∈ decompose F.map l) : full F.map e = [e] := by
  obtain ⟨c, _, hc⟩ := List.mem_flatMap.mp he
  exact F.facts.elem_full hc

theorem Form.udec_elem (F : Form) {l : List Int} {e : Int} (he : e ∈ F.udec l) : F.ufull e = [e] := by
  obtain ⟨c, _, hc⟩ := List.mem_flatMap.mp he
  by_cases hs : IsHangulSyllable c
  · have hc : e ∈ F.ufull c := hc
    rw [F.ufull_syl hs] at hc
    exact F.ufull_jamo (jamo_of_syl hs hc)
  · have hc : e ∈ F.ufull c := hc
    rw [F.ufull_not hs] at hc
    rw [F.ufull_not (F.full_not_syl hs hc), F.facts.elem_full hc]

theorem Form.isUaxC_iff (F : Form) (hF : F.post = compose compResolve) (hs : StableSort sort) (cs : List Int) :
    IsUaxC cccResolve F.map compResolve cs (F.text sort cs) ↔
      (∀ g ∈ graphemes cs, StartersFirst cccResolve (decompose F.map g)) ∧
        ¬ HasUnblockedPair cccResolve ucomp (F.text sort cs) := by
  have hy : IsUaxC cccResolve F.map compResolve cs (F.text sort cs) ↔
      F.text sort cs = uaxCompose cccResolve ucomp (corder cccResolve (F.udec cs)) := by
    rw [IsUaxC]
    simp only [IsUaxD, isCanonicalOrder_iff]
    exact ⟨by rintro ⟨d, rfl, h⟩; exact h, fun h => ⟨_, rfl, h⟩⟩
  rw [hy]
  have htext : F.text sort cs = compose compResolve (F.base.text sort cs) := by rw [F.text_eq hs, hF]
  have main : (∀ g ∈ graphemes cs, StartersFirst cccResolve (decompose F.map g)) →
      uaxCompose cccResolve ucomp (corder cccResolve (F.udec cs)) =
        uaxCompose cccResolve ucomp (F.base.text sort cs) := by
    intro h
    rw [← F.udec_decompose, F.corder_udec (fun e he => decompose_elem F he),
      ← (F.corder_text_iff hs cs).mpr h,
      F.uaxCompose_udec (fun e he => F.base_text_elem hs.1 he)]
  constructor
  · intro h
    have hsf : ∀ g ∈ graphemes cs, StartersFirst cccResolve (decompose F.map g) := by
      have h1 : corder cccResolve (F.udec (F.text sort cs)) = corder cccResolve (F.udec cs) := by
        rw [h, F.corder_uaxCompose]
        · have hsame : F.udec (corder cccResolve (F.udec cs)) = corder cccResolve (F.udec cs) :=
            flatMap_single fun x hx => F.udec_elem ((corder_perm _).mem_iff.mp hx)
          rw [hsame, corder_terminal (corder_terminal' _)]
        · exact fun e he _ => F.udec_elem ((corder_perm _).mem_iff.mp he)
      have h2 : F.udec (F.text sort cs) = F.udec (F.base.text sort cs) := by
        rw [← F.udec_decompose, F.decompose_text hs.1]
      rw [h2] at h1
      have h3 := congrArg (pattern cccResolve) h1
      rw [corder_pattern, corder_pattern] at h3
      have e1 : F.udec (F.base.text sort cs) = (graphemes cs).flatMap (fun g => F.udec (F.block sort g)) := by
        rw [F.base_text, Form.udec, List.flatMap_assoc]
      have e2 : F.udec cs = (graphemes cs).flatMap (fun g => F.udec (decompose F.map g)) := by
        rw [← F.udec_decompose, decompose_graphemes, Form.udec, List.flatMap_assoc]
      rw [e1, e2, pattern_flatMap, pattern_flatMap] at h3
      intro g hg
      have := flatMap_congr_lengths' (fun x => by
        simp only [pattern, List.length_map]
        exact ((hs.1.perm (decompose F.map x)).flatMap_right _).length_eq) _ h3 g hg
      have hb : StartersFirst cccResolve (F.block sort g) := startersFirst_sorted ccc_nonneg (hs.1.sorted _)
      rw [← F.startersFirst_udec, startersFirst_pattern this,
        F.startersFirst_udec (fun e he => decompose_elem F he)] at hb
      · exact hb
      · intro e he
        exact decompose_elem F ((hs.1.perm _).mem_iff.mp he)
    refine ⟨hsf, ?_⟩
    rw [h]; exact uaxCompose_noPair _
  · rintro ⟨hsf, hn⟩
    rw [main hsf]
    rw [htext] at hn ⊢
    exact (compose_eq_uaxCompose_iff _).mpr hn

end U5e
