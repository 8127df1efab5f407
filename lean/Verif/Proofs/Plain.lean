import Verif.Proofs.UaxComp
import Verif.Proofs.MixedFacts
import Verif.Spec.Plain
/-! Texts in which nothing joins: table facts by kernel evaluation, and what they mean for the forms. -/
namespace U5e
open Data Spec

/-- The classes that join to a neighbour. -/
def joinsB : GCB → Bool
  | .EXTEND | .SPACINGMARK | .ZWJ | .L | .V | .T | .PREPEND | .E_MODIFIER => true
  | _ => false

/-- The other classes that can share a grapheme with a neighbour: CR LF and flags. -/
def pairedB : GCB → Bool
  | .CR | .LF | .REGIONAL_INDICATOR => true
  | _ => false

theorem boundary_cases (a b : GCB) (ha : joinsB a = false) (hb : joinsB b = false)
    (h : boundaryOfClasses a b = false) : pairedB a = true ∧ pairedB b = true := by
  revert ha hb h; cases a <;> cases b <;> decide

/-- Greedy composition on the tree. -/
noncomputable def composeFromT (a : Nat) : List Nat → List Nat
  | [] => [a]
  | b :: l =>
    match compT a b with
    | some c => composeFromT c l
    | none => a :: composeFromT b l

theorem composeFromT_eq (l : List Nat) (a : Nat) :
    composeFrom compResolve (a : Int) (l.map Int.ofNat) = (composeFromT a l).map Int.ofNat := by
  induction l generalizing a with
  | nil => rfl
  | cons b l ih =>
    rw [List.map_cons, composeFrom, composeFromT]
    have : compResolve (a : Int) (Int.ofNat b) = (compT a b).map Int.ofNat := compResolve_nat a b
    rw [this]
    cases compT a b with
    | none =>
      simp only [Option.map_none, List.map_cons]
      rw [← ih b]; rfl
    | some c =>
      simp only [Option.map_some]
      exact ih c

/-- Conjoining vowels and trailing consonants. -/
def vtB (n : Nat) : Bool := Nat.ble 0x1161 n && Nat.ble n 0x11C2

/-- No two have a composite, none is a conjoining vowel or trailing consonant. -/
noncomputable def noPairsT : List Nat → Bool
  | [] => true
  | a :: l => l.all (fun b => !vtB b && (match compT a b with | none => true | some _ => false)) && noPairsT l

noncomputable def sortedT : List Nat → Bool
  | [] => true
  | a :: l => l.all (fun b => Nat.ble (cccT a) (cccT b)) && sortedT l

/-- Compatibility jamo and the syllables in parentheses. -/
def compatJamoB (n : Nat) : Bool := (Nat.ble 0x3131 n && Nat.ble n 0x318E) || (Nat.ble 0x320E n && Nat.ble n 0x321E)

/-- A row of a codepoint that does not join. -/
noncomputable def plainRowOK : List Nat → Bool
  | [] => false
  | k :: m =>
    !pairedB (gcbT k) && (joinsB (gcbT k) || (compatJamoB k && sortedT (takeNZ m) ||
      match takeNZ m with
      | [] => false
      | h :: t =>
        sortedT (h :: t) &&
        match composeFromT h t with
        | [] => false
        | a :: l => !joinsB (gcbT a) && noPairsT (a :: l)))

set_option maxRecDepth 100000 in
theorem dec_plain_rows : decTree.all plainRowOK = true := by decide +kernel
set_option maxRecDepth 100000 in
theorem kdec_plain_rows : kdecTree.all plainRowOK = true := by decide +kernel

set_option maxRecDepth 100000 in
theorem dec_no_compatJamo : decTree.all (fun r => match r with | [] => false | k :: _ => !compatJamoB k) = true := by
  decide +kernel

theorem vt_joins {n : Nat} (h : vtB n = true) : joinsB (gcbT n) = true := by
  have key : (List.range 98).all (fun i => joinsB (gcbT (0x1161 + i))) = true := by decide +kernel
  simp only [vtB, Bool.and_eq_true, Nat.ble_eq] at h
  have := List.all_eq_true.mp key (n - 0x1161) (List.mem_range.mpr (by omega))
  rwa [show 0x1161 + (n - 0x1161) = n by omega] at this

/-- A codepoint that does not join is a starter and not the second of a composition. -/
theorem plain_starter {c : Int} (h : joinsB (gcbResolve c) = false) : cccResolve c = 0 ∧ ∀ a, ucomp a c = none := by
  constructor
  · by_cases h0 : cccResolve c = 0
    · exact h0
    · rcases ccc_gcb h0 with h1 | h1 <;> rw [h1] at h <;> simp [joinsB] at h
  · intro a
    cases hu : ucomp a c with
    | none => rfl
    | some d =>
      exfalso
      rcases ucomp_cases hu with hh | ⟨_, hh⟩
      · have h3 := hangulComposition_second hh
        obtain ⟨n, rfl⟩ : ∃ n : Nat, c = n := ⟨c.toNat, by omega⟩
        rw [gcbResolve_nat, vt_joins (by simp only [vtB, Bool.and_eq_true, Nat.ble_eq]; omega)] at h
        simp at h
      · have := (comp_facts hh).gcb2
        revert this h; cases gcbResolve c <;> simp [isMark, joinsB]

/-- No two elements have a composite. -/
def NoComposites (l : List Int) : Prop := l.Pairwise fun a b => ucomp a b = none

theorem noPairsT_iff (l : List Nat) (h : noPairsT l = true) : NoComposites (l.map Int.ofNat) := by
  induction l with
  | nil => exact List.Pairwise.nil
  | cons a l ih =>
    simp only [noPairsT, Bool.and_eq_true, List.all_eq_true] at h
    refine List.Pairwise.cons ?_ (ih h.2)
    intro b hb
    obtain ⟨n, hn, rfl⟩ := List.mem_map.mp hb
    have := h.1 n hn
    simp only [Bool.not_eq_true'] at this
    cases hu : ucomp (Int.ofNat a) (Int.ofNat n) with
    | none => rfl
    | some d =>
      exfalso
      rcases ucomp_cases hu with hh | ⟨_, hh⟩
      · have h3 := hangulComposition_second hh
        have hv : vtB n = true := by
          simp only [vtB, Bool.and_eq_true, Nat.ble_eq]
          simp only [Int.ofNat_eq_natCast] at h3; omega
        rw [hv] at this; simp at this
      · have e : compResolve (Int.ofNat a) (Int.ofNat n) = (compT a n).map Int.ofNat := compResolve_nat a n
        rw [e] at hh
        cases hc : compT a n with
        | none => rw [hc] at hh; simp at hh
        | some x => rw [hc] at this; simp at this

theorem sortedT_iff (l : List Nat) (h : sortedT l = true) : CccSorted cccResolve (l.map Int.ofNat) := by
  induction l with
  | nil => exact List.Pairwise.nil
  | cons a l ih =>
    simp only [sortedT, Bool.and_eq_true, List.all_eq_true] at h
    refine List.Pairwise.cons ?_ (ih h.2)
    intro b hb
    obtain ⟨n, hn, rfl⟩ := List.mem_map.mp hb
    have := h.1 n hn
    rw [Nat.ble_eq] at this
    have e1 : cccResolve (Int.ofNat a) = cccT a := cccResolve_nat a
    have e2 : cccResolve (Int.ofNat n) = cccT n := cccResolve_nat n
    rw [e1, e2]; omega

/-- What a form makes of one codepoint, or of one grapheme, that does not join: it begins with a starter that nothing
composes with and contains no two codepoints that compose. -/
def GoodBlock (l : List Int) : Prop := (∃ a r, l = a :: r ∧ joinsB (gcbResolve a) = false) ∧ NoComposites l

theorem plain_row {map : Int → Option (List Int)} {f : Nat → Option (List Nat)} {tr : Tree (List Nat)}
    (hn : ∀ c : Nat, map c = (f c).map (·.map Int.ofNat)) (hneg : ∀ c : Int, c < 0 → map c = none)
    (hf : ∀ c, f c = (tr.find (cmpN c)).map List.tail) (hrows : tr.all plainRowOK = true)
    {c : Int} (hj : joinsB (gcbResolve c) = false) :
    CccSorted cccResolve (full map c) ∧ (pairedB (gcbResolve c) = true → full map c = [c]) ∧
      ((∀ n : Nat, c = n → compatJamoB n = false ∨ f n = none) → GoodBlock (compose compResolve (full map c))) := by
  have hself : map c = none → CccSorted cccResolve (full map c) ∧
      (pairedB (gcbResolve c) = true → full map c = [c]) ∧
      ((∀ n : Nat, c = n → compatJamoB n = false ∨ f n = none) → GoodBlock (compose compResolve (full map c))) := by
    intro h
    have e : full map c = [c] := by rw [full, h]
    rw [e]
    refine ⟨?_, fun _ => rfl, fun _ => ⟨⟨c, [], rfl, hj⟩, ?_⟩⟩
    · exact List.pairwise_singleton _ _
    · exact List.pairwise_singleton _ _
  by_cases h0 : c < 0
  · exact hself (hneg c h0)
  obtain ⟨n, rfl⟩ : ∃ n : Nat, c = n := ⟨c.toNat, by omega⟩
  cases hfn : f n with
  | none => exact hfn ▸ hself (by rw [hn, hfn]; rfl)
  | some m =>
    have hrow := row_of hf hrows rfl hfn
    rw [full_nat hn, fullT, hfn]
    rw [gcbResolve_nat] at hj ⊢
    simp only [plainRowOK, hj, Bool.false_or, Bool.and_eq_true, Bool.or_eq_true, Bool.not_eq_true'] at hrow
    obtain ⟨h1, h2⟩ := hrow
    simp only
    refine ⟨?_, fun h => by rw [h1] at h; simp at h, ?_⟩
    · rcases h2 with ⟨_, h2⟩ | h2
      · exact sortedT_iff _ h2
      · cases ht : takeNZ m with
        | nil => rw [ht] at h2; simp at h2
        | cons h t => rw [ht] at h2; simp only [Bool.and_eq_true] at h2; exact sortedT_iff _ h2.1
    · intro hc
      have hc0 : compatJamoB n = false := by
        rcases hc n rfl with h | h
        · exact h
        · first | (cases h; done) | (rw [hfn] at h; cases h)
      rcases h2 with ⟨h2, _⟩ | h2
      · rw [hc0] at h2; simp at h2
      · cases ht : takeNZ m with
        | nil => rw [ht] at h2; simp at h2
        | cons h t =>
          rw [ht] at h2; simp only [Bool.and_eq_true] at h2
          obtain ⟨_, h2⟩ := h2
          have e : compose compResolve ((h :: t).map Int.ofNat) = (composeFromT h t).map Int.ofNat :=
            composeFromT_eq t h
          rw [e]
          cases hr : composeFromT h t with
          | nil => rw [hr] at h2; simp at h2
          | cons a l =>
            rw [hr] at h2; simp only [Bool.and_eq_true, Bool.not_eq_true'] at h2
            refine ⟨⟨Int.ofNat a, l.map Int.ofNat, rfl, ?_⟩, noPairsT_iff _ h2.2⟩
            have : gcbResolve (Int.ofNat a) = gcbT a := gcbResolve_nat a
            rw [this]; exact h2.1

/-- A concatenation of good blocks has no unblocked pair. -/
theorem good_noPair (bs : List (List Int)) (h : ∀ b ∈ bs, GoodBlock b) :
    ¬ HasUnblockedPair cccResolve ucomp bs.flatten := by
  induction bs with
  | nil => rintro ⟨p, s, mid, c, q, he, _⟩; simp at he
  | cons b bs ih =>
    rintro ⟨p, s, mid, c, q, he, hs0, hu, hne⟩
    rw [List.flatten_cons] at he
    have hb := (h b (by simp)).2
    rcases List.append_eq_append_iff.mp he with ⟨x, hx1, hx2⟩ | ⟨x, hx1, hx2⟩
    · -- the pair is after the block
      exact ih (fun b' hb' => h b' (by simp [hb'])) ⟨x, s, mid, c, q, hx2, hs0, hu, hne⟩
    · cases x with
      | nil =>
        rw [List.nil_append] at hx2
        exact ih (fun b' hb' => h b' (by simp [hb'])) ⟨[], s, mid, c, q, hx2.symm, hs0, hu, hne⟩
      | cons y x =>
        rw [List.cons_append, List.cons.injEq] at hx2
        obtain ⟨rfl, hx2⟩ := hx2
        rcases List.append_eq_append_iff.mp hx2 with ⟨z, hz1, hz2⟩ | ⟨z, hz1, hz2⟩
        · cases z with
          | nil =>
            -- `c` begins the next block
            rw [List.nil_append] at hz2
            cases bs with
            | nil => simp at hz2
            | cons b' bs =>
              obtain ⟨⟨a, r, rfl, ha⟩, _⟩ := h b' (by simp)
              simp only [List.flatten_cons, List.cons_append, List.cons.injEq] at hz2
              rw [hz2.1] at hne
              exact hne ((plain_starter ha).2 s)
          | cons w z =>
            rw [List.cons_append, List.cons.injEq] at hz2
            obtain ⟨rfl, hz2⟩ := hz2
            -- both are inside the block
            rw [hx1, hz1] at hb
            have hb1 := (List.pairwise_append.mp hb).2.1
            exact hne ((List.pairwise_cons.mp hb1).1 c (by simp))
        · cases z with
          | nil =>
            rw [List.append_nil] at hz1
            rw [List.nil_append] at hz2
            cases bs with
            | nil => simp at hz2
            | cons b' bs =>
              obtain ⟨⟨a, r, rfl, ha⟩, _⟩ := h b' (by simp)
              simp only [List.flatten_cons, List.cons_append, List.cons.injEq] at hz2
              rw [← hz2.1] at hne
              exact hne ((plain_starter ha).2 s)
          | cons w z =>
            -- the next block begins between them
            cases bs with
            | nil => simp at hz2
            | cons b' bs =>
              obtain ⟨⟨a, r, rfl, ha⟩, _⟩ := h b' (by simp)
              simp only [List.flatten_cons, List.cons_append, List.cons.injEq] at hz2
              have := hu w (by rw [hz1]; simp)
              rw [← hz2.1, (plain_starter ha).1] at this
              omega

theorem joinsB_iff (v : GCB) : joinsB v = false ↔ ¬ Joins v := by cases v <;> decide

theorem compatJamoB_iff (n : Nat) : compatJamoB n = true ↔ IsCompatJamo n := by
  simp only [compatJamoB, IsCompatJamo, Bool.or_eq_true, Bool.and_eq_true, Nat.ble_eq]; omega

theorem Form.plain_row (F : Form) {c : Int} (hj : joinsB (gcbResolve c) = false) :
    CccSorted cccResolve (full F.map c) ∧ (pairedB (gcbResolve c) = true → full F.map c = [c]) ∧
      ((F.base = .D ∨ ¬ IsCompatJamo c) → GoodBlock (compose compResolve (full F.map c))) := by
  have hD : ∀ {c : Int}, joinsB (gcbResolve c) = false → CccSorted cccResolve (full decResolve c) ∧
      (pairedB (gcbResolve c) = true → full decResolve c = [c]) ∧
      GoodBlock (compose compResolve (full decResolve c)) := by
    intro c hj
    obtain ⟨h1, h2, h3⟩ := U5e.plain_row decResolve_nat decResolve_neg (f := decT) (fun _ => rfl) dec_plain_rows hj
    refine ⟨h1, h2, h3 fun n _ => ?_⟩
    cases hf : decT n with
    | none => exact .inr rfl
    | some m =>
      have := row_of (f := decT) (tr := decTree) (fun _ => rfl) dec_no_compatJamo rfl hf
      left; simpa using this
  have hK : ∀ {c : Int}, joinsB (gcbResolve c) = false → CccSorted cccResolve (full kdecResolve c) ∧
      (pairedB (gcbResolve c) = true → full kdecResolve c = [c]) ∧
      (¬ IsCompatJamo c → GoodBlock (compose compResolve (full kdecResolve c))) := by
    intro c hj
    obtain ⟨h1, h2, h3⟩ := U5e.plain_row kdecResolve_nat kdecResolve_neg (f := kdecT) (fun _ => rfl) kdec_plain_rows hj
    refine ⟨h1, h2, fun hc => h3 fun n hn => ?_⟩
    left
    subst hn
    rw [← compatJamoB_iff] at hc
    simpa using hc
  cases F
  · exact ⟨(hD hj).1, (hD hj).2.1, fun _ => (hD hj).2.2⟩
  · exact ⟨(hD hj).1, (hD hj).2.1, fun _ => (hD hj).2.2⟩
  · refine ⟨(hK hj).1, (hK hj).2.1, fun h => (hK hj).2.2 ?_⟩
    rcases h with h | h
    · simp [Form.base] at h
    · exact h
  · refine ⟨(hK hj).1, (hK hj).2.1, fun h => (hK hj).2.2 ?_⟩
    rcases h with h | h
    · simp [Form.base] at h
    · exact h

theorem forall_of_pairs {P : Int → Prop} {g : List Int} (h2 : 2 ≤ g.length)
    (h : ∀ pre a b post, g = pre ++ a :: b :: post → P a ∧ P b) : ∀ c ∈ g, P c := by
  intro c hc
  obtain ⟨s, t, rfl⟩ := List.append_of_mem hc
  cases t with
  | cons b t => exact (h s c b t rfl).1
  | nil =>
    have hs : s ≠ [] := by rintro rfl; simp at h2
    exact (h s.dropLast (s.getLast hs) c [] (by
      conv => lhs; rw [← List.dropLast_concat_getLast hs]
      simp)).2

/-- A grapheme of such a text is one codepoint, or CR LF or flags. -/
theorem plain_grapheme {cs : List Int} (h : ∀ c ∈ cs, joinsB (gcbResolve c) = false) {g : List Int}
    (hg : g ∈ graphemes cs) : (∃ c ∈ cs, g = [c]) ∨
      (g ≠ [] ∧ ∀ c ∈ g, joinsB (gcbResolve c) = false ∧ pairedB (gcbResolve c) = true) := by
  have S := segments_isSegmentation isGraphemeBoundary cs
  have hsub : ∀ c ∈ g, c ∈ cs := by
    intro c hc
    rw [← S.concat]; exact List.mem_flatten.mpr ⟨g, hg, hc⟩
  match g, hg, hsub with
  | [], hg, _ => exact absurd rfl (S.nonempty _ hg)
  | [c], _, hsub => exact .inl ⟨c, hsub c (by simp), rfl⟩
  | a :: b :: r, hg, hsub =>
    refine .inr ⟨by simp, fun c hc => ⟨h c (hsub c hc), ?_⟩⟩
    refine forall_of_pairs (P := fun c => pairedB (gcbResolve c) = true) (by simp) ?_ c hc
    intro pre x y post he
    have := S.inside _ hg pre x y post he
    refine boundary_cases _ _ (h x (hsub x ?_)) (h y (hsub y ?_)) (by simpa [isGraphemeBoundary] using this)
    · rw [he]; simp
    · rw [he]; simp

theorem composeFrom_none {comp : Int → Int → Option Int} (l : List Int) (a : Int)
    (h : ∀ b ∈ l, ∀ x, comp x b = none) : composeFrom comp a l = a :: l := by
  induction l generalizing a with
  | nil => rfl
  | cons b l ih =>
    rw [composeFrom, h b (by simp) a]
    simp only
    rw [ih b (fun x hx => h x (by simp [hx]))]

theorem flatMap_self {f : Int → List Int} {l : List Int} (h : ∀ c ∈ l, f c = [c]) : l.flatMap f = l := by
  induction l with
  | nil => rfl
  | cons a l ih =>
    rw [List.flatMap_cons, h a (by simp), ih (fun c hc => h c (by simp [hc]))]; rfl

theorem Form.plain_sorted (F : Form) {cs : List Int} (h : ∀ c ∈ cs, joinsB (gcbResolve c) = false) {g : List Int}
    (hg : g ∈ graphemes cs) : CccSorted cccResolve (g.flatMap (full F.map)) := by
  rcases plain_grapheme h hg with ⟨c, hc, rfl⟩ | ⟨_, hp⟩
  · have := (F.plain_row (h c hc)).1
    simpa using this
  · rw [flatMap_self (fun c hc => (F.plain_row (hp c hc).1).2.1 (hp c hc).2)]
    refine List.pairwise_iff_forall_sublist.mpr ?_
    intro a b hab
    rw [(plain_starter (hp a (hab.subset (by simp))).1).1, (plain_starter (hp b (hab.subset (by simp))).1).1]
    exact Int.le_refl 0

theorem Form.plain_good (F : Form) {cs : List Int} (h : ∀ c ∈ cs, joinsB (gcbResolve c) = false)
    (hk : F.base = .D ∨ ∀ c ∈ cs, ¬ IsCompatJamo c) {g : List Int} (hg : g ∈ graphemes cs) :
    GoodBlock (compose compResolve (g.flatMap (full F.map))) := by
  rcases plain_grapheme h hg with ⟨c, hc, rfl⟩ | ⟨hne, hp⟩
  · have := (F.plain_row (h c hc)).2.2 (hk.imp id fun hk => hk c hc)
    simpa using this
  · rw [flatMap_self (fun c hc => (F.plain_row (hp c hc).1).2.1 (hp c hc).2)]
    cases g with
    | nil => exact absurd rfl hne
    | cons a l =>
      rw [compose, composeFrom_none l a (fun b hb x =>
        comp_none_of_ucomp ((plain_starter (hp b (by simp [hb])).1).2 x))]
      refine ⟨⟨a, l, rfl, (hp a (by simp)).1⟩, ?_⟩
      refine List.pairwise_iff_forall_sublist.mpr ?_
      intro x y hxy
      exact (plain_starter (hp y (hxy.subset (by simp))).1).2 x

theorem startersFirst_of_sorted {l : List Int} (h : CccSorted cccResolve l) : StartersFirst cccResolve l := by
  refine List.Pairwise.imp ?_ h
  intro a b hab ha
  have := ccc_nonneg a
  omega

theorem Form.plain_noPair (F : Form) (hF : F.post = compose compResolve) {sort : SortFn} (hs : StableSort sort)
    {cs : List Int} (h : ∀ c ∈ cs, joinsB (gcbResolve c) = false)
    (hk : F.base = .D ∨ ∀ c ∈ cs, ¬ IsCompatJamo c) :
    ¬ HasUnblockedPair cccResolve ucomp (F.text sort cs) := by
  rw [Form.text, List.flatMap_def]
  refine good_noPair _ fun b hb => ?_
  obtain ⟨g, hg, rfl⟩ := List.mem_map.mp hb
  rw [Form.result, hF, decompose, stable_sorted hs (F.plain_sorted h hg)]
  exact F.plain_good h hk hg

theorem graphemes_single (c : Int) : graphemes [c] = [[c]] := rfl

theorem flatMap_graphemes {f : Int → List Int} {r : List Int → List Int} {gs : List (List Int)}
    (h : ∀ g ∈ gs, r g = g.flatMap f) : gs.flatMap r = gs.flatten.flatMap f := by
  induction gs with
  | nil => rfl
  | cons g gs ih =>
    rw [List.flatMap_cons, List.flatten_cons, List.flatMap_append, h g (by simp),
      ih (fun x hx => h x (by simp [hx]))]

theorem Form.post_self (F : Form) {l : List Int} (h : ∀ b ∈ l, ∀ x, ucomp x b = none) : F.post l = l := by
  have : compose compResolve l = l := by
    cases l with
    | nil => rfl
    | cons a l =>
      exact composeFrom_none l a fun b hb x => comp_none_of_ucomp (h b (by simp [hb]) x)
  cases F
  · rfl
  · exact this
  · rfl
  · exact this

theorem Form.plain_piecewise (F : Form) {sort : SortFn} (hs : StableSort sort) {cs : List Int}
    (h : ∀ c ∈ cs, joinsB (gcbResolve c) = false) :
    F.text sort cs = cs.flatMap (fun c => F.post (full F.map c)) := by
  have hc : (graphemes cs).flatten = cs := segments_flatten isGraphemeBoundary cs
  rw [Form.text]
  conv => rhs; rw [← hc]
  refine flatMap_graphemes fun g hg => ?_
  rw [Form.result, decompose, stable_sorted hs (F.plain_sorted h hg)]
  rcases plain_grapheme h hg with ⟨c, hc, rfl⟩ | ⟨hne, hp⟩
  · simp
  · have h1 : ∀ c ∈ g, full F.map c = [c] := fun c hc => (F.plain_row (hp c hc).1).2.1 (hp c hc).2
    have h2 : ∀ c ∈ g, ∀ x, ucomp x c = none := fun c hc => (plain_starter (hp c hc).1).2
    rw [flatMap_self h1, F.post_self h2, flatMap_self]
    intro c hc
    rw [h1 c hc]
    exact F.post_self (by simpa using h2 c hc)

end U5e
