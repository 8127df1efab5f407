import Verif.Proofs.Size
/-! The number of codepoints of NFC: a grapheme has at most one codepoint that decomposes to four, and something in it
composes. -/
namespace U5e
open Data Spec

/-- A pair of neighbours that composes. -/
def HasPair (l : List Int) : Prop := ∃ p x y q, l = p ++ x :: y :: q ∧ (compResolve x y).isSome = true

theorem composeFrom_pair {a : Int} {l : List Int} (h : HasPair (a :: l)) :
    (composeFrom compResolve a l).length ≤ l.length := by
  induction l generalizing a with
  | nil =>
    obtain ⟨p, x, y, q, h, _⟩ := h
    have := congrArg List.length h
    simp at this; omega
  | cons b l ih =>
    rw [composeFrom]
    cases hc : compResolve a b with
    | some c =>
      have := sumOf_composeFrom (w := fun _ => 1) (fun _ _ _ _ => by omega) l c
      rw [sumOf_one, sumOf_one] at this
      simp only [List.length_cons]; omega
    | none =>
      obtain ⟨p, x, y, q, he, hxy⟩ := h
      simp only [List.length_cons]
      refine Nat.succ_le_succ (ih ?_)
      cases p with
      | nil =>
        simp only [List.nil_append, List.cons.injEq] at he
        obtain ⟨rfl, rfl, _⟩ := he
        rw [hc] at hxy; simp at hxy
      | cons z p =>
        simp only [List.cons_append, List.cons.injEq] at he
        exact ⟨p, x, y, q, he.2, hxy⟩

theorem compose_pair {l : List Int} (h : HasPair l) : (compose compResolve l).length + 1 ≤ l.length := by
  cases l with
  | nil => obtain ⟨p, x, y, q, h, _⟩ := h; simp at h
  | cons a l => exact Nat.succ_le_succ (composeFrom_pair h)

def isOther (v : GCB) : Bool := match v with
  | .OTHER => true
  | _ => false

theorem isOther_iff {v : GCB} : isOther v = true ↔ v = .OTHER := by cases v <;> decide

noncomputable def growRowOK : List Nat → Bool
  | [] => false
  | c :: m => match takeNZ m with
    | [x, y, z, t] => isOther (gcbT c) && (Nat.beq (cccT x) 0 && (Nat.beq (cccT y) 230 && (Nat.beq (cccT z) 230 &&
        (Nat.beq (cccT t) 240 && (compT x y).isSome))))
    | [x, y, _] => isOther (gcbT c) || (Nat.beq (cccT x) 0 && (Nat.beq (cccT y) 0 && (compT x y).isSome))
    | _ => true

set_option maxRecDepth 100000 in
theorem dec_grow_rows : decTree.all growRowOK = true := by decide +kernel

theorem grow_row {c : Int} (h : 3 ≤ (fullD c).length) : ∃ (n : Nat) (m : List Nat), c = n ∧
    fullD c = (takeNZ m).map Int.ofNat ∧ growRowOK (n :: m) = true := by
  by_cases h0 : c < 0
  · rw [show fullD c = full decResolve c from rfl, full_neg decResolve_neg c h0] at h; simp at h
  obtain ⟨n, rfl⟩ : ∃ n : Nat, c = n := ⟨c.toNat, by omega⟩
  cases hfn : decT n with
  | none =>
    rw [show fullD n = full decResolve n from rfl, full, decResolve_nat, hfn] at h; simp at h
  | some m =>
    refine ⟨n, m, rfl, ?_, row_of (fun _ => rfl) dec_grow_rows rfl hfn⟩
    rw [show fullD n = full decResolve n from rfl, full_nat decResolve_nat, fullT, hfn]

/-- Codepoints that decompose to four. -/
theorem grow_four {c : Int} (h : (fullD c).length = 4) : gcbResolve c = .OTHER ∧ ∃ x y z t, fullD c = [x, y, z, t] ∧
    cccResolve x = 0 ∧ cccResolve y = 230 ∧ cccResolve z = 230 ∧ cccResolve t = 240 ∧
    (compResolve x y).isSome = true := by
  obtain ⟨n, m, rfl, hm, hr⟩ := grow_row (c := c) (by omega)
  rw [hm] at h ⊢
  rw [growRowOK] at hr
  match hk : takeNZ m, h with
  | [x, y, z, t], _ =>
    rw [hk] at hr
    simp only [Bool.and_eq_true, isOther_iff, Nat.beq_eq] at hr
    obtain ⟨h1, h2, h3, h4, h5, h6⟩ := hr
    refine ⟨by rw [gcbResolve_nat]; exact h1, x, y, z, t, rfl, ?_, ?_, ?_, ?_, ?_⟩
    · rw [cccResolve_nat, h2]; rfl
    · rw [cccResolve_nat, h3]; rfl
    · rw [cccResolve_nat, h4]; rfl
    · rw [cccResolve_nat, h5]; rfl
    · rw [compResolve_nat]; simpa using h6

/-- Codepoints that decompose to three and continue a grapheme. -/
theorem grow_three {c : Int} (h : (fullD c).length = 3) (hc : gcbResolve c ≠ .OTHER) : ∃ x y z, fullD c = [x, y, z] ∧
    cccResolve x = 0 ∧ cccResolve y = 0 ∧ (compResolve x y).isSome = true := by
  obtain ⟨n, m, rfl, hm, hr⟩ := grow_row (c := c) (by omega)
  rw [hm] at h ⊢
  rw [growRowOK] at hr
  match hk : takeNZ m, h with
  | [x, y, z], _ =>
    rw [hk] at hr
    simp only [Bool.or_eq_true, Bool.and_eq_true, isOther_iff, Nat.beq_eq] at hr
    rcases hr with h1 | ⟨h2, h3, h4⟩
    · rw [gcbResolve_nat] at hc; exact absurd h1 hc
    refine ⟨x, y, z, rfl, ?_, ?_, ?_⟩
    · rw [cccResolve_nat, h2]; rfl
    · rw [cccResolve_nat, h3]; rfl
    · rw [compResolve_nat]; simpa using h4

/-! ### One codepoint of class Other in a grapheme -/

theorem noBreak_other_left {a b : Int} (h : isGraphemeBoundary a b = false)
    (hb : gcbResolve b = .OTHER ∨ gcbResolve b = .PREPEND) : gcbResolve a = .PREPEND := by
  revert h hb
  rw [isGraphemeBoundary]
  cases gcbResolve a <;> cases gcbResolve b <;> decide

theorem prepends_before {g : List Int} (hin : ∀ pre a b post, g = pre ++ a :: b :: post → isGraphemeBoundary a b = false)
    {p q : List Int} {e : Int} (hg : g = p ++ e :: q) (he : gcbResolve e = .OTHER ∨ gcbResolve e = .PREPEND) :
    ∀ x ∈ p, gcbResolve x = .PREPEND := by
  induction hn : p.length generalizing p e q with
  | zero => rw [List.length_eq_zero_iff.mp hn]; simp
  | succ n ih =>
    obtain ⟨p, y, rfl⟩ : ∃ p' y, p = p' ++ [y] := by
      rcases List.eq_nil_or_concat p with h | ⟨p', y, h⟩
      · rw [h] at hn; simp at hn
      · exact ⟨p', y, by simpa using h⟩
    have hy : gcbResolve y = .PREPEND := noBreak_other_left (hin p y e q (by rw [hg]; simp)) he
    intro x hx
    rcases List.mem_append.mp hx with hx | hx
    · exact ih (e := y) (q := e :: q) (by rw [hg]; simp) (.inr hy) (by simpa using hn) x hx
    · simp at hx; rw [hx]; exact hy

theorem no_other_after {g : List Int} (hin : ∀ pre a b post, g = pre ++ a :: b :: post → isGraphemeBoundary a b = false)
    {p q : List Int} {e : Int} (hg : g = p ++ e :: q) (he : gcbResolve e = .OTHER) :
    ∀ x ∈ q, gcbResolve x ≠ .OTHER := by
  intro x hx hxo
  obtain ⟨q1, q2, rfl⟩ := List.append_of_mem hx
  have := prepends_before hin (p := p ++ e :: q1) (q := q2) (e := x) (by rw [hg]; simp) (.inl hxo) e (by simp)
  rw [he] at this; simp at this

/-! ### Ordered lists begin with the starters -/

theorem sorted_starters {l : List Int} (h : CccSorted cccResolve l) :
    ∃ r, l = l.filter (fun y => cccResolve y == 0) ++ r := by
  induction l with
  | nil => exact ⟨[], rfl⟩
  | cons a l ih =>
    rw [CccSorted, List.pairwise_cons] at h
    by_cases ha : cccResolve a = 0
    · obtain ⟨r, hr⟩ := ih h.2
      refine ⟨r, ?_⟩
      rw [List.filter_cons_of_pos (by simpa using ha), List.cons_append, ← hr]
    · refine ⟨a :: l, ?_⟩
      have : (a :: l).filter (fun y => cccResolve y == 0) = [] := by
        rw [List.filter_eq_nil_iff]
        intro x hx
        have h1 := ccc_nonneg a
        rcases List.mem_cons.mp hx with rfl | hx
        · simpa using ha
        · have := h.1 x hx; simp; omega
      rw [this]; rfl

theorem flatMap_len_le {l : List Int} {k : Nat} (h : ∀ c ∈ l, (fullD c).length ≤ k) :
    (l.flatMap fullD).length ≤ k * l.length := by
  induction l with
  | nil => simp
  | cons a l ih =>
    have h1 := h a (by simp)
    have h2 := ih (fun c hc => h c (by simp [hc]))
    rw [List.flatMap_cons, List.length_append, List.length_cons, Nat.mul_succ]; omega

/-- A codepoint that decomposes to four: its decomposition is ordered, and begins with a pair. -/
theorem four_pair {sort : SortFn} (hs : StableSort sort) {e : Int} (h : (fullD e).length = 4) :
    HasPair (sort canonicalCombiningOrder (fullD e)) := by
  obtain ⟨_, x, y, z, t, he, hx, hy, hz, ht, hxy⟩ := grow_four h
  rw [stable_sorted hs (by
    rw [he, CccSorted]
    simp only [List.pairwise_cons, List.mem_cons, List.not_mem_nil, or_false, List.Pairwise.nil, and_true,
      false_imp_iff, implies_true, forall_eq_or_imp, forall_eq, and_self]
    omega)]
  exact ⟨[], x, y, [z, t], he, hxy⟩

/-- Starters that are neighbours in the decomposition stay so under a stable sort. -/
theorem stable_pair {sort : SortFn} (hs : StableSort sort) {p q : List Int} {x y : Int} (hx : cccResolve x = 0)
    (hy : cccResolve y = 0) (hxy : (compResolve x y).isSome = true) :
    HasPair (sort canonicalCombiningOrder (p ++ x :: y :: q)) := by
  obtain ⟨r, hr⟩ := sorted_starters (hs.1.sorted (p ++ x :: y :: q))
  rw [hr, stable_filter hs]
  refine ⟨p.filter (fun y => cccResolve y == 0), x, y, q.filter (fun y => cccResolve y == 0) ++ r, ?_, hxy⟩
  rw [List.filter_append, List.filter_cons_of_pos (by simpa using hx), List.filter_cons_of_pos (by simpa using hy)]
  simp

/-- NFC of one grapheme. -/
theorem nfc_grapheme_len {sort : SortFn} (hs : StableSort sort) {cs g : List Int} (hg : g ∈ graphemes cs) :
    (Form.C.result sort g).length ≤ 3 * g.length := by
  have hin : ∀ pre a b post, g = pre ++ a :: b :: post → isGraphemeBoundary a b = false := fun p a b q h => by
    simpa using (segments_isSegmentation isGraphemeBoundary cs).inside g hg p a b q h
  have hL : (sort canonicalCombiningOrder (g.flatMap fullD)).length = (g.flatMap fullD).length := (hs.1.perm _).length_eq
  have hle : (Form.C.result sort g).length ≤ (g.flatMap fullD).length := by
    rw [← hL]; exact compose_length_le _ _
  have hpair : HasPair (sort canonicalCombiningOrder (g.flatMap fullD)) →
      (Form.C.result sort g).length + 1 ≤ (g.flatMap fullD).length := by
    intro h; rw [← hL]; exact compose_pair h
  have hfew : ∀ c, (fullD c).length ≤ 4 := fun c => (Form.C.sizeFacts c).few
  by_cases h4 : ∃ e ∈ g, (fullD e).length = 4
  · obtain ⟨e, he, h4⟩ := h4
    obtain ⟨p, q, rfl⟩ := List.append_of_mem he
    have ho := (grow_four h4).1
    have hb := prepends_before hin rfl (.inl ho)
    have ha := no_other_after hin rfl ho
    have hother : ∀ c ∈ p ++ q, gcbResolve c ≠ .OTHER := by
      intro c hc
      rcases List.mem_append.mp hc with hc | hc
      · rw [hb c hc]; decide
      · exact ha c hc
    have h3 : ∀ c ∈ p ++ q, (fullD c).length ≤ 3 := by
      intro c hc
      have := hfew c
      have : (fullD c).length ≠ 4 := fun h => hother c hc (grow_four h).1
      omega
    have hsum : ((p ++ e :: q).flatMap fullD).length = 4 + ((p ++ q).flatMap fullD).length := by
      simp only [List.flatMap_append, List.flatMap_cons, List.length_append, h4]; omega
    have hlen : (p ++ e :: q).length = (p ++ q).length + 1 := by simp; omega
    have hk := flatMap_len_le h3
    by_cases h0 : p ++ q = []
    · obtain ⟨rfl, rfl⟩ := List.append_eq_nil_iff.mp h0
      have := hpair (by
        have := four_pair hs h4
        simpa using this)
      simp only [List.nil_append, List.flatMap_cons, List.flatMap_nil, List.append_nil, h4, List.length_cons,
        List.length_nil] at this ⊢
      omega
    · have hpos := List.length_pos_iff.mpr h0
      by_cases hx : ∃ c ∈ p ++ q, (fullD c).length = 3
      · obtain ⟨c, hc, hc3⟩ := hx
        obtain ⟨x, y, z, hf, hx0, hy0, hxy⟩ := grow_three hc3 (hother c hc)
        have hm : c ∈ p ++ e :: q := by
          rcases List.mem_append.mp hc with hc | hc <;> simp [hc]
        obtain ⟨u, v, huv⟩ := List.append_of_mem hm
        have := hpair (by
          rw [huv, List.flatMap_append, List.flatMap_cons, hf]
          exact stable_pair hs (p := u.flatMap fullD) (q := z :: v.flatMap fullD) hx0 hy0 hxy)
        omega
      · have := flatMap_len_le (l := p ++ q) (k := 2) (fun c hc => by
          have h1 := h3 c hc
          have : (fullD c).length ≠ 3 := fun h => hx ⟨c, hc, h⟩
          omega)
        omega
  · have := flatMap_len_le (l := g) (k := 3) (fun c hc => by
      have h1 := hfew c
      have : (fullD c).length ≠ 4 := fun h => h4 ⟨c, hc, h⟩
      omega)
    omega

/-- NFC of a text. -/
theorem nfc_text_len {sort : SortFn} (hs : StableSort sort) (cs : List Int) :
    (Form.C.text sort cs).length ≤ 3 * cs.length := by
  have key : ∀ gs : List (List Int), (∀ g ∈ gs, g ∈ graphemes cs) →
      (gs.flatMap (Form.C.result sort)).length ≤ 3 * gs.flatten.length := by
    intro gs
    induction gs with
    | nil => intro _; simp
    | cons g gs ih =>
      intro h
      have h1 := ih (fun x hx => h x (by simp [hx]))
      have h3 := nfc_grapheme_len hs (h g (by simp))
      rw [List.flatMap_cons, List.flatten_cons, List.length_append, List.length_append]
      omega
  have := key (graphemes cs) (fun _ h => h)
  rw [show (graphemes cs).flatten = cs from segments_flatten isGraphemeBoundary cs] at this
  exact this

end U5e
