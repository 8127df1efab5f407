import Verif.Proofs.MixedText
/-! The exact condition under which NFD maps graphemes to graphemes. -/
namespace U5e
open Spec

/-- Emoji modifiers are kept together with the starter before them. -/
def ModSep (l : List Int) : Prop :=
  ∀ p a q m r, l = p ++ a :: (q ++ m :: r) → cccResolve a = 0 → (∀ x ∈ q, cccResolve x ≠ 0) →
    gcbResolve m = .E_MODIFIER → isGraphemeBoundary a m = false

theorem filter_next {α : Type} {f : α → Bool} {l u v : List α} {a b : α} (h : l.filter f = u ++ a :: b :: v) :
    ∃ P Q R, l = P ++ a :: (Q ++ b :: R) ∧ f a = true ∧ ∀ x ∈ Q, f x = false := by
  obtain ⟨l1, l2, rfl, _, h2⟩ := List.filter_eq_append_iff.mp h
  obtain ⟨l3, l4, rfl, _, ha, h4⟩ := List.filter_eq_cons_iff.mp h2
  obtain ⟨l5, l6, rfl, h5, _, _⟩ := List.filter_eq_cons_iff.mp h4
  exact ⟨l1 ++ l3, l5, l6, by simp, ha, fun x hx => by simpa using h5 x hx⟩

/-- A sorted list is its starters followed by the rest. -/
theorem sorted_split {l : List Int} (h : CccSorted cccResolve l) :
    ∃ r, l = l.filter (fun y => cccResolve y == 0) ++ r := by
  induction l with
  | nil => exact ⟨[], rfl⟩
  | cons a l ih =>
    rw [CccSorted, List.pairwise_cons] at h
    by_cases ha : cccResolve a = 0
    · obtain ⟨r, hr⟩ := ih h.2
      rw [List.filter_cons_of_pos (by simpa using ha)]
      exact ⟨r, by rw [List.cons_append, ← hr]⟩
    · refine ⟨a :: l, ?_⟩
      rw [List.filter_eq_nil_iff.mpr]
      · rfl
      · intro x hx
        have h0 := ccc_nonneg a
        rcases List.mem_cons.mp hx with rfl | hx
        · simpa using ha
        · have := h.1 x hx
          simp; omega

/-- What holds between neighbours of the decomposition of a grapheme without controls. -/
def UnbrokenM (a b : Int) : Prop :=
  isPlain (gcbResolve b) = true → gcbResolve b ≠ .E_MODIFIER → isGraphemeBoundary a b = false ∧ cccResolve a = 0

theorem adj_marksM {h : Int} {t : List Int} (ht : ∀ x ∈ t, isPlain (gcbResolve x) = false) : Adj UnbrokenM (h :: t) := by
  induction t generalizing h with
  | nil => trivial
  | cons b t ih =>
    refine adj_cons.mpr ⟨?_, ih fun x hx => ht x (by simp [hx])⟩
    rintro x hx hp
    simp at hx; subst hx
    rw [ht b (by simp)] at hp; simp at hp

theorem fullD_unbrokenM (c : Int) : Adj UnbrokenM (fullD c) := by
  cases hm : decResolve c with
  | none => rw [factsD.none_ hm]; trivial
  | some m =>
    obtain ⟨h, t, he, h1, h2, h3, h4, h5, _⟩ := dec_shape hm
    rw [he]
    exact adj_marksM fun x hx => mark_not_plain (h5 x hx)

theorem join_unbrokenM {c d : Int} (hb : isGraphemeBoundary c d = false) :
    UnbrokenM (Form.D.ls c) (Form.D.hd d) := by
  intro hp hnm
  have hpd := (hdD_class d).2 hp
  have hcl := (hdD_class d).1 hpd
  have hno : isOES (gcbResolve c) = false := by
    cases ho : isOES (gcbResolve c) with
    | false => rfl
    | true => exact absurd (by rw [hcl]; exact ((plain_break hpd ho).mp hb).2) hnm
  have hcd : decResolve c = none := by
    cases hm : decResolve c with
    | none => rfl
    | some m =>
      obtain ⟨h, t, he, h1, _⟩ := dec_shape hm
      rw [hno] at h1; simp at h1
  have hl : Form.D.ls c = c := by
    rw [Form.ls, show full Form.D.map c = [c] from factsD.none_ hcd]; rfl
  rw [hl]
  refine ⟨by rw [isGraphemeBoundary, hcl]; exact hb, ?_⟩
  by_cases h0 : cccResolve c = 0
  · exact h0
  · rcases ccc_gcb h0 with h1 | h1 <;> rw [h1] at hno <;> simp [isOES] at hno

theorem decompose_unbrokenM {g : List Int} (hg : Adj (fun a b => isGraphemeBoundary a b = false) g) :
    Adj UnbrokenM (decompose decResolve g) := by
  rw [decompose, adj_flatMap factsD.ne_nil]
  refine ⟨fun x _ => fullD_unbrokenM x, adj_iff.mpr ?_⟩
  rintro p a b q he x y hx hy
  rw [show full decResolve a = full Form.D.map a from rfl, Form.D.last_full] at hx
  rw [show full decResolve b = full Form.D.map b from rfl, Form.D.head_full] at hy
  cases hx; cases hy
  exact join_unbrokenM (adj_iff.mp hg p a b q he)

theorem first_starterM {l : List Int} (h : Adj UnbrokenM l) {b : Int}
    (hb : (l.filter (fun y => cccResolve y == 0)).head? = some b) (hp : isPlain (gcbResolve b) = true)
    (hm : gcbResolve b ≠ .E_MODIFIER) : l.head? = some b := by
  induction l with
  | nil => simp at hb
  | cons a l ih =>
    rw [adj_cons] at h
    by_cases ha : cccResolve a = 0
    · rw [List.filter_cons_of_pos (by simpa using ha)] at hb; simpa using hb
    · rw [List.filter_cons_of_neg (by simpa using ha)] at hb
      exact absurd (h.1 b (ih h.2 hb) hp hm).2 ha

theorem filter_unbrokenM {l : List Int} (h : Adj UnbrokenM l) :
    Adj (fun a b => isPlain (gcbResolve b) = true → gcbResolve b ≠ .E_MODIFIER → isGraphemeBoundary a b = false)
      (l.filter (fun y => cccResolve y == 0)) := by
  induction l with
  | nil => trivial
  | cons a l ih =>
    rw [adj_cons] at h
    by_cases ha : cccResolve a = 0
    · rw [List.filter_cons_of_pos (by simpa using ha), adj_cons]
      refine ⟨?_, ih h.2⟩
      intro b hb hp hm
      exact (h.1 b (first_starterM h.2 hb hp hm) hp hm).1
    · rw [List.filter_cons_of_neg (by simpa using ha)]; exact ih h.2

theorem sort_unbrokenM {sort : SortFn} (hs : StableSort sort) {l : List Int} (h : Adj UnbrokenM l) (hsep : ModSep l)
    (hnc : ∀ x ∈ l, isCtl (gcbResolve x) = false) :
    Adj (fun a b => isGraphemeBoundary a b = false) (sort canonicalCombiningOrder l) := by
  refine adj_iff.mpr ?_
  intro p a b q he
  have ha : a ∈ l := (hs.1.perm l).mem_iff.mp (by rw [he]; simp)
  cases hp : isPlain (gcbResolve b) with
  | false => exact nobreak_mark (hnc a ha) hp
  | true =>
    have hb0 := plain_ccc hp
    have hsort := hs.1.sorted l
    rw [he] at hsort
    have hle : ∀ x ∈ p ++ [a], cccResolve x = 0 := by
      intro x hx
      rw [show p ++ a :: b :: q = (p ++ [a]) ++ b :: q by simp, CccSorted, List.pairwise_append] at hsort
      have := hsort.2.2 x hx b (by simp)
      have := ccc_nonneg x
      omega
    have hf := stable_filter hs l 0
    rw [he, show p ++ a :: b :: q = (p ++ [a]) ++ b :: q by simp, List.filter_append,
      List.filter_eq_self.mpr (by intro x hx; simpa using hle x hx),
      List.filter_cons_of_pos (by simpa using hb0)] at hf
    by_cases hm : gcbResolve b = .E_MODIFIER
    · obtain ⟨P, Q, R, h1, h2, h3⟩ := filter_next (u := p) (a := a) (b := b) (by rw [← hf, List.append_assoc]; rfl)
      exact hsep P a Q b R h1 (by simpa using h2) (fun x hx => by simpa using h3 x hx) hm
    · have := filter_unbrokenM h
      rw [← hf, List.append_assoc] at this
      exact adj_iff.mp this p a b _ rfl hp hm

theorem block_ctl {sort : SortFn} (hs : StableSort sort) {k : List Int} (hc : ∀ x ∈ k, isCtl (gcbResolve x) = true) :
    Form.D.block sort k = k := by
  have hd : decompose Form.D.map k = k := decompose_id fun x hx => factsD.ctl (hc x hx)
  rw [Form.block, hd, stable_sorted hs]
  refine List.pairwise_iff_forall_sublist.mpr ?_
  intro a b hab
  rw [ctl_ccc (hc a (hab.subset (by simp))), ctl_ccc (hc b (hab.subset (by simp)))]; omega

/-- No emoji modifier begins a grapheme after one whose normal form ends in Extend. -/
def SeamOk (sort : SortFn) (gs : List (List Int)) : Prop :=
  ∀ p g m h r, gs = p ++ g :: (m :: h) :: r → gcbResolve m = .E_MODIFIER →
    ∀ y, (Form.D.block sort g).getLast? = some y → gcbResolve y ≠ .EXTEND

theorem graphemes_nfd_exact {sort : SortFn} (hs : StableSort sort) {cs : List Int} :
    graphemes (Form.D.text sort cs) = (graphemes cs).map (Form.D.block sort) ↔
      (∀ g ∈ graphemes cs, ModSep (decompose decResolve g)) ∧ SeamOk sort (graphemes cs) := by
  have seg := segments_isSegmentation isGraphemeBoundary cs
  constructor
  · intro he
    have seg' := segments_isSegmentation isGraphemeBoundary (Form.D.text sort cs)
    rw [show segments isGraphemeBoundary (Form.D.text sort cs) = graphemes (Form.D.text sort cs) from rfl, he] at seg'
    constructor
    · intro g hg p a q m r hd ha hq hm
      have hblk : ∃ w z, Form.D.block sort g = w ++ a :: m :: z := by
        obtain ⟨z, hz⟩ := sorted_split (hs.1.sorted (decompose Form.D.map g))
        rw [stable_filter hs, show decompose Form.D.map g = _ from hd, List.filter_append,
          List.filter_cons_of_pos (by simpa using ha), List.filter_append,
          show q.filter (fun y => cccResolve y == 0) = [] from List.filter_eq_nil_iff.mpr (fun x hx => by simpa using hq x hx),
          List.filter_cons_of_pos (by simpa using plain_ccc (c := m) (by rw [hm]; rfl))] at hz
        refine ⟨p.filter fun y => cccResolve y == 0, (r.filter fun y => cccResolve y == 0) ++ z, ?_⟩
        · rw [Form.block, show decompose Form.D.map g = _ from hd, hz]; simp
      obtain ⟨w, z, hwz⟩ := hblk
      have := seg'.inside _ (List.mem_map_of_mem hg) w a m z hwz
      simpa using this
    · intro p g m h r hgs hm y hy hext
      rcases Form.D.junction hs hgs with ⟨hb, hall⟩ | ⟨c1, h'', e1, hpl, hhd⟩
      · rw [hb] at hy
        have := hall y (List.mem_of_getLast? hy)
        rw [hext] at this; simp [isCtl] at this
      · cases e1
        have hcl := (hdD_class m).1 hpl
        have := seg'.between (p.map _) _ _ (r.map _) (by rw [hgs]; simp; rfl) y _ hy hhd
        rw [(plain_break (by rw [hcl]; exact hpl) (by rw [hext]; rfl)).mpr ⟨hext, by rw [hcl]; exact hm⟩] at this
        simp at this
  · rintro ⟨hsep, hseam⟩
    have hadj : ∀ g ∈ graphemes cs, Adj (fun a b => isGraphemeBoundary a b = false) g := fun g hg => grapheme_adj hg
    symm
    refine isSegmentation_unique _ _ _ ⟨?_, ?_, ?_, ?_⟩
    · rw [show Form.D.text sort cs = Form.D.base.text sort cs from rfl, Form.D.base_text, List.flatMap_def]
    · intro w hw
      obtain ⟨g, hg, rfl⟩ := List.mem_map.mp hw
      exact Form.D.block_ne_nil hs.1 (seg.nonempty g hg)
    · intro w hw pre a b post he
      obtain ⟨g, hg, rfl⟩ := List.mem_map.mp hw
      have : Adj (fun a b => isGraphemeBoundary a b = false) (Form.D.block sort g) := by
        rcases ctl_dichotomy (hadj g hg) with hc | hc
        · rw [block_ctl hs hc]; exact hadj g hg
        · refine sort_unbrokenM hs (decompose_unbrokenM (hadj g hg)) (hsep g hg) ?_
          intro x hx
          obtain ⟨c, hcg, hx⟩ := List.mem_flatMap.mp hx
          exact fullD_noctl (hc c hcg) hx
      have := adj_iff.mp this pre a b post he
      simp [this]
    · intro p u v q he a b ha hb
      obtain ⟨l1, l2, h1, h2, h3⟩ := List.map_eq_append_iff.mp he
      obtain ⟨g, l3, rfl, rfl, h4⟩ := List.map_eq_cons_iff.mp h3
      obtain ⟨h, l4, rfl, rfl, h5⟩ := List.map_eq_cons_iff.mp h4
      have hg : g ∈ graphemes cs := by rw [h1]; simp
      have hh : h ∈ graphemes cs := by rw [h1]; simp
      have hgne := seg.nonempty g hg
      cases hl : g.getLast? with
      | none => exact absurd (List.getLast?_eq_none_iff.mp hl) hgne
      | some p0 =>
      have hp0 := List.mem_of_getLast? hl
      cases h with
      | nil => exact absurd rfl (seg.nonempty [] hh)
      | cons c0 h' =>
      have hbrk := seg.between l1 g (c0 :: h') l4 h1 p0 c0 hl rfl
      rcases ctl_dichotomy (hadj g hg) with hc | hc
      · rw [block_ctl hs hc, hl] at ha
        cases ha
        rcases ctl_dichotomy (hadj _ hh) with hc' | hc'
        · rw [block_ctl hs hc'] at hb
          simp at hb; subst hb; exact hbrk
        · have hbm : b ∈ decompose decResolve (c0 :: h') :=
            (hs.1.perm _).mem_iff.mp (List.mem_of_head? hb)
          obtain ⟨c, hcg, hbm⟩ := List.mem_flatMap.mp hbm
          have hbc := fullD_noctl (hc' c hcg) hbm
          cases hbr : isGraphemeBoundary a b with
          | true => rfl
          | false => rw [nobreak_left_ctl hbr (hc a hp0)] at hbc; simp at hbc
      · rcases Form.D.junction hs h1 with ⟨_, hall⟩ | ⟨c1, h'', e1, hpl, hhd⟩
        · have := hall p0 hp0; rw [hc p0 hp0] at this; simp at this
        · cases e1
          rw [hhd] at hb
          cases hb
          have hcl := (hdD_class c0).1 hpl
          cases ho : isOES (gcbResolve a) with
          | true =>
            cases hbr : isGraphemeBoundary a (Form.D.hd c0) with
            | true => rfl
            | false =>
              have := (plain_break (by rw [hcl]; exact hpl) ho).mp hbr
              rw [hcl] at this
              exact absurd this.1 (hseam l1 g c0 h' l4 h1 this.2 a ha)
          | false =>
            have ha0 : cccResolve a = 0 := by
              by_cases h0 : cccResolve a = 0
              · exact h0
              · rcases ccc_gcb h0 with h1 | h1 <;> rw [h1] at ho <;> simp [isOES] at ho
            obtain ⟨w, hw⟩ := List.getLast?_eq_some_iff.mp ha
            have hall0 : ∀ x ∈ decompose Form.D.map g, cccResolve x = 0 := by
              intro x hx
              have hx' : x ∈ Form.D.block sort g := (hs.1.perm _).mem_iff.mpr hx
              have hsort := hs.1.sorted (decompose Form.D.map g)
              rw [show sort canonicalCombiningOrder (decompose Form.D.map g) = w ++ [a] from hw,
                CccSorted, List.pairwise_append] at hsort
              rw [hw] at hx'
              rcases List.mem_append.mp hx' with h6 | h6
              · have := hsort.2.2 x h6 a (by simp)
                have := ccc_nonneg x
                omega
              · simp at h6; rw [h6]; exact ha0
            have hbl : Form.D.block sort g = decompose Form.D.map g := by
              refine stable_sorted hs (List.pairwise_iff_forall_sublist.mpr ?_)
              intro a b hab
              rw [hall0 a (hab.subset (by simp)), hall0 b (hab.subset (by simp))]; omega
            rw [hbl, last_decompose Form.D hl] at ha
            cases ha
            cases hm : decResolve p0 with
            | some m =>
              have := elemD_oes hm (List.mem_of_getLast? (Form.D.last_full p0))
              rw [ho] at this; simp at this
            | none =>
              have hl0 : Form.D.ls p0 = p0 := by
                rw [Form.ls, show full Form.D.map p0 = [p0] from factsD.none_ hm]; rfl
              rw [hl0, isGraphemeBoundary, hcl]; exact hbrk

/-! ### Both forms -/

/-- Neighbours not before an emoji modifier. -/
def NB (a b : Int) : Prop := gcbResolve b ≠ .E_MODIFIER → isGraphemeBoundary a b = false

theorem sort_NB {sort : SortFn} (hs : StableSort sort) {l : List Int} (h : Adj UnbrokenM l)
    (hnc : ∀ x ∈ l, isCtl (gcbResolve x) = false) : Adj NB (sort canonicalCombiningOrder l) := by
  refine adj_iff.mpr ?_
  intro p a b q he hm
  have ha : a ∈ l := (hs.1.perm l).mem_iff.mp (by rw [he]; simp)
  cases hp : isPlain (gcbResolve b) with
  | false => exact nobreak_mark (hnc a ha) hp
  | true =>
    have hb0 := plain_ccc hp
    have hsort := hs.1.sorted l
    rw [he] at hsort
    have hle : ∀ x ∈ p ++ [a], cccResolve x = 0 := by
      intro x hx
      rw [show p ++ a :: b :: q = (p ++ [a]) ++ b :: q by simp, CccSorted, List.pairwise_append] at hsort
      have := hsort.2.2 x hx b (by simp)
      have := ccc_nonneg x
      omega
    have hf := stable_filter hs l 0
    rw [he, show p ++ a :: b :: q = (p ++ [a]) ++ b :: q by simp, List.filter_append,
      List.filter_eq_self.mpr (by intro x hx; simpa using hle x hx),
      List.filter_cons_of_pos (by simpa using hb0)] at hf
    have := filter_unbrokenM h
    rw [← hf, List.append_assoc] at this
    exact adj_iff.mp this p a b _ rfl hp hm

/-- The seams of NFD. -/
theorem seam_nfd {sort : SortFn} (hs : StableSort sort) {cs : List Int} {l1 l4 : List (List Int)} {g h' : List Int}
    {c0 a b : Int} (h1 : graphemes cs = l1 ++ g :: (c0 :: h') :: l4)
    (ha : (Form.D.block sort g).getLast? = some a) (hb : (Form.D.block sort (c0 :: h')).head? = some b) :
    isGraphemeBoundary a b = true ∨ gcbResolve a = .EXTEND ∧ gcbResolve c0 = .E_MODIFIER := by
  have seg := segments_isSegmentation isGraphemeBoundary cs
  have hg : g ∈ graphemes cs := by rw [h1]; simp
  have hh : c0 :: h' ∈ graphemes cs := by rw [h1]; simp
  have hgne := seg.nonempty g hg
  cases hl : g.getLast? with
  | none => exact absurd (List.getLast?_eq_none_iff.mp hl) hgne
  | some p0 =>
  have hp0 := List.mem_of_getLast? hl
  have hbrk := seg.between l1 g (c0 :: h') l4 h1 p0 c0 hl rfl
  rcases ctl_dichotomy (grapheme_adj hg) with hc | hc
  · left
    rw [block_ctl hs hc, hl] at ha
    cases ha
    rcases ctl_dichotomy (grapheme_adj hh) with hc' | hc'
    · rw [block_ctl hs hc'] at hb
      simp at hb; subst hb; exact hbrk
    · have hbm : b ∈ decompose decResolve (c0 :: h') :=
        (hs.1.perm _).mem_iff.mp (List.mem_of_head? hb)
      obtain ⟨c, hcg, hbm⟩ := List.mem_flatMap.mp hbm
      have hbc := fullD_noctl (hc' c hcg) hbm
      cases hbr : isGraphemeBoundary a b with
      | true => rfl
      | false => rw [nobreak_left_ctl hbr (hc a hp0)] at hbc; simp at hbc
  · rcases Form.D.junction hs h1 with ⟨_, hall⟩ | ⟨c1, h'', e1, hpl, hhd⟩
    · have := hall p0 hp0; rw [hc p0 hp0] at this; simp at this
    · cases e1
      rw [hhd] at hb
      cases hb
      have hcl := (hdD_class c0).1 hpl
      cases ho : isOES (gcbResolve a) with
      | true =>
        cases hbr : isGraphemeBoundary a (Form.D.hd c0) with
        | true => exact .inl rfl
        | false =>
          have := (plain_break (by rw [hcl]; exact hpl) ho).mp hbr
          rw [hcl] at this
          exact .inr this
      | false =>
        left
        have ha0 : cccResolve a = 0 := by
          by_cases h0 : cccResolve a = 0
          · exact h0
          · rcases ccc_gcb h0 with h1 | h1 <;> rw [h1] at ho <;> simp [isOES] at ho
        obtain ⟨w, hw⟩ := List.getLast?_eq_some_iff.mp ha
        have hall0 : ∀ x ∈ decompose Form.D.map g, cccResolve x = 0 := by
          intro x hx
          have hx' : x ∈ Form.D.block sort g := (hs.1.perm _).mem_iff.mpr hx
          have hsort := hs.1.sorted (decompose Form.D.map g)
          rw [show sort canonicalCombiningOrder (decompose Form.D.map g) = w ++ [a] from hw,
            CccSorted, List.pairwise_append] at hsort
          rw [hw] at hx'
          rcases List.mem_append.mp hx' with h6 | h6
          · have := hsort.2.2 x h6 a (by simp)
            have := ccc_nonneg x
            omega
          · simp at h6; rw [h6]; exact ha0
        have hbl : Form.D.block sort g = decompose Form.D.map g := by
          refine stable_sorted hs (List.pairwise_iff_forall_sublist.mpr ?_)
          intro a b hab
          rw [hall0 a (hab.subset (by simp)), hall0 b (hab.subset (by simp))]; omega
        rw [hbl, last_decompose Form.D hl] at ha
        cases ha
        cases hm : decResolve p0 with
        | some m =>
          have := elemD_oes hm (List.mem_of_getLast? (Form.D.last_full p0))
          rw [ho] at this; simp at this
        | none =>
          have hl0 : Form.D.ls p0 = p0 := by
            rw [Form.ls, show full Form.D.map p0 = [p0] from factsD.none_ hm]; rfl
          rw [hl0, isGraphemeBoundary, hcl]; exact hbrk

/-- Composition keeps the class of a plain first codepoint and makes none plain. -/
theorem comp_class {a b c : Int} (h : compResolve a b = some c) :
    (isPlain (gcbResolve a) = true ∨ isPlain (gcbResolve c) = true) → gcbResolve c = gcbResolve a := by
  have F := comp_facts h
  have hhd : Form.D.hd c = Form.D.hd a := by
    rw [Form.hd, Form.hd, show full Form.D.map c = full Form.D.map a ++ fullD b from F.full]
    cases hf : full Form.D.map a with
    | nil => exact absurd hf (factsD.ne_nil a)
    | cons x l => rfl
  have ka := hdD_class a
  have kc := hdD_class c
  rintro (hp | hp)
  · have h1 := ka.1 hp
    have h2 := kc.2 (by rw [hhd, h1]; exact hp)
    rw [← kc.1 h2, hhd, h1]
  · have h1 := kc.1 hp
    have h2 := ka.2 (by rw [← hhd, h1]; exact hp)
    rw [← ka.1 h2, ← hhd, h1]

theorem composeFrom_head {l : List Int} : ∀ {a z : Int}, (composeFrom compResolve a l).head? = some z →
    (isPlain (gcbResolve a) = true ∨ isPlain (gcbResolve z) = true) → gcbResolve z = gcbResolve a := by
  induction l with
  | nil => intro a z h; simp [composeFrom] at h; subst h; intros; rfl
  | cons b l ih =>
    intro a z h hp
    rw [composeFrom] at h
    cases hc : compResolve a b with
    | none => rw [hc] at h; simp at h; subst h; rfl
    | some c =>
      rw [hc] at h
      have h1 := @ih c z h
      have h2 := comp_class hc
      rcases hp with hp | hp
      · have h3 := h2 (.inl hp)
        rw [h1 (.inl (by rw [h3]; exact hp)), h3]
      · have h3 := h1 (.inr hp)
        rw [h3, h2 (.inr (by rw [← h3]; exact hp))]

theorem composeFrom_ne_nil' (l : List Int) : ∀ a : Int, composeFrom compResolve a l ≠ [] := by
  induction l with
  | nil => intro a; simp [composeFrom]
  | cons b l ih =>
    intro a
    rw [composeFrom]
    cases compResolve a b with
    | none => simp
    | some c => exact ih c

theorem composeFrom_last {l : List Int} : ∀ {a z y : Int}, (composeFrom compResolve a l).getLast? = some z →
    (a :: l).getLast? = some y → z = y ∨ isOES (gcbResolve z) = true ∧ isMark (gcbResolve y) = true := by
  induction l with
  | nil => intro a z y h h'; simp [composeFrom] at h h'; left; omega
  | cons b l ih =>
    intro a z y h h'
    rw [composeFrom] at h
    have h'' : (b :: l).getLast? = some y := by simpa [List.getLast?_cons_cons] using h'
    cases hc : compResolve a b with
    | none =>
      rw [hc] at h
      refine ih (a := b) ?_ h''
      cases hcf : composeFrom compResolve b l with
      | nil => exact absurd hcf (composeFrom_ne_nil' l b)
      | cons x w => simpa [hcf, List.getLast?_cons_cons] using h
    | some c =>
      rw [hc] at h
      have F := comp_facts hc
      cases l with
      | nil =>
        simp [composeFrom] at h h''
        subst h; subst h''
        exact .inr ⟨F.gcb3, F.gcb2⟩
      | cons x l' =>
        exact ih (a := c) h (by simpa [List.getLast?_cons_cons] using h'')

theorem oes_noctl {v : GCB} (h : isOES v = true) : isCtl v = false := by revert h; cases v <;> decide

theorem composeFrom_NB {l : List Int} : ∀ {a : Int}, isCtl (gcbResolve a) = false →
    (∀ x ∈ l, isCtl (gcbResolve x) = false) → Adj NB (a :: l) → Adj NB (composeFrom compResolve a l) := by
  induction l with
  | nil => intros; exact trivial
  | cons b l ih =>
    intro a ha hl h
    rw [adj_cons] at h
    have hl' : ∀ x ∈ l, isCtl (gcbResolve x) = false := fun x hx => hl x (by simp [hx])
    rw [composeFrom]
    cases hc : compResolve a b with
    | some c =>
      have F := comp_facts hc
      refine ih (oes_noctl F.gcb3) hl' ?_
      have h2 := h.2
      rw [adj_cons] at h2 ⊢
      refine ⟨fun x hx hm => ?_, h2.2⟩
      cases hp : isPlain (gcbResolve x) with
      | false => exact nobreak_mark (oes_noctl F.gcb3) hp
      | true => exact absurd ((plain_break hp (mark_oes F.gcb2)).mp (h2.1 x hx hm)).2 hm
    | none =>
      refine adj_cons.mpr ⟨?_, ih (hl b (by simp)) hl' h.2⟩
      intro z hz hm
      cases hp : isPlain (gcbResolve z) with
      | false => exact nobreak_mark ha hp
      | true =>
        have hzb := composeFrom_head hz (.inr hp)
        have := h.1 b rfl (by rw [← hzb]; exact hm)
        rw [isGraphemeBoundary, hzb]; exact this


theorem composeFrom_ctl {l : List Int} : ∀ {a : Int}, (∀ x ∈ a :: l, isCtl (gcbResolve x) = true) →
    composeFrom compResolve a l = a :: l := by
  induction l with
  | nil => intros; rfl
  | cons b l ih =>
    intro a h
    rw [composeFrom, comp_ctl_none (h a (by simp))]
    exact congrArg (a :: ·) (ih fun x hx => h x (by simp [List.mem_cons.mp hx]))

/-- NFD and NFC of one grapheme, from its sorted decomposition. -/
theorem Form.result_cases (F : Form) (hF : F.base = .D) (sort : SortFn) (g : List Int) :
    (F = .D ∧ F.result sort g = Form.D.block sort g) ∨
    (F = .C ∧ F.result sort g = compose compResolve (Form.D.block sort g)) := by
  cases F
  · exact .inl ⟨rfl, rfl⟩
  · exact .inr ⟨rfl, rfl⟩
  · simp [Form.base] at hF
  · simp [Form.base] at hF

theorem result_ctl (F : Form) (hF : F.base = .D) {sort : SortFn} (hs : StableSort sort) {k : List Int}
    (hc : ∀ x ∈ k, isCtl (gcbResolve x) = true) : F.result sort k = k := by
  rcases F.result_cases hF sort k with ⟨_, h⟩ | ⟨_, h⟩
  · rw [h, block_ctl hs hc]
  · rw [h, block_ctl hs hc]
    cases k with
    | nil => rfl
    | cons a l => exact composeFrom_ctl hc

theorem result_NB (F : Form) (hF : F.base = .D) {sort : SortFn} (hs : StableSort sort) {cs g : List Int}
    (hg : g ∈ graphemes cs) : Adj NB (F.result sort g) := by
  rcases ctl_dichotomy (grapheme_adj hg) with hc | hc
  · rw [result_ctl F hF hs hc]
    refine adj_iff.mpr fun p a b q he _ => adj_iff.mp (grapheme_adj hg) p a b q he
  · have hnc : ∀ x ∈ decompose decResolve g, isCtl (gcbResolve x) = false := by
      intro x hx
      obtain ⟨c, hcg, hx⟩ := List.mem_flatMap.mp hx
      exact fullD_noctl (hc c hcg) hx
    have hb := sort_NB hs (decompose_unbrokenM (grapheme_adj hg)) hnc
    rcases F.result_cases hF sort g with ⟨_, h⟩ | ⟨_, h⟩
    · rw [h]; exact hb
    · rw [h]
      have hnc' : ∀ x ∈ Form.D.block sort g, isCtl (gcbResolve x) = false :=
        fun x hx => hnc x ((hs.1.perm _).mem_iff.mp hx)
      revert hb hnc'
      rw [show sort canonicalCombiningOrder (decompose decResolve g) = Form.D.block sort g from rfl]
      cases Form.D.block sort g with
      | nil => intros; trivial
      | cons a l =>
        intro hb hnc'
        exact composeFrom_NB (hnc' a (by simp)) (fun x hx => hnc' x (by simp [hx])) hb

/-- First and last codepoint of a normal form against those of the sorted decomposition. -/
theorem result_ends (F : Form) (hF : F.base = .D) (sort : SortFn) (g : List Int) :
    (∀ z w, (F.result sort g).head? = some z → (Form.D.block sort g).head? = some w →
      isPlain (gcbResolve w) = true ∨ isPlain (gcbResolve z) = true → gcbResolve z = gcbResolve w) ∧
    (∀ z y, (F.result sort g).getLast? = some z → (Form.D.block sort g).getLast? = some y →
      z = y ∨ isOES (gcbResolve z) = true ∧ isMark (gcbResolve y) = true) := by
  rcases F.result_cases hF sort g with ⟨_, h⟩ | ⟨_, h⟩
  · rw [h]
    refine ⟨fun z w h1 h2 _ => ?_, fun z y h1 h2 => .inl ?_⟩
    · rw [h1] at h2; cases h2; rfl
    · rw [h1] at h2; cases h2; rfl
  · rw [h]
    cases Form.D.block sort g with
    | nil => simp
    | cons a l =>
      refine ⟨fun z w h1 h2 hp => ?_, fun z y h1 h2 => composeFrom_last h1 h2⟩
      simp at h2; subst h2
      exact composeFrom_head h1 hp

/-- Emoji modifiers alone decide whether the graphemes of the NFD (NFC) are the NFD (NFC) of the graphemes. -/
theorem graphemes_exact (F : Form) (hF : F.base = .D) {sort : SortFn} (hs : StableSort sort) {cs : List Int} :
    graphemes (F.text sort cs) = (graphemes cs).map (F.result sort) ↔
      (∀ g ∈ graphemes cs, ∀ p a m q, F.result sort g = p ++ a :: m :: q → gcbResolve m = .E_MODIFIER →
        isGraphemeBoundary a m = false) ∧
      ∀ p g m h r, graphemes cs = p ++ g :: (m :: h) :: r → gcbResolve m = .E_MODIFIER →
        ∀ y, (F.result sort g).getLast? = some y → gcbResolve y ≠ .EXTEND := by
  have seg := segments_isSegmentation isGraphemeBoundary cs
  have hbne : ∀ g ∈ graphemes cs, ∃ a, (Form.D.block sort g).getLast? = some a := by
    intro g hg
    cases hl : (Form.D.block sort g).getLast? with
    | none => exact absurd (List.getLast?_eq_none_iff.mp hl) (Form.D.block_ne_nil hs.1 (seg.nonempty g hg))
    | some a => exact ⟨a, rfl⟩
  constructor
  · intro he
    have seg' := segments_isSegmentation isGraphemeBoundary (F.text sort cs)
    rw [show segments isGraphemeBoundary (F.text sort cs) = graphemes (F.text sort cs) from rfl, he] at seg'
    constructor
    · intro g hg p a m q hd hm
      simpa using seg'.inside _ (List.mem_map_of_mem hg) p a m q hd
    · intro p g m h r hgs hm y hy hext
      rcases Form.D.junction hs hgs with ⟨_, hall⟩ | ⟨c1, h'', e1, hpl, hhd⟩
      · rw [result_ctl F hF hs hall] at hy
        have := hall y (List.mem_of_getLast? hy)
        rw [hext] at this; simp [isCtl] at this
      · cases e1
        have hcl := (hdD_class m).1 hpl
        have hh : m :: h ∈ graphemes cs := by rw [hgs]; simp
        have hrne := F.result_ne_nil hs.1 (seg.nonempty _ hh)
        cases hw : (F.result sort (m :: h)).head? with
        | none => exact absurd (List.head?_eq_none_iff.mp hw) hrne
        | some w =>
        have hcw := (result_ends F hF sort (m :: h)).1 w _ hw hhd (.inl (by rw [hcl]; exact hpl))
        rw [hcl, hm] at hcw
        have := seg'.between (p.map (F.result sort)) (F.result sort g) (F.result sort (m :: h)) (r.map (F.result sort))
          (by rw [hgs]; simp) y w hy hw
        rw [(plain_break (by rw [hcw]; rfl) (by rw [hext]; rfl)).mpr ⟨hext, hcw⟩] at this
        simp at this
  · rintro ⟨hin, hseam⟩
    symm
    refine isSegmentation_unique _ _ _ ⟨?_, ?_, ?_, ?_⟩
    · rw [Form.text, List.flatMap_def]
    · intro w hw
      obtain ⟨g, hg, rfl⟩ := List.mem_map.mp hw
      exact F.result_ne_nil hs.1 (seg.nonempty g hg)
    · intro w hw pre a b post he
      obtain ⟨g, hg, rfl⟩ := List.mem_map.mp hw
      by_cases hm : gcbResolve b = .E_MODIFIER
      · simp [hin g hg pre a b post he hm]
      · simp [adj_iff.mp (result_NB F hF hs hg) pre a b post he hm]
    · intro p u v q he z w hz hw
      obtain ⟨l1, l2, h1, h2, h3⟩ := List.map_eq_append_iff.mp he
      obtain ⟨g, l3, rfl, rfl, h4⟩ := List.map_eq_cons_iff.mp h3
      obtain ⟨h, l4, rfl, rfl, h5⟩ := List.map_eq_cons_iff.mp h4
      have hg : g ∈ graphemes cs := by rw [h1]; simp
      have hh : h ∈ graphemes cs := by rw [h1]; simp
      cases h with
      | nil => exact absurd rfl (seg.nonempty [] hh)
      | cons c0 h' =>
      obtain ⟨a, ha⟩ := hbne g hg
      obtain ⟨b, hb⟩ : ∃ b, (Form.D.block sort (c0 :: h')).head? = some b := by
        cases hb : (Form.D.block sort (c0 :: h')).head? with
        | none => exact absurd (List.head?_eq_none_iff.mp hb) (Form.D.block_ne_nil hs.1 (seg.nonempty _ hh))
        | some b => exact ⟨b, rfl⟩
      have hsm := seam_nfd hs h1 ha hb
      have hzl := (result_ends F hF sort g).2 z a hz ha
      have hwh := (result_ends F hF sort (c0 :: h')).1 w b hw hb
      cases hbr : isGraphemeBoundary z w with
      | true => rfl
      | false =>
      exfalso
      rcases Form.D.junction hs h1 with ⟨hbg, hall⟩ | ⟨c1, h'', e1, hpl, hhd⟩
      · rw [hbg] at ha
        have hac := hall a (List.mem_of_getLast? ha)
        have hza : z = a := by
          rcases hzl with h | ⟨_, h⟩
          · exact h
          · exfalso; revert h hac; cases gcbResolve a <;> decide
        subst hza
        have hwc := nobreak_left_ctl hbr hac
        have hwb := hwh (.inr (by revert hwc; cases gcbResolve w <;> decide))
        rcases hsm with hsm | ⟨hsm, _⟩
        · rw [isGraphemeBoundary, ← hwb] at hsm
          rw [isGraphemeBoundary, hsm] at hbr; simp at hbr
        · rw [hsm] at hac; simp [isCtl] at hac
      · cases e1
        rw [hhd] at hb
        cases hb
        have hcl := (hdD_class c0).1 hpl
        have hwb := hwh (.inl (by rw [hcl]; exact hpl))
        cases ho : isOES (gcbResolve z) with
        | true =>
          have := (plain_break (by rw [hwb, hcl]; exact hpl) ho).mp hbr
          rw [hwb, hcl] at this
          exact hseam l1 g c0 h' l4 h1 this.2 z hz this.1
        | false =>
          have hza : z = a := by
            rcases hzl with h | ⟨h, _⟩
            · exact h
            · rw [ho] at h; simp at h
          subst hza
          rcases hsm with hsm | ⟨hsm, _⟩
          · rw [isGraphemeBoundary, ← hwb] at hsm
            rw [isGraphemeBoundary, hsm] at hbr; simp at hbr
          · rw [hsm] at ho; simp [isOES] at ho

/-! ### Compatibility forms of canonical forms that keep the graphemes -/

theorem before_otherM {u : List Int} (h : Adj UnbrokenM u) :
    ∀ (n : Nat) (p : List Int) (e : Int) (q : List Int), p.length = n → u = p ++ e :: q →
      gcbResolve e = .OTHER ∨ gcbResolve e = .PREPEND → ∀ x ∈ p, gcbResolve x = .PREPEND := by
  intro n
  induction n with
  | zero => intro p e q hl _ _ x hx; simp at hl; subst hl; simp at hx
  | succ n ih =>
    intro p e q hl he hc x hx
    obtain ⟨a, ha⟩ : ∃ a, p.getLast? = some a := by
      cases hp : p.getLast? with
      | none => rw [List.getLast?_eq_none_iff.mp hp] at hl; simp at hl
      | some a => exact ⟨a, rfl⟩
    obtain ⟨p', rfl⟩ := List.getLast?_eq_some_iff.mp ha
    have h1 := other_pred (adj_iff.mp h p' a e q (by rw [he]; simp)
      (by rcases hc with hc | hc <;> rw [hc] <;> rfl) (by rcases hc with hc | hc <;> rw [hc] <;> simp)).1 hc
    rcases List.mem_append.mp hx with hx | hx
    · exact ih p' a (e :: q) (by simpa using hl) (by rw [he]; simp) (.inr h1) x hx
    · simp at hx; rw [hx]; exact h1

/-- The decomposition of any grapheme. -/
theorem otherFirst_decomposeM {g : List Int} (hg : Adj (fun a b => isGraphemeBoundary a b = false) g) :
    OtherFirst (decompose decResolve g) := by
  intro p e q he ho x hx
  have := before_otherM (decompose_unbrokenM hg) _ p e q rfl he (.inl ho) x hx
  exact plain_ccc (by rw [this]; rfl)

/-- NFKD after a canonical form that keeps the graphemes, exactly. -/
theorem kd_of_kept_iff (F : Form) (hF : F.base = .D) {sort : SortFn} (hs : StableSort sort) {cs : List Int}
    (hk : graphemes (F.text sort cs) = (graphemes cs).map (F.result sort)) :
    Form.KD.text sort (F.text sort cs) = Form.KD.text sort cs ↔
      ∀ g ∈ graphemes cs, ¬ TibTrap (decompose decResolve g) := by
  have hB : ∀ z, Form.KD.text sort z = (graphemes z).flatMap (Form.KD.block sort) :=
    fun z => Form.KD.base_text sort z
  have hcomp : ∀ g, Form.KD.block sort (F.result sort g) = Form.KD.block sort (Form.D.block sort g) := by
    intro g
    rcases F.result_cases hF sort g with ⟨_, h⟩ | ⟨_, h⟩
    · rw [h]
    · rw [h, Form.block, show Form.KD.map = kdecResolve from rfl, decompose_compose fun _ _ _ h => comp_fullK h]
      rfl
  rw [hB, hB, hk, List.flatMap_map]
  have key : ∀ g ∈ graphemes cs, (Form.KD.block sort (F.result sort g) = Form.KD.block sort g ↔
      ¬ TibTrap (decompose decResolve g)) := by
    intro g hg
    have := reorder_iff hs (atomic_decompose g) (otherFirst_decomposeM (grapheme_adj hg))
    rw [decomposeK_decomposeD] at this
    rw [hcomp]
    exact this
  constructor
  · intro h g hg
    refine (key g hg).mp (flatMap_congr_lengths (f := fun g => Form.KD.block sort (F.result sort g)) ?_ _ h g hg)
    intro x
    show (Form.KD.block sort (F.result sort x)).length = _
    rw [hcomp, (hs.1.perm _).length_eq, (hs.1.perm _).length_eq]
    rw [show decompose Form.KD.map x = decompose kdecResolve (decompose decResolve x) from
      (decomposeK_decomposeD x).symm]
    exact ((hs.1.perm _).flatMap_right _).length_eq
  · intro h
    rw [List.flatMap_def, List.flatMap_def]
    congr 1
    exact List.map_congr_left fun g hg => (key g hg).mpr (h g hg)

end U5e
