import Verif.Proofs.MixedFacts
/-! Mixing canonical and compatibility normalization: list-level theory. -/
namespace U5e
open Spec

/-! ### Canonical forms of compatibility-normalized text -/

/-- The two decompositions agree. -/
abbrev Same (c : Int) : Prop := fullD c = fullK c

theorem same_of_elemK {c x : Int} (hx : x ∈ fullK c) : Same x := by
  rw [Same, elemK_fullD hx, factsK.elem_full hx]

theorem same_composeFrom {a : Int} {l : List Int} (h : ∀ x ∈ a :: l, Same x) :
    ∀ x ∈ composeFrom compResolve a l, Same x := by
  induction l generalizing a with
  | nil => simpa [composeFrom] using h
  | cons b l ih =>
    rw [composeFrom]
    cases hc : compResolve a b with
    | some c =>
      refine ih (a := c) ?_
      intro x hx
      rcases List.mem_cons.mp hx with rfl | hx
      · rw [Same, (comp_facts hc).full, comp_fullK hc, h a (by simp), h b (by simp)]
      · exact h x (by simp [hx])
    | none =>
      intro x hx
      rcases List.mem_cons.mp hx with rfl | hx
      · exact h x (by simp)
      · exact ih (fun y hy => h y (List.mem_cons_of_mem _ hy)) x hx

theorem same_compose {l : List Int} (h : ∀ x ∈ l, Same x) : ∀ x ∈ compose compResolve l, Same x := by
  cases l with
  | nil => simp [compose]
  | cons a l => exact same_composeFrom h

theorem same_text (F : Form) (hF : F.base = .KD) {sort : SortFn} (hs : ConformingSort sort) (cs : List Int) :
    ∀ x ∈ F.text sort cs, Same x := by
  intro x hx
  rw [Form.text] at hx
  obtain ⟨g, _, hx⟩ := List.mem_flatMap.mp hx
  have hmap : F.map = kdecResolve := by cases F <;> simp_all [Form.base, Form.map]
  have hb : ∀ y ∈ sort canonicalCombiningOrder (decompose F.map g), Same y := by
    intro y hy
    have := (hs.perm _).mem_iff.mp hy
    rw [hmap] at this
    obtain ⟨c, _, hy⟩ := List.mem_flatMap.mp this
    exact same_of_elemK hy
  rw [Form.result] at hx
  cases F
  · exact hb x hx
  · exact same_compose hb x hx
  · exact hb x hx
  · exact same_compose hb x hx

/-- The compatibility form of a form. -/
def Form.compat : Form → Form
  | .D | .KD => .KD
  | .C | .KC => .KC

theorem text_same (G : Form) (sort : SortFn) {z : List Int} (h : ∀ x ∈ z, Same x) :
    G.text sort z = G.compat.text sort z := by
  rw [Form.text, Form.text, List.flatMap_def, List.flatMap_def]
  congr 1
  refine List.map_congr_left fun g hg => ?_
  have hz : ∀ x ∈ g, Same x := by
    intro x hx
    refine h x ?_
    rw [← segments_flatten isGraphemeBoundary z]
    exact List.mem_flatten.mpr ⟨g, hg, hx⟩
  have hd : decompose decResolve g = decompose kdecResolve g := by
    rw [decompose, decompose, List.flatMap_def, List.flatMap_def]
    congr 1
    exact List.map_congr_left fun x hx => hz x hx
  cases G <;> simp only [Form.result, Form.compat, Form.map, Form.post, hd]

/-! ### Compatibility forms of canonically normalized text -/

theorem nobreak_mark {a b : Int} (ha : isCtl (gcbResolve a) = false) (hb : isPlain (gcbResolve b) = false) :
    isGraphemeBoundary a b = false := by
  revert ha hb
  rw [isGraphemeBoundary]
  cases gcbResolve a <;> cases gcbResolve b <;> decide

theorem nobreak_left_ctl {a b : Int} (h : isGraphemeBoundary a b = false)
    (ha : isCtl (gcbResolve a) = true) : isCtl (gcbResolve b) = true := by
  revert h ha
  rw [isGraphemeBoundary]
  cases gcbResolve a <;> cases gcbResolve b <;> decide

/-- Grapheme without controls: what holds between neighbours of its decomposition. -/
def UnbrokenN (a b : Int) : Prop :=
  isGraphemeBoundary a b = false ∧ (isPlain (gcbResolve b) = true → cccResolve a = 0)

/-- A grapheme consists of controls or contains none. -/
theorem ctl_dichotomy {g : List Int} (h : Adj (fun a b => isGraphemeBoundary a b = false) g) :
    (∀ x ∈ g, isCtl (gcbResolve x) = true) ∨ ∀ x ∈ g, isCtl (gcbResolve x) = false := by
  induction g with
  | nil => exact .inl (by simp)
  | cons a g ih =>
    rw [adj_cons] at h
    cases g with
    | nil => cases ha : isCtl (gcbResolve a) <;> simp [ha]
    | cons b g =>
      have hab := h.1 b rfl
      rcases ih h.2 with h2 | h2
      · left
        intro x hx
        rcases List.mem_cons.mp hx with rfl | hx
        · exact noBreak_ctl_right hab (h2 b (by simp))
        · exact h2 x hx
      · right
        intro x hx
        rcases List.mem_cons.mp hx with rfl | hx
        · cases hc : isCtl (gcbResolve x) with
          | false => rfl
          | true => have := nobreak_left_ctl hab hc; rw [h2 b (by simp)] at this; simp at this
        · exact h2 x hx

/-- Elements of a canonical decomposition of a non-control. -/
theorem fullD_noctl {c x : Int} (hc : isCtl (gcbResolve c) = false) (hx : x ∈ fullD c) :
    isCtl (gcbResolve x) = false := by
  cases hm : decResolve c with
  | none => rw [factsD.none_ hm] at hx; simp at hx; rw [hx]; exact hc
  | some m =>
    obtain ⟨h, t, he, h1, h2, h3, h4, h5, _⟩ := dec_shape hm
    rw [he] at hx
    have key : isCtl (gcbResolve h) = false := by
      rcases h3 with h3 | h3
      · rw [h2 (by rw [h3]; rfl)]; rfl
      · revert h3; cases gcbResolve h <;> decide
    rcases List.mem_cons.mp hx with rfl | hx
    · exact key
    · have := h5 x hx; revert this; cases gcbResolve x <;> decide

theorem mark_not_plain {v : GCB} (h : isMark v = true) : isPlain v = false := by
  revert h; cases v <;> decide

theorem adj_marks {h : Int} {t : List Int} (ht : ∀ x ∈ t, isPlain (gcbResolve x) = false)
    (hnc : ∀ x ∈ h :: t, isCtl (gcbResolve x) = false) : Adj UnbrokenN (h :: t) := by
  induction t generalizing h with
  | nil => trivial
  | cons b t ih =>
    refine adj_cons.mpr ⟨?_, ih (fun x hx => ht x (by simp [hx])) (fun x hx => hnc x (by simp [List.mem_cons.mp hx]))⟩
    rintro x hx
    simp at hx; subst hx
    have hb := ht b (by simp)
    exact ⟨nobreak_mark (hnc h (by simp)) hb, by rw [hb]; simp⟩

/-- The decomposition of one codepoint does not break. -/
theorem fullD_unbroken {c : Int} (hc : isCtl (gcbResolve c) = false) : Adj UnbrokenN (fullD c) := by
  cases hm : decResolve c with
  | none => rw [factsD.none_ hm]; trivial
  | some m =>
    obtain ⟨h, t, he, h1, h2, h3, h4, h5, _⟩ := dec_shape hm
    have hnc : ∀ x ∈ fullD c, isCtl (gcbResolve x) = false := fun x hx => fullD_noctl hc hx
    rw [he] at hnc ⊢
    exact adj_marks (fun x hx => mark_not_plain (h5 x hx)) hnc

/-- The head of the decomposition of a plain codepoint has its class; that of a mark is a mark. -/
theorem hdD_class (c : Int) :
    (isPlain (gcbResolve c) = true → gcbResolve (Form.D.hd c) = gcbResolve c) ∧
    (isPlain (gcbResolve (Form.D.hd c)) = true → isPlain (gcbResolve c) = true) := by
  cases hm : decResolve c with
  | none =>
    have : Form.D.hd c = c := by
      rw [Form.hd, show full Form.D.map c = [c] from factsD.none_ hm]; rfl
    rw [this]; exact ⟨fun _ => rfl, id⟩
  | some m =>
    obtain ⟨h, t, he, h1, h2, h3, h4, h5, _⟩ := dec_shape hm
    have : Form.D.hd c = h := by
      rw [Form.hd, show full Form.D.map c = h :: t from he]; rfl
    rw [this]
    constructor
    · intro hp
      rw [h2 hp]
      revert hp h1; cases gcbResolve c <;> decide
    · intro hp
      rcases h3 with h3 | h3
      · rw [h3]; rfl
      · rw [mark_not_plain h3] at hp; simp at hp

/-- Between two unbroken codepoints, the second an emoji modifier only after a base: their decompositions join
without a break. -/
theorem join_unbroken {c d : Int} (hc : isCtl (gcbResolve c) = false)
    (hb : isGraphemeBoundary c d = false) (hd : ModPair c d) :
    UnbrokenN (Form.D.ls c) (Form.D.hd d) := by
  have hls : Form.D.ls c ∈ fullD c := List.mem_of_getLast? (Form.D.last_full c)
  cases hp : isPlain (gcbResolve (Form.D.hd d)) with
  | false => exact ⟨nobreak_mark (fullD_noctl hc hls) hp, by simp [hp]⟩
  | true =>
    have hpd := (hdD_class d).2 hp
    have hcl := (hdD_class d).1 hpd
    have hno : isOES (gcbResolve c) = false := by
      cases ho : isOES (gcbResolve c) with
      | false => rfl
      | true =>
        have := hd ((plain_break hpd ho).mp hb).2
        rcases this with e | e <;> rw [e] at ho <;> simp [isOES] at ho
    have hcd : decResolve c = none := by
      cases hm : decResolve c with
      | none => rfl
      | some m =>
        obtain ⟨h, t, he, h1, _⟩ := dec_shape hm
        rw [hno] at h1; simp at h1
    have hl : Form.D.ls c = c := by
      rw [Form.ls, show full Form.D.map c = [c] from factsD.none_ hcd]; rfl
    rw [hl]
    refine ⟨?_, fun _ => ?_⟩
    · rw [isGraphemeBoundary, hcl]; exact hb
    · by_cases h0 : cccResolve c = 0
      · exact h0
      · rcases ccc_gcb h0 with h1 | h1 <;> rw [h1] at hno <;> simp [isOES] at hno

/-- The decomposition of a grapheme without controls, emoji modifiers only after bases, does not break. -/
theorem decompose_unbroken {g : List Int} (hg : Adj (fun a b => isGraphemeBoundary a b = false) g)
    (hnc : ∀ x ∈ g, isCtl (gcbResolve x) = false) (hmod : GoodMod g) :
    Adj UnbrokenN (decompose decResolve g) := by
  rw [decompose, adj_flatMap factsD.ne_nil]
  refine ⟨fun x hx => fullD_unbroken (hnc x hx), adj_iff.mpr ?_⟩
  rintro p a b q he x y hx hy
  rw [show full decResolve a = full Form.D.map a from rfl, Form.D.last_full] at hx
  rw [show full decResolve b = full Form.D.map b from rfl, Form.D.head_full] at hy
  cases hx; cases hy
  exact join_unbroken (hnc a (by simp [he])) (adj_iff.mp hg p a b q he) (adj_iff.mp hmod.adj p a b q he)

/-- In such a list a plain codepoint that is the first starter is the first codepoint. -/
theorem first_starter {l : List Int} (h : Adj UnbrokenN l) {b : Int}
    (hb : (l.filter (fun y => cccResolve y == 0)).head? = some b) (hp : isPlain (gcbResolve b) = true) :
    l.head? = some b := by
  induction l with
  | nil => simp at hb
  | cons a l ih =>
    rw [adj_cons] at h
    by_cases ha : cccResolve a = 0
    · rw [List.filter_cons_of_pos (by simpa using ha)] at hb; simpa using hb
    · rw [List.filter_cons_of_neg (by simpa using ha)] at hb
      exact absurd ((h.1 b (ih h.2 hb)).2 hp) ha

theorem filter_unbroken {l : List Int} (h : Adj UnbrokenN l) :
    Adj (fun a b => isPlain (gcbResolve b) = true → isGraphemeBoundary a b = false)
      (l.filter (fun y => cccResolve y == 0)) := by
  induction l with
  | nil => trivial
  | cons a l ih =>
    have h' := h
    rw [adj_cons] at h
    by_cases ha : cccResolve a = 0
    · rw [List.filter_cons_of_pos (by simpa using ha), adj_cons]
      refine ⟨?_, ih h.2⟩
      intro b hb hp
      exact (h.1 b (first_starter h.2 hb hp)).1
    · rw [List.filter_cons_of_neg (by simpa using ha)]; exact ih h.2

/-- Sorting such a list does not introduce breaks. -/
theorem sort_unbroken {sort : SortFn} (hs : StableSort sort) {l : List Int} (h : Adj UnbrokenN l)
    (hnc : ∀ x ∈ l, isCtl (gcbResolve x) = false) :
    Adj (fun a b => isGraphemeBoundary a b = false) (sort canonicalCombiningOrder l) := by
  refine adj_iff.mpr ?_
  intro p a b q he
  have ha : a ∈ l := (hs.1.perm l).mem_iff.mp (by rw [he]; simp)
  cases hp : isPlain (gcbResolve b) with
  | false => exact nobreak_mark (hnc a ha) hp
  | true =>
    have hb0 := plain_ccc hp
    have hsort := hs.1.sorted l
    rw [he] at hsort
    have hle : ∀ x ∈ p ++ [a], cccResolve x = 0 := by
      intro x hx
      rw [show p ++ a :: b :: q = (p ++ [a]) ++ b :: q by simp, CccSorted, List.pairwise_append] at hsort
      have := hsort.2.2 x hx b (by simp)
      have := ccc_nonneg x
      omega
    have hf := stable_filter hs l 0
    rw [he, show p ++ a :: b :: q = (p ++ [a]) ++ b :: q by simp, List.filter_append,
      List.filter_eq_self.mpr (by intro x hx; simpa using hle x hx),
      List.filter_cons_of_pos (by simpa using hb0)] at hf
    have := filter_unbroken h
    rw [← hf, List.append_assoc] at this
    exact adj_iff.mp this p a b _ rfl hp

theorem mark_oes {v : GCB} (h : isMark v = true) : isOES v = true := by
  revert h; cases v <;> decide

/-- Codepoints in a proper canonical decomposition are Other, Extend or SpacingMark. -/
theorem elemD_oes {c x : Int} {m : List Int} (hm : decResolve c = some m) (hx : x ∈ fullD c) :
    isOES (gcbResolve x) = true := by
  obtain ⟨h, t, he, h1, h2, h3, h4, h5, _⟩ := dec_shape hm
  rw [he] at hx
  rcases List.mem_cons.mp hx with rfl | hx
  · rcases h3 with h3 | h3
    · rw [h2 (by rw [h3]; rfl)]; rfl
    · exact mark_oes h3
  · exact mark_oes (h5 x hx)

/-- NFD keeps the graphemes of a text with emoji modifiers only after bases: the graphemes of the result are the
results of the graphemes. -/
theorem graphemes_nfd {sort : SortFn} (hs : StableSort sort) {cs : List Int} (hmod : GoodMod cs) :
    graphemes (Form.D.text sort cs) = (graphemes cs).map (Form.D.block sort) := by
  have seg := segments_isSegmentation isGraphemeBoundary cs
  have hmem : ∀ g ∈ graphemes cs, ∀ x ∈ g, x ∈ cs := by
    intro g hg x hx
    rw [← segments_flatten isGraphemeBoundary cs]
    exact List.mem_flatten.mpr ⟨g, hg, hx⟩
  have hadj : ∀ g ∈ graphemes cs, Adj (fun a b => isGraphemeBoundary a b = false) g := by
    intro g hg
    refine adj_iff.mpr fun p a b q he => ?_
    have := seg.inside g hg p a b q he
    simpa using this
  symm
  refine isSegmentation_unique _ _ _ ⟨?_, ?_, ?_, ?_⟩
  · rw [show Form.D.text sort cs = Form.D.base.text sort cs from rfl, Form.D.base_text, List.flatMap_def]
  · intro w hw
    obtain ⟨g, hg, rfl⟩ := List.mem_map.mp hw
    exact Form.D.block_ne_nil hs.1 (seg.nonempty g hg)
  · intro w hw pre a b post he
    obtain ⟨g, hg, rfl⟩ := List.mem_map.mp hw
    have : Adj (fun a b => isGraphemeBoundary a b = false) (Form.D.block sort g) := by
      rcases ctl_dichotomy (hadj g hg) with hc | hc
      · have hd : decompose Form.D.map g = g := decompose_id fun x hx => factsD.ctl (hc x hx)
        rw [Form.block, hd, stable_sorted hs]
        · exact hadj g hg
        · refine List.pairwise_iff_forall_sublist.mpr ?_
          intro a b hab
          rw [ctl_ccc (hc a (hab.subset (by simp))), ctl_ccc (hc b (hab.subset (by simp)))]; omega
      · refine sort_unbroken hs (decompose_unbroken (hadj g hg) hc (hmod.grapheme hg)) ?_
        intro x hx
        obtain ⟨c, hcg, hx⟩ := List.mem_flatMap.mp hx
        exact fullD_noctl (hc c hcg) hx
    have := adj_iff.mp this pre a b post he
    simp [this]
  · intro p u v q he a b ha hb
    obtain ⟨l1, l2, h1, h2, h3⟩ := List.map_eq_append_iff.mp he
    obtain ⟨g, l3, rfl, rfl, h4⟩ := List.map_eq_cons_iff.mp h3
    obtain ⟨h, l4, rfl, rfl, h5⟩ := List.map_eq_cons_iff.mp h4
    have hg : g ∈ graphemes cs := by rw [h1]; simp
    have hh : h ∈ graphemes cs := by rw [h1]; simp
    have hgne := seg.nonempty g hg
    cases hl : g.getLast? with
    | none => exact absurd (List.getLast?_eq_none_iff.mp hl) hgne
    | some p0 =>
    have hp0 := List.mem_of_getLast? hl
    cases h with
    | nil => exact absurd rfl (seg.nonempty [] hh)
    | cons c0 h' =>
    have hbrk := seg.between l1 g (c0 :: h') l4 h1 p0 c0 hl rfl
    have hctlblock : ∀ k, (∀ x ∈ k, isCtl (gcbResolve x) = true) → Form.D.block sort k = k := by
      intro k hc
      have hd : decompose Form.D.map k = k := decompose_id fun x hx => factsD.ctl (hc x hx)
      rw [Form.block, hd, stable_sorted hs]
      refine List.pairwise_iff_forall_sublist.mpr ?_
      intro a b hab
      rw [ctl_ccc (hc a (hab.subset (by simp))), ctl_ccc (hc b (hab.subset (by simp)))]; omega
    rcases ctl_dichotomy (hadj g hg) with hc | hc
    · rw [hctlblock g hc, hl] at ha
      cases ha
      rcases ctl_dichotomy (hadj _ hh) with hc' | hc'
      · rw [hctlblock _ hc'] at hb
        simp at hb; subst hb; exact hbrk
      · have hbm : b ∈ decompose decResolve (c0 :: h') :=
          (hs.1.perm _).mem_iff.mp (List.mem_of_head? hb)
        obtain ⟨c, hcg, hbm⟩ := List.mem_flatMap.mp hbm
        have hbc := fullD_noctl (hc' c hcg) hbm
        cases hbr : isGraphemeBoundary a b with
        | true => rfl
        | false => rw [nobreak_left_ctl hbr (hc a hp0)] at hbc; simp at hbc
    · rcases Form.D.junction hs h1 with ⟨_, hall⟩ | ⟨c1, h'', e1, hpl, hhd⟩
      · have := hall p0 hp0; rw [hc p0 hp0] at this; simp at this
      · cases e1
        rw [hhd] at hb
        cases hb
        have hcl := (hdD_class c0).1 hpl
        have hnm : gcbResolve c0 ≠ .E_MODIFIER := (hmod.grapheme hh).head c0 rfl
        cases ho : isOES (gcbResolve a) with
        | true =>
          cases hbr : isGraphemeBoundary a (Form.D.hd c0) with
          | true => rfl
          | false =>
            have := ((plain_break (by rw [hcl]; exact hpl) ho).mp hbr).2
            rw [hcl] at this; exact absurd this hnm
        | false =>
          have ha0 : cccResolve a = 0 := by
            by_cases h0 : cccResolve a = 0
            · exact h0
            · rcases ccc_gcb h0 with h1 | h1 <;> rw [h1] at ho <;> simp [isOES] at ho
          obtain ⟨w, hw⟩ := List.getLast?_eq_some_iff.mp ha
          have hall0 : ∀ x ∈ decompose Form.D.map g, cccResolve x = 0 := by
            intro x hx
            have hx' : x ∈ Form.D.block sort g := (hs.1.perm _).mem_iff.mpr hx
            have hsort := hs.1.sorted (decompose Form.D.map g)
            rw [show sort canonicalCombiningOrder (decompose Form.D.map g) = w ++ [a] from hw,
              CccSorted, List.pairwise_append] at hsort
            rw [hw] at hx'
            rcases List.mem_append.mp hx' with h6 | h6
            · have := hsort.2.2 x h6 a (by simp)
              have := ccc_nonneg x
              omega
            · simp at h6; rw [h6]; exact ha0
          have hbl : Form.D.block sort g = decompose Form.D.map g := by
            refine stable_sorted hs (List.pairwise_iff_forall_sublist.mpr ?_)
            intro a b hab
            rw [hall0 a (hab.subset (by simp)), hall0 b (hab.subset (by simp))]; omega
          rw [hbl, last_decompose Form.D hl] at ha
          cases ha
          cases hm : decResolve p0 with
          | some m =>
            have := elemD_oes hm (List.mem_of_getLast? (Form.D.last_full p0))
            rw [ho] at this; simp at this
          | none =>
            have hl0 : Form.D.ls p0 = p0 := by
              rw [Form.ls, show full Form.D.map p0 = [p0] from factsD.none_ hm]; rfl
            rw [hl0, isGraphemeBoundary, hcl]; exact hbrk

end U5e
