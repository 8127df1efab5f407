import Verif.Spec.Equivalence
import Verif.Proofs.UcdForms
import Verif.Proofs.MixedText
/-! Canonical equivalence: list-level theory. -/
namespace U5e
open Data Spec

set_option maxRecDepth 100000 in
theorem ucd_target_not_syl :
    ucdTree.all (fun r => r.decomp.all fun x => !(Nat.ble 0xAC00 x && Nat.ble x 0xD7A3)) = true := by decide +kernel

theorem mapping_target_not_syl {tags : Nat → Bool} {k : Nat} {m : List Nat} (h : mapping tags k = some m) :
    ∀ x ∈ m, ¬ IsHangulSyllable (x : Int) := by
  obtain ⟨r, hr, rfl, _, _, rfl⟩ := mapping_iff.mp h
  have := ucd_all ucd_target_not_syl hr
  rw [List.all_eq_true] at this
  intro x hx hs
  have := this x hx
  obtain ⟨h1, h2⟩ := hs
  have e1 : Nat.ble 0xAC00 x = true := Nat.ble_eq.mpr (by omega)
  have e2 : Nat.ble x 0xD7A3 = true := Nat.ble_eq.mpr (by omega)
  rw [e1, e2] at this
  simp at this

set_option maxRecDepth 100000 in
theorem ucd_target_not_jamo :
    ucdTree.all (fun r => !(r.tag.beq 0) || r.decomp.all fun x => !(Nat.ble 0x1100 x && Nat.ble x 0x11FF)) = true := by
  decide +kernel

theorem mapping_target_not_jamo {k : Nat} {m : List Nat} (h : mapping canonicalTag k = some m) :
    ∀ x ∈ m, ¬ IsJamo (x : Int) := by
  obtain ⟨r, hr, rfl, _, ht, rfl⟩ := mapping_iff.mp h
  have := ucd_all ucd_target_not_jamo hr
  have ht : r.tag = 0 := by rw [canonicalTag, beq_iff_eq] at ht; exact ht
  rw [ht, show (!Nat.beq 0 0) = false from rfl, Bool.false_or, List.all_eq_true] at this
  intro x hx hs
  have := this x hx
  obtain ⟨h1, h2⟩ := hs
  have e1 : Nat.ble 0x1100 x = true := Nat.ble_eq.mpr (by omega)
  have e2 : Nat.ble x 0x11FF = true := Nat.ble_eq.mpr (by omega)
  rw [e1, e2] at this
  simp at this

theorem expands_not_jamo {xs l : List Nat} (h : Expands (mapping canonicalTag) xs l)
    (hx : ∀ x ∈ xs, ¬ IsJamo (x : Int)) : ∀ y ∈ l, ¬ IsJamo (y : Int) := by
  induction h with
  | nil => simp
  | keep _ _ ih =>
    intro y hy
    rcases List.mem_cons.mp hy with rfl | hy
    · exact hx _ (by simp)
    · exact ih (fun x hx' => hx x (by simp [hx'])) y hy
  | @expand x m xs l1 l2 hm _ _ ih1 ih2 =>
    intro y hy
    rcases List.mem_append.mp hy with hy | hy
    · exact ih1 (mapping_target_not_jamo hm) y hy
    · exact ih2 (fun x hx' => hx x (by simp [hx'])) y hy

theorem fullD_not_jamo {c : Int} (h : ¬ IsJamo c) : ∀ x ∈ fullD c, ¬ IsJamo x := by
  by_cases hn : c < 0
  · rw [show fullD c = [c] from Form.D.full_neg hn]; simpa using h
  · have hc : ((c.toNat : Nat) : Int) = c := Int.toNat_of_nonneg (by omega)
    obtain ⟨l, h1, h2⟩ := fullD_lookup c.toNat
    rw [hc] at h2
    rw [h2]
    intro x hx
    obtain ⟨k, hk, rfl⟩ := List.mem_map.mp hx
    exact expands_not_jamo h1 (by simpa [hc] using h) k hk

/-- The entries of the mapping of a non-starter have the class of the non-starter. -/
noncomputable def sameClass (r : UcdRow) : Bool :=
  r.ccc.beq 0 || r.decomp.all fun x => (cccU x).beq r.ccc

set_option maxRecDepth 100000 in
theorem ucd_same_class : ucdTree.all sameClass = true := by decide +kernel

theorem mapping_class {tags : Nat → Bool} {k : Nat} {m : List Nat} (h : mapping tags k = some m)
    (h0 : classOf k ≠ 0) : ∀ x ∈ m, classOf x = classOf k := by
  obtain ⟨r, hr, rfl, _, _, rfl⟩ := mapping_iff.mp h
  have hk : classOf r.cp = r.ccc := by rw [classOf_eq, cccU, ucdAt_iff.mpr ⟨hr, rfl⟩]
  have := ucd_all ucd_same_class hr
  rw [sameClass, Bool.or_eq_true, Nat.beq_eq] at this
  rw [hk] at h0 ⊢
  rcases this with h | h
  · exact absurd h h0
  · intro x hx
    have := List.all_eq_true.mp h x hx
    rw [Nat.beq_eq] at this
    rw [classOf_eq]; exact this

theorem expands_class {tags : Nat → Bool} {xs l : List Nat} (h : Expands (mapping tags) xs l) (n : Nat)
    (hn : n ≠ 0) (hx : ∀ x ∈ xs, classOf x = n) : ∀ y ∈ l, classOf y = n := by
  induction h with
  | nil => simp
  | keep _ _ ih =>
    intro y hy
    rcases List.mem_cons.mp hy with rfl | hy
    · exact hx _ (by simp)
    · exact ih (fun x hx' => hx x (by simp [hx'])) y hy
  | @expand x m xs l1 l2 hm _ _ ih1 ih2 =>
    intro y hy
    have hxn := hx x (by simp)
    rcases List.mem_append.mp hy with hy | hy
    · refine ih1 (fun z hz => ?_) y hy
      rw [mapping_class hm (by omega) z hz, hxn]
    · exact ih2 (fun x hx' => hx x (by simp [hx'])) y hy

theorem ucdFull_class {tags : Nat → Bool} {c : Int} {l : List Int} (h : UcdFull tags c l) (h0 : ucdClass c ≠ 0) :
    ∀ y ∈ l, ucdClass y = ucdClass c := by
  rw [UcdFull] at h
  split at h
  · next hs => rw [ucdClass_eq, hang_ccc (.inr hs)] at h0; exact absurd rfl h0
  · split at h
    · next hn => rw [ucdClass, if_neg (by omega)] at h0; exact absurd rfl h0
    · next hn =>
      obtain ⟨m, hm, rfl⟩ := h
      rw [ucdClass, if_pos (by omega)] at h0 ⊢
      intro y hy
      obtain ⟨k, hk, rfl⟩ := List.mem_map.mp hy
      have := expands_class hm (classOf c.toNat) (by omega) (by simp) k hk
      show (if 0 ≤ ((k : Nat) : Int) then ((classOf ((k : Nat) : Int).toNat : Nat) : Int) else 0) = _
      rw [if_pos (by omega), Int.toNat_natCast, this]

/-! ### Decompositions of texts -/

theorem Spec.UcdDecomposition.append {tags : Nat → Bool} {a b l m : List Int} (h1 : UcdDecomposition tags a l)
    (h2 : UcdDecomposition tags b m) : UcdDecomposition tags (a ++ b) (l ++ m) := by
  induction h1 with
  | nil => exact h2
  | cons h _ ih => rw [List.cons_append, List.append_assoc]; exact .cons h ih

theorem ucdDecomposition_single {tags : Nat → Bool} {c : Int} {l : List Int} (h : UcdFull tags c l) :
    UcdDecomposition tags [c] l := by
  have := UcdDecomposition.cons h .nil
  rwa [List.append_nil] at this

theorem ucdDecomposition_ids {tags : Nat → Bool} {l : List Int} (h : ∀ x ∈ l, UcdFull tags x [x]) :
    UcdDecomposition tags l l := by
  induction l with
  | nil => exact .nil
  | cons a l ih => exact .cons (l := [a]) (h a (by simp)) (ih fun x hx => h x (by simp [hx]))

theorem ucdFull_jamo {tags : Nat → Bool} {x : Int} (h : 0x1100 ≤ x ∧ x ≤ 0x11FF) : UcdFull tags x [x] := by
  rw [UcdFull, if_neg (not_syl_jamo h), if_neg (by omega)]
  refine ⟨[x.toNat], .keep (mapping_hang (.inl ?_)) .nil, ?_⟩
  · omega
  · simp; omega

theorem ucdFull_of_expands {tags : Nat → Bool} {k : Nat} {l : List Nat} (hk : ¬ IsHangulSyllable (k : Int))
    (h : Expands (mapping tags) [k] l) : UcdFull tags (k : Int) (l.map Int.ofNat) := by
  rw [UcdFull, if_neg hk, if_neg (by omega)]
  exact ⟨l, by rw [Int.toNat_natCast]; exact h, rfl⟩

theorem ucdDecomposition_of_expands {tags : Nat → Bool} {xs l : List Nat} (h : Expands (mapping tags) xs l)
    (hx : ∀ x ∈ xs, ¬ IsHangulSyllable (x : Int)) :
    UcdDecomposition tags (xs.map Int.ofNat) (l.map Int.ofNat) := by
  induction h with
  | nil => exact .nil
  | @keep x xs l hm _ ih =>
    exact .cons (l := [(x : Int)]) (ucdFull_of_expands (l := [x]) (hx x (by simp)) (.keep hm .nil))
      (ih fun y hy => hx y (by simp [hy]))
  | @expand x m xs l1 l2 hm h1 h2 _ ih2 =>
    rw [List.map_append]
    refine .cons (ucdFull_of_expands (l := l1) (hx x (by simp)) ?_) (ih2 fun y hy => hx y (by simp [hy]))
    have := Expands.expand hm h1 .nil
    rwa [List.append_nil] at this

/-- Exchange of two blocks. -/
theorem exchanges_blocks {ccc : Int → Int} {A B : List Int} (h : ∀ a ∈ A, ∀ b ∈ B, 0 < ccc b ∧ ccc b < ccc a) :
    Exchanges ccc (A ++ B) (B ++ A) := by
  induction A with
  | nil => rw [List.append_nil]; exact .refl _
  | cons a A ih =>
    have h1 := (ih fun x hx => h x (by simp [hx])).cons a
    have h2 := exchanges_move B a (h a (by simp))
    have h3 := h2.context [] A
    rw [List.nil_append, List.nil_append] at h3
    have := h1.trans h3
    rwa [List.append_assoc] at this

/-- Every codepoint has a full decomposition. -/
def Total (tags : Nat → Bool) : Prop := ∀ c, ∃ l, UcdFull tags c l

theorem ucdDecomposition_total {tags : Nat → Bool} (T : Total tags) (cs : List Int) :
    ∃ l, UcdDecomposition tags cs l := by
  induction cs with
  | nil => exact ⟨[], .nil⟩
  | cons c cs ih =>
    obtain ⟨l, hl⟩ := ih
    obtain ⟨m, hm⟩ := T c
    exact ⟨m ++ l, .cons hm hl⟩

/-- A step does not change the canonical order of the decomposition. -/
theorem step_order {tags : Nat → Bool} (T : Total tags) {l m : List Int} (h : EquivalenceStep tags l m) :
    ∃ x y, UcdDecomposition tags l x ∧ UcdDecomposition tags m y ∧ corder ucdClass x = corder ucdClass y := by
  cases h with
  | map u v hm =>
    next k m =>
    obtain ⟨a, ha⟩ := ucdDecomposition_total T u
    obtain ⟨b, hb⟩ := ucdDecomposition_total T v
    have hk : ¬ IsHangulSyllable (Int.ofNat k) := by
      intro hs
      have := mapping_hang (tags := tags) (k := k) (.inr hs)
      rw [hm] at this; simp at this
    obtain ⟨w, hw⟩ := T (Int.ofNat k)
    have hw' := hw
    rw [UcdFull, if_neg hk, if_neg (by simp)] at hw
    obtain ⟨n, hn, rfl⟩ := hw
    have hd : UcdDecomposition tags (m.map Int.ofNat) (n.map Int.ofNat) := by
      have hn : Expands (mapping tags) [k] n := hn
      cases hn with
      | keep h _ => rw [hm] at h; simp at h
      | expand h h1 h2 =>
        rw [hm] at h; cases h; cases h2
        rw [List.append_nil]
        exact ucdDecomposition_of_expands h1 (mapping_target_not_syl hm)
    exact ⟨_, _, (ha.append (ucdDecomposition_single hw')).append hb, (ha.append hd).append hb, rfl⟩
  | hangul u v hs =>
    next c =>
    obtain ⟨a, ha⟩ := ucdDecomposition_total T u
    obtain ⟨b, hb⟩ := ucdDecomposition_total T v
    refine ⟨_, _, (ha.append (ucdDecomposition_single (l := hangulDecomposition c) ?_)).append hb,
      (ha.append (ucdDecomposition_ids (l := hangulDecomposition c) ?_)).append hb, rfl⟩
    · rw [UcdFull, if_pos hs]
    · exact fun x hx => ucdFull_jamo (jamo_of_syl hs hx)
  | reorder u v h1 h2 =>
    next a b =>
    obtain ⟨p, hp⟩ := ucdDecomposition_total T u
    obtain ⟨q, hq⟩ := ucdDecomposition_total T v
    obtain ⟨A, hA⟩ := T a
    obtain ⟨B, hB⟩ := T b
    refine ⟨_, _, (hp.append (.cons hA (.cons hB .nil))).append hq, (hp.append (.cons hB (.cons hA .nil))).append hq,
      ?_⟩
    rw [List.append_nil, List.append_nil]
    refine corder_exchanges_eq ((exchanges_blocks ?_).context p q)
    intro x hx y hy
    rw [ucdFull_class hA (by omega) x hx, ucdFull_class hB (by omega) y hy]
    exact ⟨h1, h2⟩

theorem equivalent_order {tags : Nat → Bool} (T : Total tags) {l m x y : List Int} (h : Equivalent tags l m)
    (hx : UcdDecomposition tags l x) (hy : UcdDecomposition tags m y) :
    corder ucdClass x = corder ucdClass y := by
  induction h generalizing x y with
  | refl => rw [ucdDecomposition_det hx hy]
  | step h =>
    obtain ⟨a, b, ha, hb, he⟩ := step_order T h
    rw [ucdDecomposition_det hx ha, ucdDecomposition_det hy hb, he]
  | symm _ ih => exact (ih hy hx).symm
  | @trans l m n _ _ ih1 ih2 =>
    obtain ⟨z, hz⟩ := ucdDecomposition_total T m
    exact (ih1 hx hz).trans (ih2 hz hy)

/-! ### A text is equivalent to its decomposition -/

theorem Spec.EquivalenceStep.context {tags : Nat → Bool} {l m : List Int} (h : EquivalenceStep tags l m)
    (u v : List Int) : EquivalenceStep tags (u ++ l ++ v) (u ++ m ++ v) := by
  cases h with
  | map p q hm => simpa [List.append_assoc] using EquivalenceStep.map (tags := tags) (u ++ p) (q ++ v) hm
  | hangul p q hs => simpa [List.append_assoc] using EquivalenceStep.hangul (tags := tags) (u ++ p) (q ++ v) hs
  | reorder p q h1 h2 =>
    simpa [List.append_assoc] using EquivalenceStep.reorder (tags := tags) (u ++ p) (q ++ v) h1 h2

theorem Spec.Equivalent.context {tags : Nat → Bool} {l m : List Int} (h : Equivalent tags l m)
    (u v : List Int) : Equivalent tags (u ++ l ++ v) (u ++ m ++ v) := by
  induction h with
  | refl => exact .refl _
  | step h => exact .step (h.context u v)
  | symm _ ih => exact ih.symm
  | trans _ _ ih1 ih2 => exact ih1.trans ih2

theorem Spec.Equivalent.append {tags : Nat → Bool} {a b l m : List Int} (h1 : Equivalent tags a l)
    (h2 : Equivalent tags b m) : Equivalent tags (a ++ b) (l ++ m) := by
  have e1 := h1.context [] b
  have e2 := h2.context l []
  rw [List.nil_append, List.nil_append] at e1
  rw [List.append_nil, List.append_nil] at e2
  exact e1.trans e2

theorem expands_equivalent {tags : Nat → Bool} {xs l : List Nat} (h : Expands (mapping tags) xs l) :
    Equivalent tags (xs.map Int.ofNat) (l.map Int.ofNat) := by
  induction h with
  | nil => exact .refl _
  | @keep x xs l _ _ ih => exact Equivalent.append (.refl [Int.ofNat x]) ih
  | @expand x m xs l1 l2 hm _ _ ih1 ih2 =>
    rw [List.map_append]
    refine Equivalent.append (a := [Int.ofNat x]) ?_ ih2
    have := EquivalenceStep.map (tags := tags) [] [] hm
    simp only [List.nil_append, List.append_nil] at this
    exact (Equivalent.step this).trans ih1

theorem ucdFull_equivalent {tags : Nat → Bool} {c : Int} {l : List Int} (h : UcdFull tags c l) :
    Equivalent tags [c] l := by
  rw [UcdFull] at h
  split at h
  · next hs =>
    subst h
    have := EquivalenceStep.hangul (tags := tags) [] [] hs
    simp only [List.nil_append, List.append_nil] at this
    exact .step this
  · split at h
    · rw [h]; exact .refl _
    · next hn =>
      obtain ⟨m, hm, rfl⟩ := h
      have := expands_equivalent hm
      rwa [show [c.toNat].map Int.ofNat = [c] by simp; omega] at this

theorem ucdDecomposition_equivalent {tags : Nat → Bool} {cs l : List Int} (h : UcdDecomposition tags cs l) :
    Equivalent tags cs l := by
  induction h with
  | nil => exact .refl _
  | cons h _ ih => exact Equivalent.append (a := [_]) (ucdFull_equivalent h) ih

theorem exchanges_equivalent {tags : Nat → Bool} {l m : List Int} (h : Exchanges ucdClass l m) :
    Equivalent tags l m := by
  induction h with
  | refl => exact .refl _
  | step h _ ih =>
    refine Equivalent.trans (.step ?_) ih
    cases h with
    | mk p a b q h1 h2 => simpa using EquivalenceStep.reorder (tags := tags) p q h2 h1

theorem isUcdD_equivalent {tags : Nat → Bool} {cs d : List Int} (h : IsUcdD tags cs d) : Equivalent tags cs d := by
  obtain ⟨l, h1, h2, _⟩ := h
  exact (ucdDecomposition_equivalent h1).trans (exchanges_equivalent h2)

/-- D70: equivalent texts are the texts with the same full decomposition in canonical order. -/
theorem equivalent_iff {tags : Nat → Bool} (T : Total tags) (cs ds : List Int) :
    Equivalent tags cs ds ↔ ∃ d, IsUcdD tags cs d ∧ IsUcdD tags ds d := by
  constructor
  · intro h
    obtain ⟨x, hx⟩ := ucdDecomposition_total T cs
    obtain ⟨y, hy⟩ := ucdDecomposition_total T ds
    refine ⟨corder ucdClass x, ⟨x, hx, (isCanonicalOrder_iff _ _).mpr rfl⟩, ⟨y, hy, (isCanonicalOrder_iff _ _).mpr ?_⟩⟩
    exact equivalent_order T h hx hy
  · rintro ⟨d, h1, h2⟩
    exact (isUcdD_equivalent h1).trans (isUcdD_equivalent h2).symm

/-- Mappings used by the code for a form. -/
def Form.ctags : Form → Nat → Bool
  | .D | .C => canonicalTag
  | .KD | .KC => compatTag

theorem Form.ucdFull_ctags (F : Form) (c : Int) : UcdFull F.ctags c (F.ufull c) := by
  rw [UcdFull, Form.ufull, uaxFull]
  by_cases hs : IsHangulSyllable c
  · rw [if_pos hs, if_pos hs]
  · rw [if_neg hs, if_neg hs]
    by_cases hn : c < 0
    · rw [if_pos hn, F.full_neg hn]
    · rw [if_neg hn]
      have hc : ((c.toNat : Nat) : Int) = c := Int.toNat_of_nonneg (by omega)
      have : ∃ l, Expands (mapping F.ctags) [c.toNat] l ∧ full F.map (c.toNat : Int) = l.map Int.ofNat := by
        cases F
        · exact fullD_lookup c.toNat
        · exact fullD_lookup c.toNat
        · exact fullK_lookup c.toNat
        · exact fullK_lookup c.toNat
      rwa [hc] at this

theorem Form.total_ctags (F : Form) : Total F.ctags := fun c => ⟨_, F.ucdFull_ctags c⟩

theorem Form.ucdDecomposition_ctags (F : Form) (cs l : List Int) :
    UcdDecomposition F.ctags cs l ↔ l = F.udec cs := by
  have h : UcdDecomposition F.ctags cs (F.udec cs) := by
    induction cs with
    | nil => exact .nil
    | cons c cs ih => exact .cons (F.ucdFull_ctags c) ih
  constructor
  · intro h'; exact ucdDecomposition_det h' h
  · rintro rfl; exact h

theorem Form.equivalent_iff_order (F : Form) (cs ds : List Int) :
    Equivalent F.ctags cs ds ↔ corder cccResolve (F.udec cs) = corder cccResolve (F.udec ds) := by
  rw [equivalent_iff F.total_ctags]
  simp only [IsUcdD, F.ucdDecomposition_ctags, isCanonicalOrder_iff, ucdClass_fun]
  constructor
  · rintro ⟨d, ⟨l, rfl, h1⟩, ⟨m, rfl, h2⟩⟩; exact h1.symm.trans h2
  · intro h; exact ⟨_, ⟨_, rfl, rfl⟩, ⟨_, rfl, h⟩⟩

/-- More mappings, more equivalent texts (each codepoint has at most one mapping). -/
theorem equivalent_mono {t t' : Nat → Bool} (h : ∀ n, t n = true → t' n = true) {l m : List Int}
    (e : Equivalent t l m) : Equivalent t' l m := by
  induction e with
  | refl => exact .refl _
  | step h1 =>
    refine .step ?_
    cases h1 with
    | map u v hm =>
      obtain ⟨r, h1, h2, h3, h4, h5⟩ := mapping_iff.mp hm
      exact .map u v (mapping_iff.mpr ⟨r, h1, h2, h3, h _ h4, h5⟩)
    | hangul u v hs => exact .hangul u v hs
    | reorder u v h1 h2 => exact .reorder u v h1 h2
  | symm _ ih => exact ih.symm
  | trans _ _ ih1 ih2 => exact ih1.trans ih2

/-- Texts without codepoints of another tag. -/
theorem Form.equivalent_tags_iff (F : Form) {cs ds : List Int} (hc : ∀ c ∈ cs, ¬ F.Missing c)
    (hd : ∀ c ∈ ds, ¬ F.Missing c) : Equivalent F.tags cs ds ↔ Equivalent F.ctags cs ds := by
  rw [F.equivalent_iff_order, equivalent_iff (fun c => F.ucdFull_exists c)]
  simp only [F.isUcdD_iff hc, F.isUcdD_iff hd, IsUaxD, isCanonicalOrder_iff]
  constructor
  · rintro ⟨d, h1, h2⟩; exact h1.symm.trans h2
  · intro h; exact ⟨_, rfl, h⟩

/-! ### The output of the library -/

theorem Form.expandHangul_eq (F : Form) {l : List Int} (h : ∀ e ∈ l, full F.map e = [e]) :
    expandHangul l = F.udec l := by
  rw [expandHangul, Form.udec, List.flatMap_def, List.flatMap_def]
  congr 1
  refine List.map_congr_left fun c hc => ?_
  rw [uaxFull, h c hc]

variable {sort : SortFn}

/-- The canonical order of the full decomposition, from the output of NFD (NFKD). -/
theorem Form.order_text (F : Form) (hs : StableSort sort) {cs : List Int}
    (h : ∀ g ∈ graphemes cs, StartersFirst cccResolve (decompose F.map g)) :
    corder cccResolve (F.udec cs) = expandHangul (F.base.text sort cs) := by
  rw [← F.udec_decompose, F.corder_udec (fun e he => decompose_elem F he), ← (F.corder_text_iff hs cs).mpr h,
    F.expandHangul_eq (fun e he => F.base_text_elem hs.1 he)]

/-- C68 on lists: the output is equivalent to the input exactly if no grapheme has a non-starter before a starter. -/
theorem Form.text_equivalent_iff (F : Form) (hs : StableSort sort) (cs : List Int) :
    Equivalent F.ctags cs (F.text sort cs) ↔
      ∀ g ∈ graphemes cs, StartersFirst cccResolve (decompose F.map g) := by
  rw [F.equivalent_iff_order]
  have hy : F.udec (F.text sort cs) = F.udec (F.base.text sort cs) := by
    rw [← F.udec_decompose, F.decompose_text hs.1]
  rw [hy]
  constructor
  · intro h g hg
    have hp := congrArg (pattern cccResolve) h
    rw [corder_pattern, corder_pattern, ← F.udec_decompose cs, decompose_graphemes, F.base_text] at hp
    rw [Form.udec, Form.udec, List.flatMap_assoc, List.flatMap_assoc, pattern_flatMap, pattern_flatMap] at hp
    have hl : ∀ x : List Int, (pattern cccResolve (F.udec (decompose F.map x))).length =
        (pattern cccResolve (F.udec (F.block sort x))).length := by
      intro x
      simp only [pattern, List.length_map]
      exact ((hs.1.perm (decompose F.map x)).flatMap_right _).length_eq.symm
    have := flatMap_congr_lengths' hl _ hp g hg
    have h1 := startersFirst_sorted (ccc := cccResolve) ccc_nonneg (hs.1.sorted (decompose F.map g))
    have h2 : ∀ e ∈ decompose F.map g, full F.map e = [e] := fun e he => decompose_elem F he
    rw [← F.startersFirst_udec (fun e he => h2 e ((hs.1.perm _).mem_iff.mp he))] at h1
    exact (F.startersFirst_udec h2).mp ((startersFirst_pattern this).mpr h1)
  · intro h
    rw [F.order_text hs h, F.corder_udec (fun e he => F.base_text_elem hs.1 he),
      F.expandHangul_eq (fun e he => F.base_text_elem hs.1 he), (F.corder_text_iff hs cs).mpr h]
    congr 1
    rw [corder_terminal (corder_terminal' _)]

theorem Form.same_order_iff (F : Form) (hs : StableSort sort) {cs ds : List Int}
    (h1 : ∀ g ∈ graphemes cs, StartersFirst cccResolve (decompose F.map g))
    (h2 : ∀ g ∈ graphemes ds, StartersFirst cccResolve (decompose F.map g)) :
    Equivalent F.ctags cs ds ↔ expandHangul (F.base.text sort cs) = expandHangul (F.base.text sort ds) := by
  rw [F.equivalent_iff_order, F.order_text hs h1, F.order_text hs h2]

/-- The condition on the graphemes, by UnicodeData.txt alone. -/
theorem Form.startersFirst_iff (F : Form) (g : List Int) :
    (∀ l, UcdDecomposition F.ctags g l → StartersFirst ucdClass l) ↔ StartersFirst cccResolve (decompose F.map g) := by
  rw [← F.startersFirst_udec (fun e he => decompose_elem F he), F.udec_decompose, ucdClass_fun]
  constructor
  · intro h; exact h _ ((F.ucdDecomposition_ctags g _).mpr rfl)
  · intro h l hl; rw [(F.ucdDecomposition_ctags g l).mp hl]; exact h

theorem Form.text_inj (F : Form) (hs : StableSort sort) (cs ds : List Int) :
    F.text sort cs = F.text sort ds ↔ F.base.text sort cs = F.base.text sort ds := by
  constructor
  · intro h; rw [← F.decompose_text hs.1, ← F.decompose_text hs.1, h]
  · intro h; rw [F.text_eq hs, F.text_eq hs, h]

/-! ### Texts without syllables or without jamo -/

theorem expandHangul_id {l : List Int} (h : ∀ c ∈ l, ¬ IsHangulSyllable c) : expandHangul l = l :=
  flatMap_single fun x hx => if_neg (h x hx)

theorem hangulDecomposition_inj {a b : Int} {u v : List Int} (ha : IsHangulSyllable a) (hb : IsHangulSyllable b)
    (hu : ∀ x, u.head? = some x → ¬ (0x11A8 ≤ x ∧ x ≤ 0x11C2)) (hv : ∀ x, v.head? = some x → ¬ (0x11A8 ≤ x ∧ x ≤ 0x11C2))
    (h : hangulDecomposition a ++ u = hangulDecomposition b ++ v) : a = b ∧ u = v := by
  obtain ⟨a1, a2⟩ := ha
  obtain ⟨b1, b2⟩ := hb
  simp only [hangulDecomposition, List.cons_append, List.nil_append, List.cons.injEq] at h
  obtain ⟨h1, h2, h3⟩ := h
  split at h3 <;> split at h3
  · simp at h3; exact ⟨by omega, h3⟩
  · exfalso
    refine hu _ (by rw [List.nil_append] at h3; rw [h3]; rfl) (by omega)
  · exfalso
    refine hv _ (by rw [List.nil_append] at h3; rw [← h3]; rfl) (by omega)
  · simp at h3; exact ⟨by omega, h3.2⟩

theorem expandHangul_cons (c : Int) (l : List Int) :
    expandHangul (c :: l) = (if IsHangulSyllable c then hangulDecomposition c else [c]) ++ expandHangul l := rfl

theorem expandHangul_head {l : List Int} (h : ∀ c ∈ l, ¬ (0x1100 ≤ c ∧ c ≤ 0x11FF)) {x : Int}
    (hx : (expandHangul l).head? = some x) : ¬ (0x11A8 ≤ x ∧ x ≤ 0x11C2) := by
  cases l with
  | nil => simp [expandHangul] at hx
  | cons c l =>
    rw [expandHangul_cons] at hx
    split at hx
    · next hs =>
      simp [hangulDecomposition] at hx
      obtain ⟨h1, h2⟩ := hs
      omega
    · simp at hx; have := h c (by simp); omega

theorem expandHangul_inj {l m : List Int} (hl : ∀ c ∈ l, ¬ (0x1100 ≤ c ∧ c ≤ 0x11FF))
    (hm : ∀ c ∈ m, ¬ (0x1100 ≤ c ∧ c ≤ 0x11FF)) (h : expandHangul l = expandHangul m) : l = m := by
  induction l generalizing m with
  | nil =>
    cases m with
    | nil => rfl
    | cons b m =>
      rw [expandHangul_cons] at h
      split at h <;> simp [expandHangul, hangulDecomposition] at h
  | cons a l ih =>
    cases m with
    | nil =>
      rw [expandHangul_cons] at h
      split at h <;> simp [expandHangul, hangulDecomposition] at h
    | cons b m =>
      have hl' : ∀ c ∈ l, ¬ (0x1100 ≤ c ∧ c ≤ 0x11FF) := fun c hc => hl c (by simp [hc])
      have hm' : ∀ c ∈ m, ¬ (0x1100 ≤ c ∧ c ≤ 0x11FF) := fun c hc => hm c (by simp [hc])
      rw [expandHangul_cons, expandHangul_cons] at h
      split at h <;> split at h
      · next ha hb =>
        obtain ⟨rfl, h'⟩ := hangulDecomposition_inj ha hb (fun x => expandHangul_head hl')
          (fun x => expandHangul_head hm') h
        rw [ih hl' hm' h']
      · next ha hb =>
        simp only [hangulDecomposition, List.cons_append, List.nil_append, List.cons.injEq] at h
        obtain ⟨h1, h2⟩ := ha
        have := hm b (by simp)
        omega
      · next ha hb =>
        simp only [hangulDecomposition, List.cons_append, List.nil_append, List.cons.injEq] at h
        obtain ⟨h1, h2⟩ := hb
        have := hl a (by simp)
        omega
      · simp at h
        rw [h.1, ih hl' hm' h.2]

end U5e
