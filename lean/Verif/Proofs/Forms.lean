import Verif.Proofs.NormText
import Verif.Proofs.Adj
/-! The four forms treated uniformly; sorting; composition theory on lists. -/
namespace U5e
open Spec

/-- Which table a form decomposes with. -/
def Form.map : Form → Int → Option (List Int)
  | .D | .C => decResolve
  | .KD | .KC => kdecResolve

/-- What a form does after sorting. -/
def Form.post : Form → List Int → List Int
  | .D | .KD => id
  | .C | .KC => compose compResolve

/-- Result of a form on one grapheme, as a function on lists. -/
def Form.result (F : Form) (sort : SortFn) (g : List Int) : List Int :=
  F.post (sort canonicalCombiningOrder (decompose F.map g))

theorem Form.good (F : Form) : GoodMap F.map := by cases F <;> first | exact goodD | exact goodK
theorem Form.facts (F : Form) : DecFacts F.map := by cases F <;> first | exact factsD | exact factsK

theorem Form.post_length_le (F : Form) (l : List Int) : (F.post l).length ≤ l.length := by
  cases F <;> first | exact Nat.le_refl _ | exact compose_length_le _ l

theorem Form.result_length_le (F : Form) {sort : SortFn} (hs : ConformingSort sort) (g : List Int) :
    (F.result sort g).length ≤ (decompose F.map g).length := by
  have := F.post_length_le (sort canonicalCombiningOrder (decompose F.map g))
  rw [(hs.perm _).length_eq] at this
  exact this

variable {I : CpIter} {pos : Nat → Nat} {cs : List Int}

theorem Form.run_sim (F : Form) (S : Sim I pos cs) (fuel : Nat) (hf : cs.length < fuel) {sort : SortFn}
    (hs : ConformingSort sort)
    (append : AppendFn β) (i : Nat) (g : List Int) (hg : (cs.drop i).take g.length = g)
    (hi : i + g.length ≤ cs.length) (hb : (decompose F.map g).length ≤ 2147483647) (out : β) :
    F.run sort append I fuel ⟨pos i, pos (i + g.length)⟩ out =
      (append out (F.result sort g) >>= fun o => .ok (((F.result sort g).length : Int), o)) := by
  cases F
  · have := formD_sim S fuel hf sort append i g hg hi hb out
    rw [← (hs.perm (decompose decResolve g)).length_eq] at this
    exact this
  · exact formC_sim S fuel hf hs append i g hg hi hb out
  · have := formKD_sim S fuel hf sort append i g hg hi hb out
    rw [← (hs.perm (decompose kdecResolve g)).length_eq] at this
    exact this
  · exact formKC_sim S fuel hf hs append i g hg hi hb out

theorem flatMap_flatMap_segments (brk) (f : Int → List Int) (cs : List Int) :
    (segments brk cs).flatMap (fun g => g.flatMap f) = cs.flatMap f := by
  conv => rhs; rw [← segments_flatten brk cs]
  rw [List.flatMap_def, List.flatMap_def, List.map_flatten, List.flatten_flatten, List.map_map]
  rfl

theorem length_flatMap_le {f h : List Int → List Int} (gs : List (List Int))
    (hfh : ∀ g, (f g).length ≤ (h g).length) : (gs.flatMap f).length ≤ (gs.flatMap h).length := by
  induction gs with
  | nil => simp
  | cons g gs ih => have := hfh g; simp only [List.flatMap_cons, List.length_append]; omega

theorem mem_flatMap_length {f : List Int → List Int} {gs : List (List Int)} {g : List Int} (h : g ∈ gs) :
    (f g).length ≤ (gs.flatMap f).length := by
  induction gs with
  | nil => simp at h
  | cons x gs ih =>
    simp only [List.flatMap_cons, List.length_append]
    rcases List.mem_cons.mp h with rfl | h
    · omega
    · have := ih h; omega

/-- The graphemes of a text. -/
abbrev graphemes (cs : List Int) : List (List Int) := segments isGraphemeBoundary cs

/-- Result of a form on a text, as a function on lists. -/
def Form.text (F : Form) (sort : SortFn) (cs : List Int) : List Int :=
  (graphemes cs).flatMap (F.result sort)

theorem Form.text_length_le (F : Form) {sort : SortFn} (hs : ConformingSort sort) (cs : List Int) :
    (F.text sort cs).length ≤ (decompose F.map cs).length := by
  rw [decompose, ← flatMap_flatMap_segments isGraphemeBoundary]
  exact length_flatMap_le _ (fun g => F.result_length_le hs g)

/-- Normalizing a text with an output type whose append is `enc` on the produced codepoints. -/
theorem Form.text_sim (F : Form) {α : Type} (S : Sim I pos cs) (fuel : Nat) (hf : cs.length < fuel)
    (z : Int) (hz : I.deref (pos cs.length) = .ok (z, pos cs.length))
    (hzb : ∀ a, cs.getLast? = some a → isGraphemeBoundary a z = true)
    {sort : SortFn} (hs : ConformingSort sort) (append : AppendFn (List α)) (enc : List Int → List α)
    (happ : ∀ g ∈ graphemes cs, ∀ o, append o (F.result sort g) = .ok (o ++ enc (F.result sort g)))
    (hb : (decompose F.map cs).length ≤ 2147483647) (out : List α) :
    normalizeText (F.run sort append) I fuel (pos 0) (pos cs.length) out =
      .ok ((F.text sort cs).length, out ++ (graphemes cs).flatMap (fun g => enc (F.result sort g))) := by
  have hle := F.text_length_le hs cs
  refine normalizeText_sim S fuel hf z hz hzb (F.run sort append) (F.result sort) enc ?_
    (by rw [Form.text] at hle; show (List.flatMap (F.result sort) (graphemes cs)).length ≤ _; omega) out
  intro g hg i h1 h2 o
  have hgl : (decompose F.map g).length ≤ (decompose F.map cs).length := by
    rw [decompose, decompose, ← flatMap_flatMap_segments isGraphemeBoundary _ cs]
    exact mem_flatMap_length (f := fun g => g.flatMap (full F.map)) hg
  rw [F.run_sim S fuel hf hs append i g h1 h2 (by omega), happ g hg o]; rfl

/-! ### Sorting -/

/-- Sorted lists with the same subsequence of every class are equal. -/
theorem sorted_ext (ccc : Int → Int) {l1 l2 : List Int} (h1 : CccSorted ccc l1) (h2 : CccSorted ccc l2)
    (h : ∀ k, l1.filter (fun y => ccc y == k) = l2.filter (fun y => ccc y == k)) : l1 = l2 := by
  induction l1 generalizing l2 with
  | nil =>
    cases l2 with
    | nil => rfl
    | cons y l2 => have := h (ccc y); simp at this
  | cons x t ih =>
    cases l2 with
    | nil => have := h (ccc x); simp at this
    | cons y t2 =>
      rw [CccSorted, List.pairwise_cons] at h1 h2
      have hx : x ∈ y :: t2 := by
        have : x ∈ (y :: t2).filter (fun z => ccc z == ccc x) := by rw [← h]; simp
        exact (List.mem_filter.mp this).1
      have hy : y ∈ x :: t := by
        have : y ∈ (x :: t).filter (fun z => ccc z == ccc y) := by rw [h]; simp
        exact (List.mem_filter.mp this).1
      have hle1 : ccc y ≤ ccc x := by
        rcases List.mem_cons.mp hx with e | e
        · rw [e]; omega
        · exact h2.1 x e
      have hle2 : ccc x ≤ ccc y := by
        rcases List.mem_cons.mp hy with e | e
        · rw [e]; omega
        · exact h1.1 y e
      have hk := h (ccc x)
      rw [List.filter_cons_of_pos (by simp), List.filter_cons_of_pos (by simp; omega)] at hk
      obtain ⟨rfl, _⟩ := List.cons.inj hk
      congr 1
      refine ih h1.2 h2.2 (fun k => ?_)
      have := h k
      by_cases he : ccc x = k
      · rw [List.filter_cons_of_pos (by simpa using he), List.filter_cons_of_pos (by simpa using he)] at this
        exact (List.cons.inj this).2
      · rw [List.filter_cons_of_neg (by simpa using he), List.filter_cons_of_neg (by simpa using he)] at this
        exact this

theorem stable_filter {sort : SortFn} (hs : StableSort sort) (l : List Int) (k : Int) :
    (sort canonicalCombiningOrder l).filter (fun y => cccResolve y == k) =
      l.filter (fun y => cccResolve y == k) := by
  by_cases hex : ∃ x ∈ l, cccResolve x = k
  · obtain ⟨x, hx, rfl⟩ := hex
    have := hs.2 _ cco_strictWeak l x
    have he : (fun y => cccResolve y == cccResolve x) =
        (fun y => !canonicalCombiningOrder x y && !canonicalCombiningOrder y x) := by
      funext y
      simp only [canonicalCombiningOrder]
      by_cases h1 : cccResolve y = cccResolve x
      · simp [h1]
      · by_cases h2 : cccResolve x < cccResolve y
        · simp [h1, h2]
        · have : cccResolve y < cccResolve x := by omega
          simp [h1, this]
    rw [he]; exact this
  · have h1 : ∀ m : List Int, (∀ x ∈ m, x ∈ l) → m.filter (fun y => cccResolve y == k) = [] := by
      intro m hm
      rw [List.filter_eq_nil_iff]
      intro y hy hk
      exact hex ⟨y, hm y hy, by simpa using hk⟩
    rw [h1 l (fun _ h => h), h1 _ (fun x hx => (hs.1.perm l).mem_iff.mp hx)]

/-- A stable sort leaves sorted lists alone. -/
theorem stable_sorted {sort : SortFn} (hs : StableSort sort) {l : List Int} (h : CccSorted cccResolve l) :
    sort canonicalCombiningOrder l = l :=
  sorted_ext cccResolve (hs.1.sorted l) h (stable_filter hs l)

/-- Insertion sort: the reference stable sort. -/
def insertBy (lt : Int → Int → Bool) (x : Int) : List Int → List Int
  | [] => [x]
  | y :: l => if lt y x then y :: insertBy lt x l else x :: y :: l
def insSort : SortFn := fun lt l => l.foldr (insertBy lt) []

theorem insertBy_perm (lt) (x : Int) (l : List Int) : (insertBy lt x l).Perm (x :: l) := by
  induction l with
  | nil => exact .refl _
  | cons y l ih =>
    rw [insertBy]
    split
    · exact (ih.cons y).trans (List.Perm.swap x y l)
    · exact .refl _

theorem insSort_perm (lt) (l : List Int) : (insSort lt l).Perm l := by
  induction l with
  | nil => exact .refl _
  | cons x l ih => exact (insertBy_perm lt x _).trans (ih.cons x)

theorem insertBy_sorted {lt} (h : StrictWeak lt) (x : Int) {l : List Int}
    (hl : l.Pairwise (fun a b => lt b a = false)) :
    (insertBy lt x l).Pairwise (fun a b => lt b a = false) := by
  induction l with
  | nil => simp [insertBy]
  | cons y l ih =>
    rw [List.pairwise_cons] at hl
    rw [insertBy]
    split
    · next hyx =>
      rw [List.pairwise_cons]
      refine ⟨?_, ih hl.2⟩
      intro z hz
      rcases List.mem_cons.mp ((insertBy_perm lt x l).mem_iff.mp hz) with rfl | hz
      · cases h2 : lt z y with
        | false => rfl
        | true => have := h.trans _ _ _ hyx h2; rw [h.irrefl] at this; simp at this
      · exact hl.1 z hz
    · next hyx =>
      simp only [Bool.not_eq_true] at hyx
      rw [List.pairwise_cons, List.pairwise_cons]
      refine ⟨?_, hl⟩
      intro z hz
      rcases List.mem_cons.mp hz with rfl | hz
      · exact hyx
      · cases h2 : lt z x with
        | false => rfl
        | true =>
          -- z < x, not z < y, not y < x : contradiction
          exfalso
          have hzy := hl.1 z hz
          cases hyz : lt y z with
          | true => have := h.trans _ _ _ hyz h2; rw [hyx] at this; simp at this
          | false =>
            cases hxy : lt x y with
            | true => have := h.trans _ _ _ h2 hxy; rw [hzy] at this; simp at this
            | false => have := (h.incomp z y x hzy hyz hyx hxy).1; rw [h2] at this; simp at this

theorem insertBy_filter {lt} (h : StrictWeak lt) (x z : Int) (l : List Int) :
    (insertBy lt x l).filter (fun y => !lt z y && !lt y z) =
      (x :: l).filter (fun y => !lt z y && !lt y z) := by
  induction l with
  | nil => rfl
  | cons y l ih =>
    rw [insertBy]
    split
    · next hyx =>
      rw [List.filter_cons, ih]
      by_cases hx : (!lt z x && !lt x z) = true
      · have hy : ¬ (!lt z y && !lt y z) = true := by
          intro hy
          simp only [Bool.and_eq_true, Bool.not_eq_true'] at hx hy
          have := (h.incomp y z x hy.2 hy.1 hx.1 hx.2).1
          rw [hyx] at this; simp at this
        simp only [List.filter_cons, if_neg hy]
      · simp only [List.filter_cons, if_neg hx]
    · rfl

/-- Insertion sort is a stable sort. -/
theorem insSort_stable : StableSort insSort := by
  have hsort : ∀ lt, StrictWeak lt → ∀ l, (insSort lt l).Pairwise (fun a b => lt b a = false) := by
    intro lt h l
    induction l with
    | nil => simp [insSort]
    | cons x l ih => exact insertBy_sorted h x ih
  refine ⟨fun lt h l => ⟨insSort_perm lt l, hsort lt h l⟩, ?_⟩
  intro lt h l z
  induction l with
  | nil => rfl
  | cons x l ih =>
    show (insertBy lt x (insSort lt l)).filter _ = _
    rw [insertBy_filter h, List.filter_cons, ih, List.filter_cons]

/-- All stable sorts agree. -/
theorem stable_unique {s1 s2 : SortFn} (h1 : StableSort s1) (h2 : StableSort s2) (l : List Int) :
    s1 canonicalCombiningOrder l = s2 canonicalCombiningOrder l :=
  sorted_ext cccResolve (h1.1.sorted l) (h2.1.sorted l)
    (fun k => by rw [stable_filter h1, stable_filter h2])

/-- A conforming sort that is not stable: sort the reversed list. -/
def unstableSort : SortFn := fun lt l => insSort lt l.reverse

theorem unstableSort_conforming : ConformingSort unstableSort := by
  intro lt h l
  obtain ⟨h1, h2⟩ := insSort_stable.1 lt h l.reverse
  exact ⟨h1.trans (List.reverse_perm l), h2⟩

/-! ### Composition -/

/-- `l` has no composable neighbours. -/
def Uncomposable (l : List Int) : Prop := Adj (fun a b => compResolve a b = none) l

theorem composeFrom_chain (x a : Int) (l : List Int) (h : compResolve x a = none) :
    Uncomposable (x :: composeFrom compResolve a l) := by
  induction l generalizing x a with
  | nil => exact ⟨h, trivial⟩
  | cons b l ih =>
    rw [composeFrom]
    split
    · next c hc => exact ih x c (comp_result_not_second hc x)
    · next hn => exact ⟨h, ih a b hn⟩

theorem compose_uncomposable (l : List Int) : Uncomposable (compose compResolve l) := by
  cases l with
  | nil => trivial
  | cons a l =>
    show Uncomposable (composeFrom compResolve a l)
    induction l generalizing a with
    | nil => trivial
    | cons b l ih =>
      rw [composeFrom]
      split
      · exact ih _
      · next hn => exact composeFrom_chain a b l hn

theorem composeFrom_id (a : Int) (l : List Int) (h : Uncomposable (a :: l)) :
    composeFrom compResolve a l = a :: l := by
  induction l generalizing a with
  | nil => rfl
  | cons b l ih =>
    have h1 : compResolve a b = none := h.1
    rw [composeFrom, h1]; simp only; rw [ih b h.2]

theorem compose_id {l : List Int} (h : Uncomposable l) : compose compResolve l = l := by
  cases l with
  | nil => rfl
  | cons a l => exact composeFrom_id a l h

/-- Composition does not change the decomposition. -/
theorem decompose_composeFrom {map} (hc : ∀ a b c, compResolve a b = some c → full map c = full map a ++ full map b)
    (a : Int) (l : List Int) :
    decompose map (composeFrom compResolve a l) = decompose map (a :: l) := by
  induction l generalizing a with
  | nil => rfl
  | cons b l ih =>
    rw [composeFrom]
    split
    · next c h => rw [ih, decompose_cons, hc a b c h, decompose_cons, decompose_cons, List.append_assoc]
    · rw [decompose_cons, ih, decompose_cons, decompose_cons, decompose_cons]

theorem decompose_compose {map} (hc : ∀ a b c, compResolve a b = some c → full map c = full map a ++ full map b)
    (l : List Int) : decompose map (compose compResolve l) = decompose map l := by
  cases l with
  | nil => rfl
  | cons a l => exact decompose_composeFrom hc a l

theorem Form.comp_full (F : Form) {a b c : Int} (h : compResolve a b = some c) :
    full F.map c = full F.map a ++ full F.map b := by
  cases F <;> first | exact (comp_facts h).full | exact comp_fullK h

theorem Form.decompose_post (F : Form) (l : List Int) : decompose F.map (F.post l) = decompose F.map l := by
  cases hF : F <;> simp only [Form.post, id] <;>
    exact decompose_compose (fun a b c h => hF ▸ F.comp_full h) l

theorem Form.decompose_sorted (F : Form) {sort : SortFn} (hs : ConformingSort sort) (g : List Int) :
    decompose F.map (sort canonicalCombiningOrder (decompose F.map g)) =
      sort canonicalCombiningOrder (decompose F.map g) := by
  refine decompose_id fun x hx => ?_
  have := (hs.perm _).mem_iff.mp hx
  obtain ⟨c, _, hc⟩ := List.mem_flatMap.mp this
  exact F.facts.elem_full hc

/-- Decomposing the result of a form gives the ordered decomposition. -/
theorem Form.decompose_result (F : Form) {sort : SortFn} (hs : ConformingSort sort) (g : List Int) :
    decompose F.map (F.result sort g) = sort canonicalCombiningOrder (decompose F.map g) := by
  rw [Form.result, F.decompose_post, F.decompose_sorted hs]

end U5e
