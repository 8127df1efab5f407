import Verif.Proofs.Forms
/-! Re-normalizing normalized text: list-level theory. -/
namespace U5e
open Spec

/-- First codepoint of the decomposition. -/
def Form.hd (F : Form) (x : Int) : Int := (full F.map x).headD 0
/-- Last codepoint of the decomposition. -/
def Form.ls (F : Form) (x : Int) : Int := (full F.map x).getLastD 0

theorem Form.head_full (F : Form) (x : Int) : (full F.map x).head? = some (F.hd x) := by
  have := F.facts.ne_nil x
  rw [Form.hd]
  cases h : full F.map x with
  | nil => exact absurd h this
  | cons a l => rfl

theorem Form.last_full (F : Form) (x : Int) : (full F.map x).getLast? = some (F.ls x) := by
  have := F.facts.ne_nil x
  rw [Form.ls]
  cases h : (full F.map x).getLast? with
  | none => exact absurd (List.getLast?_eq_none_iff.mp h) this
  | some a => rw [List.getLastD_eq_getLast?, h]; rfl

/-- The orders of neighbours whose violation between unbroken neighbours makes the text move again. -/
def Form.Ordered (F : Form) (x y : Int) : Prop := cccResolve (F.ls x) ≤ cccResolve (F.hd y)

theorem cccSorted_adj {l : List Int} :
    CccSorted cccResolve l ↔ Adj (fun a b => cccResolve a ≤ cccResolve b) l :=
  pairwise_adj (Q := fun a b => cccResolve a ≤ cccResolve b) (fun _ _ _ h1 h2 => Int.le_trans h1 h2)

theorem Form.sorted_decompose (F : Form) (g : List Int) :
    CccSorted cccResolve (decompose F.map g) ↔ Adj F.Ordered g := by
  rw [cccSorted_adj, decompose, adj_flatMap F.facts.ne_nil]
  constructor
  · rintro ⟨_, h⟩
    exact h.imp fun a b hj => hj _ _ (F.last_full a) (F.head_full b)
  · intro h
    refine ⟨fun x _ => cccSorted_adj.mp (F.facts.sorted x), h.imp fun a b ho x y hx hy => ?_⟩
    rw [F.last_full] at hx; rw [F.head_full] at hy
    cases hx; cases hy; exact ho

/-- Text-level: unbroken neighbours are ordered. -/
def Form.Settled (F : Form) (z : List Int) : Prop :=
  Adj (fun x y => isGraphemeBoundary x y = false → F.Ordered x y) z

theorem Form.settled_iff (F : Form) (z : List Int) :
    F.Settled z ↔ ∀ k ∈ graphemes z, CccSorted cccResolve (decompose F.map k) := by
  rw [Form.Settled, adj_segments]
  exact forall_congr' fun k => forall_congr' fun _ => (F.sorted_decompose k).symm

/-- The form without composition that goes with a form. -/
def Form.base : Form → Form
  | .D | .C => .D
  | .KD | .KC => .KD

theorem Form.base_map (F : Form) : F.base.map = F.map := by cases F <;> rfl

/-- Ordered decomposition of a grapheme. -/
abbrev Form.block (F : Form) (sort : SortFn) (g : List Int) : List Int :=
  sort canonicalCombiningOrder (decompose F.map g)

theorem Form.base_text (F : Form) (sort : SortFn) (cs : List Int) :
    F.base.text sort cs = (graphemes cs).flatMap (F.block sort) := by
  cases F <;> rfl

theorem flatMap_congr_lengths {f g : List Int → List Int} (hl : ∀ x, (f x).length = (g x).length) :
    ∀ ws : List (List Int), ws.flatMap f = ws.flatMap g → ∀ w ∈ ws, f w = g w := by
  intro ws
  induction ws with
  | nil => simp
  | cons w ws ih =>
    intro h x hx
    rw [List.flatMap_cons, List.flatMap_cons] at h
    obtain ⟨h1, h2⟩ := List.append_inj h (hl w)
    rcases List.mem_cons.mp hx with rfl | hx
    · exact h1
    · exact ih h2 x hx

theorem decompose_graphemes (map) (z : List Int) :
    decompose map z = (graphemes z).flatMap (decompose map) :=
  (flatMap_flatMap_segments isGraphemeBoundary (full map) z).symm

/-- Re-normalizing keeps the decomposition exactly for settled texts. -/
theorem Form.base_text_iff (F : Form) {sort : SortFn} (hs : StableSort sort) (z : List Int) :
    F.base.text sort z = decompose F.map z ↔ F.Settled z := by
  rw [F.base_text, decompose_graphemes, F.settled_iff]
  constructor
  · intro h k hk
    have := flatMap_congr_lengths (f := F.block sort) (g := decompose F.map)
      (fun x => (hs.1.perm _).length_eq) _ h k hk
    rw [← this]; exact hs.1.sorted _
  · intro h
    rw [List.flatMap_def, List.flatMap_def]
    congr 1
    exact List.map_congr_left fun k hk => stable_sorted hs (h k hk)

theorem Form.decompose_text (F : Form) {sort : SortFn} (hs : ConformingSort sort) (x : List Int) :
    decompose F.map (F.text sort x) = F.base.text sort x := by
  rw [F.base_text, Form.text, decompose, List.flatMap_assoc]
  congr 1
  funext g
  exact F.decompose_result hs g

theorem Form.decompose_text_length (F : Form) {sort : SortFn} (hs : ConformingSort sort) (x : List Int) :
    (decompose F.map (F.text sort x)).length = (decompose F.map x).length := by
  rw [F.decompose_text hs, F.base_text, decompose_graphemes]
  generalize graphemes x = gs
  induction gs with
  | nil => rfl
  | cons g gs ih =>
    rw [List.flatMap_cons, List.flatMap_cons, List.length_append, List.length_append, ih,
      (hs.perm _).length_eq]

/-! ### What happens at a grapheme boundary -/

theorem noBreak_ctl_right {a b : Int} (h : isGraphemeBoundary a b = false)
    (hb : isCtl (gcbResolve b) = true) : isCtl (gcbResolve a) = true := by
  revert h hb
  rw [isGraphemeBoundary]
  cases gcbResolve a <;> cases gcbResolve b <;> decide

/-- A grapheme that ends in a control consists of controls. -/
theorem ctl_grapheme {g : List Int} (hin : ∀ pre a b post, g = pre ++ a :: b :: post →
    isGraphemeBoundary a b = false) {p : Int} (hp : g.getLast? = some p)
    (hc : isCtl (gcbResolve p) = true) : ∀ x ∈ g, isCtl (gcbResolve x) = true := by
  induction g with
  | nil => simp
  | cons a g ih =>
    cases g with
    | nil =>
      simp at hp
      subst hp
      intro x hx; simp at hx; rw [hx]; exact hc
    | cons b g =>
      have := ih (fun pre x y post he => hin (a :: pre) x y post (by simp [he]))
        (by rwa [List.getLast?_cons_cons] at hp)
      intro x hx
      rcases List.mem_cons.mp hx with rfl | hx
      · exact noBreak_ctl_right (hin [] x b g rfl) (this b (by simp))
      · exact this x hx

theorem stable_head {sort : SortFn} (hs : StableSort sort) {h : Int} {t : List Int} (h0 : cccResolve h = 0) :
    (sort canonicalCombiningOrder (h :: t)).head? = some h := by
  have hf := stable_filter hs (h :: t) 0
  rw [List.filter_cons_of_pos (by simpa using h0)] at hf
  have hsort := hs.1.sorted (h :: t)
  cases hw : sort canonicalCombiningOrder (h :: t) with
  | nil => rw [hw] at hf; simp at hf
  | cons e w =>
    rw [hw] at hf hsort
    rw [CccSorted, List.pairwise_cons] at hsort
    have hmem : h ∈ e :: w := by
      have : h ∈ (e :: w).filter (fun y => cccResolve y == 0) := by rw [hf]; simp
      exact (List.mem_filter.mp this).1
    have he : cccResolve e = 0 := by
      rcases List.mem_cons.mp hmem with e1 | e1
      · rw [← e1]; exact h0
      · have := hsort.1 h e1; have := ccc_nonneg e; omega
    rw [List.filter_cons_of_pos (by simpa using he)] at hf
    simp [(List.cons.inj hf).1]

/-- Non-marks other than ZWJ. -/
def isPlain (v : GCB) : Bool := match v with
  | .EXTEND | .SPACINGMARK | .ZWJ => false
  | _ => true

theorem plain_of_break {p c : Int} (h : isGraphemeBoundary p c = true) (hp : isCtl (gcbResolve p) = false) :
    isPlain (gcbResolve c) = true := by
  revert h hp
  rw [isGraphemeBoundary]
  cases gcbResolve p <;> cases gcbResolve c <;> decide

theorem plain_ccc {c : Int} (h : isPlain (gcbResolve c) = true) : cccResolve c = 0 := by
  by_cases h0 : cccResolve c = 0
  · exact h0
  · rcases ccc_gcb h0 with h1 | h1 <;> rw [h1] at h <;> simp [isPlain] at h

/-- The first codepoint of the decomposition of a plain codepoint is plain. -/
theorem Form.plain_hd (F : Form) {c : Int} (h : isPlain (gcbResolve c) = true) :
    isPlain (gcbResolve (F.hd c)) = true ∧
      (gcbResolve (F.hd c) = .E_MODIFIER ↔ gcbResolve c = .E_MODIFIER) := by
  have hh := F.head_full c
  cases hf : full F.map c with
  | nil => exact absurd hf (F.facts.ne_nil c)
  | cons a t =>
    rw [hf] at hh
    simp at hh
    rw [← hh]
    rcases F.facts.head hf with ⟨rfl, _⟩ | hok
    · exact ⟨h, Iff.rfl⟩
    · revert hok h
      cases gcbResolve c <;> cases gcbResolve a <;> decide

/-- A codepoint whose decomposition starts with a plain codepoint is plain. -/
theorem Form.plain_of_hd (F : Form) {c : Int} (h : isPlain (gcbResolve (F.hd c)) = true) :
    isPlain (gcbResolve c) = true ∧
      (gcbResolve (F.hd c) = .E_MODIFIER ↔ gcbResolve c = .E_MODIFIER) := by
  have hh := F.head_full c
  cases hf : full F.map c with
  | nil => exact absurd hf (F.facts.ne_nil c)
  | cons a t =>
    rw [hf] at hh
    simp at hh
    rw [← hh] at h ⊢
    rcases F.facts.head hf with ⟨rfl, _⟩ | hok
    · exact ⟨h, Iff.rfl⟩
    · revert hok h
      cases gcbResolve c <;> cases gcbResolve a <;> decide

/-- A codepoint whose decomposition ends in a non-starter is Other, SpacingMark or Extend. -/
theorem Form.oes_of_ls (F : Form) {c : Int} (h : cccResolve (F.ls c) ≠ 0) :
    isOES (gcbResolve c) = true := by
  cases hm : F.map c with
  | none =>
    have : F.ls c = c := by rw [Form.ls, F.facts.none_ hm]; rfl
    rw [this] at h
    rcases ccc_gcb h with h1 | h1 <;> rw [h1] <;> rfl
  | some m =>
    obtain ⟨h', t', _, hok, _⟩ := F.facts.some_ c m hm
    revert hok
    cases gcbResolve c <;> cases gcbResolve h' <;> decide

variable {sort : SortFn}

/-- The blocks of two consecutive graphemes: either the first grapheme consists of controls and is its
own block, or the second block starts with the head of the second grapheme's decomposition, a plain
codepoint. -/
theorem Form.junction (F : Form) (hs : StableSort sort) {cs : List Int} {p q : List (List Int)}
    {g h : List Int} (hgs : graphemes cs = p ++ g :: h :: q) :
    (F.block sort g = g ∧ ∀ x ∈ g, isCtl (gcbResolve x) = true) ∨
    ∃ c0 h', h = c0 :: h' ∧ isPlain (gcbResolve c0) = true ∧
      (F.block sort h).head? = some (F.hd c0) := by
  have seg := segments_isSegmentation isGraphemeBoundary cs
  rw [show segments isGraphemeBoundary cs = p ++ g :: h :: q from hgs] at seg
  have hgne := seg.nonempty g (by simp)
  have hhne := seg.nonempty h (by simp)
  cases hl : g.getLast? with
  | none => exact absurd (List.getLast?_eq_none_iff.mp hl) hgne
  | some p0 =>
    cases h with
    | nil => exact absurd rfl hhne
    | cons c0 h' =>
      have hbrk := seg.between p g (c0 :: h') q rfl p0 c0 hl rfl
      cases hp : isCtl (gcbResolve p0) with
      | true =>
        left
        have hall := ctl_grapheme (fun pre a b post he => by
          have := seg.inside g (by simp) pre a b post he; simpa using this) hl hp
        have hd : decompose F.map g = g := decompose_id fun x hx => F.facts.ctl (hall x hx)
        refine ⟨?_, hall⟩
        rw [Form.block, hd]
        refine stable_sorted hs ?_
        refine List.pairwise_iff_forall_sublist.mpr ?_
        intro a b hab
        have ha : a ∈ g := hab.subset (by simp)
        have hb : b ∈ g := hab.subset (by simp)
        rw [ctl_ccc (hall a ha), ctl_ccc (hall b hb)]; omega
      | false =>
        right
        have hpl := plain_of_break hbrk hp
        refine ⟨c0, h', rfl, hpl, ?_⟩
        rw [Form.block, decompose_cons]
        have hh := F.head_full c0
        cases hf : full F.map c0 with
        | nil => exact absurd hf (F.facts.ne_nil c0)
        | cons a t =>
          rw [hf] at hh; simp at hh
          rw [← hh]
          refine stable_head hs ?_
          rw [hh]; exact plain_ccc (F.plain_hd hpl).1

theorem Form.block_ne_nil (F : Form) (hs : ConformingSort sort) {g : List Int} (h : g ≠ []) :
    F.block sort g ≠ [] := by
  intro he
  have := (hs.perm (decompose F.map g)).length_eq
  rw [show sort canonicalCombiningOrder (decompose F.map g) = [] from he] at this
  cases g with
  | nil => exact h rfl
  | cons c g =>
    rw [decompose_cons] at this
    have := F.facts.ne_nil c
    cases hf : full F.map c with
    | nil => exact this hf
    | cons a t => simp [hf] at *

/-! ### Composition across blocks -/

theorem composeFrom_append (a : Int) (l : List Int) (b : Int) (r : List Int)
    (h : ∀ x, (composeFrom compResolve a l).getLast? = some x → compResolve x b = none) :
    composeFrom compResolve a (l ++ b :: r) =
      composeFrom compResolve a l ++ composeFrom compResolve b r := by
  induction l generalizing a with
  | nil => simp only [List.nil_append, composeFrom]; rw [h a (by simp [composeFrom])]; rfl
  | cons y l ih =>
    rw [List.cons_append, composeFrom, composeFrom]
    rw [composeFrom] at h
    cases hc : compResolve a y with
    | some c => rw [hc] at h; exact ih c h
    | none =>
      rw [hc] at h
      simp only at h ⊢
      rw [List.cons_append, ih y]
      intro x hx
      apply h
      cases hcc : composeFrom compResolve y l with
      | nil => rw [hcc] at hx; simp at hx
      | cons z t => rw [List.getLast?_cons_cons, ← hcc]; exact hx

theorem compose_append {u : List Int} (b : Int) (r : List Int)
    (h : ∀ x, (compose compResolve u).getLast? = some x → compResolve x b = none) :
    compose compResolve (u ++ b :: r) = compose compResolve u ++ compose compResolve (b :: r) := by
  cases u with
  | nil => rfl
  | cons a l => exact composeFrom_append a l b r h

theorem compose_flatten (ws : List (List Int)) (hne : ∀ w ∈ ws, w ≠ [])
    (h : Adj (fun u v => ∀ x b, (compose compResolve u).getLast? = some x → v.head? = some b →
      compResolve x b = none) ws) :
    compose compResolve ws.flatten = ws.flatMap (compose compResolve) := by
  induction ws with
  | nil => rfl
  | cons w ws ih =>
    rw [adj_cons] at h
    rw [List.flatten_cons, List.flatMap_cons, ← ih (fun x hx => hne x (by simp [hx])) h.2]
    cases ws with
    | nil => simp [compose]
    | cons v ws =>
      have hv := hne v (by simp)
      cases v with
      | nil => exact absurd rfl hv
      | cons b v =>
        rw [List.flatten_cons, List.cons_append]
        exact compose_append b _ fun x hx => h.1 (b :: v) rfl x b hx rfl

theorem last_composeFrom (a : Int) (l : List Int) {x e : Int}
    (hx : (composeFrom compResolve a l).getLast? = some x) (he : (a :: l).getLast? = some e) :
    x = e ∨ isMark (gcbResolve e) = true ∨ (l = [] ∧ x = a) := by
  induction l generalizing a with
  | nil => simp [composeFrom] at hx; exact .inr (.inr ⟨rfl, hx.symm⟩)
  | cons b l ih =>
    rw [List.getLast?_cons_cons] at he
    rw [composeFrom] at hx
    cases hc : compResolve a b with
    | some c =>
      rw [hc] at hx
      cases l with
      | nil =>
        simp at he; subst he
        exact .inr (.inl (comp_facts hc).gcb2)
      | cons b' l =>
        have := ih c hx (by rw [List.getLast?_cons_cons] at he ⊢; exact he)
        simpa using this
    | none =>
      rw [hc] at hx
      simp only at hx
      have hx' : (composeFrom compResolve b l).getLast? = some x := by
        cases hcc : composeFrom compResolve b l with
        | nil =>
          have := composeFrom_length_pos compResolve b l
          rw [hcc] at this; simp at this
        | cons z t => rw [hcc, List.getLast?_cons_cons] at hx; exact hx
      have := ih b hx' he
      rcases this with h | h | ⟨rfl, rfl⟩
      · exact .inl h
      · exact .inr (.inl h)
      · simp at he; exact .inl he

/-- The last codepoint of a composed list that ends in a control is that control. -/
theorem last_compose_ctl {l : List Int} {x e : Int}
    (hx : (compose compResolve l).getLast? = some x) (he : l.getLast? = some e)
    (hc : isCtl (gcbResolve e) = true) : x = e := by
  cases l with
  | nil => simp at he
  | cons a l =>
    rcases last_composeFrom a l hx he with h | h | ⟨rfl, rfl⟩
    · exact h
    · exfalso; revert h hc; cases gcbResolve e <;> decide
    · simpa using he

theorem comp_ctl_none {x b : Int} (h : isCtl (gcbResolve x) = true) : compResolve x b = none := by
  cases hc : compResolve x b with
  | none => rfl
  | some c =>
    have := (comp_facts hc).gcb1
    exfalso; revert this h; cases gcbResolve x <;> decide

theorem comp_plain_none {x b : Int} (h : isPlain (gcbResolve b) = true) : compResolve x b = none := by
  cases hc : compResolve x b with
  | none => rfl
  | some c =>
    have := (comp_facts hc).gcb2
    exfalso; revert this h; cases gcbResolve b <;> decide

/-- NFC is the composition of NFD (of the whole text), likewise NFKC. -/
theorem compose_base_text (F : Form) (hs : StableSort sort) (cs : List Int) :
    compose compResolve (F.base.text sort cs) =
      (graphemes cs).flatMap (fun g => compose compResolve (F.block sort g)) := by
  rw [F.base_text, List.flatMap_def, compose_flatten, List.flatMap_def, List.map_map, List.flatMap_def]
  · rfl
  · intro w hw
    obtain ⟨g, hg, rfl⟩ := List.mem_map.mp hw
    exact F.block_ne_nil hs.1 (segments_nonempty _ _ g hg)
  · refine adj_iff.mpr ?_
    intro p u v q he x b hx hb
    obtain ⟨l1, l2, h1, h2, h3⟩ := List.map_eq_append_iff.mp he
    obtain ⟨g, l3, rfl, rfl, h4⟩ := List.map_eq_cons_iff.mp h3
    obtain ⟨h, l4, rfl, rfl, h5⟩ := List.map_eq_cons_iff.mp h4
    rcases F.junction hs h1 with ⟨hbl, hall⟩ | ⟨c0, h', rfl, hpl, hhd⟩
    · rw [hbl] at hx
      cases hl : g.getLast? with
      | none =>
        rw [List.getLast?_eq_none_iff.mp hl] at hx; simp [compose] at hx
      | some e =>
        have hce := hall e (List.mem_of_getLast? hl)
        rw [last_compose_ctl hx hl hce]
        exact comp_ctl_none hce
    · rw [hhd] at hb; cases hb
      exact comp_plain_none (F.plain_hd hpl).1

/-- The composing form of a form. -/
theorem Form.text_eq (F : Form) (hs : StableSort sort) (cs : List Int) :
    F.text sort cs = F.post (F.base.text sort cs) := by
  cases F
  · rfl
  · exact (compose_base_text .C hs cs).symm
  · rfl
  · exact (compose_base_text .KC hs cs).symm

/-! ### Re-normalization -/

/-- Which texts are fixed by re-normalization, in terms of the text alone; `x` any text, `F`, `G` forms
with the same table. -/
theorem Form.renormalize (F G : Form) (hbase : F.base = G.base)
    (hs : StableSort sort) (x : List Int) :
    G.text sort (F.text sort x) = G.text sort x ↔ F.Settled (F.text sort x) := by
  rw [← F.base_text_iff hs, F.decompose_text hs.1]
  constructor
  · intro h
    have := congrArg (decompose G.map) h
    rw [G.decompose_text hs.1, G.decompose_text hs.1, ← hbase] at this
    exact this
  · intro h
    rw [G.text_eq hs, G.text_eq hs, ← hbase, h]

/-- Where re-normalization goes wrong: an emoji modifier starts a grapheme after a grapheme whose
normal form ends in an Extend codepoint that ends in a non-starter. -/
def Form.BadJunction (F : Form) (sort : SortFn) (gs : List (List Int)) : Prop :=
  ∃ p g h q m e, gs = p ++ g :: h :: q ∧ h.head? = some m ∧ gcbResolve m = .E_MODIFIER ∧
    (F.result sort g).getLast? = some e ∧ gcbResolve e = .EXTEND ∧ cccResolve (F.ls e) ≠ 0

theorem last_decompose (F : Form) {l : List Int} {e : Int} (h : l.getLast? = some e) :
    (decompose F.map l).getLast? = some (F.ls e) := by
  obtain ⟨l', rfl⟩ := List.getLast?_eq_some_iff.mp h
  rw [decompose_append, decompose_cons, decompose_nil, List.append_nil, List.getLast?_append, F.last_full]
  rfl

theorem head_decompose (F : Form) {l : List Int} {e : Int} (h : l.head? = some e) :
    (decompose F.map l).head? = some (F.hd e) := by
  cases l with
  | nil => simp at h
  | cons a l =>
    simp at h; subst h
    rw [decompose_cons, List.head?_append, F.head_full]; rfl

theorem plain_break {x y : Int} (hy : isPlain (gcbResolve y) = true) (hx : isOES (gcbResolve x) = true) :
    isGraphemeBoundary x y = false ↔ gcbResolve x = .EXTEND ∧ gcbResolve y = .E_MODIFIER := by
  revert hx hy
  rw [isGraphemeBoundary]
  cases gcbResolve x <;> cases gcbResolve y <;> decide

theorem Form.result_ne_nil (F : Form) (hs : ConformingSort sort) {g : List Int} (h : g ≠ []) :
    F.result sort g ≠ [] := by
  intro he
  have := F.decompose_result hs g
  rw [he, decompose_nil] at this
  exact F.block_ne_nil hs h this.symm

theorem Form.settled_text_iff (F : Form) (hs : StableSort sort) (cs : List Int) :
    F.Settled (F.text sort cs) ↔ ¬ F.BadJunction sort (graphemes cs) := by
  have hne : ∀ w ∈ (graphemes cs).map (F.result sort), w ≠ [] := by
    intro w hw
    obtain ⟨g, hg, rfl⟩ := List.mem_map.mp hw
    exact F.result_ne_nil hs.1 (segments_nonempty _ _ g hg)
  rw [Form.Settled, Form.text, List.flatMap_def, adj_flatten hne]
  have hin : ∀ w ∈ (graphemes cs).map (F.result sort),
      Adj (fun x y => isGraphemeBoundary x y = false → F.Ordered x y) w := by
    intro w hw
    obtain ⟨g, hg, rfl⟩ := List.mem_map.mp hw
    refine Adj.imp (R := F.Ordered) (Q := fun x y => isGraphemeBoundary x y = false → F.Ordered x y) (fun a b hq _ => hq) ?_
    rw [← F.sorted_decompose, F.decompose_result hs.1]
    exact hs.1.sorted _
  constructor
  · rintro ⟨_, hj⟩ ⟨p, g, h, q, m, e, hgs, hm, hmod, hl, he, hc⟩
    rw [hgs, List.map_append, List.map_cons, List.map_cons] at hj
    have hj := adj_iff.mp hj _ _ _ _ rfl
    have hh : (F.result sort h).head? = some ((F.result sort h).headD 0) := by
      cases hr : F.result sort h with
      | nil =>
        exact absurd hr (F.result_ne_nil hs.1 (by intro h0; subst h0; simp at hm))
      | cons a l => rfl
    have hord := hj e _ hl hh
    generalize (F.result sort h).headD 0 = y at hh hord
    -- identify the head
    rcases F.junction hs hgs with ⟨hbl, hall⟩ | ⟨c0, h', rfl, hpl, hhd⟩
    · have := last_decompose F hl
      rw [F.decompose_result hs.1] at this
      rw [show sort canonicalCombiningOrder (decompose F.map g) = g from hbl] at this
      exact hc (ctl_ccc (hall _ (List.mem_of_getLast? this)))
    · simp at hm; subst hm
      have hy := head_decompose F hh
      rw [F.decompose_result hs.1, hhd] at hy
      have hy : F.hd c0 = F.hd y := by simpa using hy
      have h1 := F.plain_hd hpl
      have h2 := F.plain_of_hd (c := y) (by rw [← hy]; exact h1.1)
      have hymod : gcbResolve y = .E_MODIFIER := h2.2.mp (by rw [← hy]; exact h1.2.mpr hmod)
      have := hord ((plain_break h2.1 (by rw [he]; rfl)).mpr ⟨he, hymod⟩)
      rw [Form.Ordered, ← hy, plain_ccc h1.1] at this
      have := ccc_nonneg (F.ls e)
      omega
  · intro hbad
    refine ⟨hin, adj_iff.mpr ?_⟩
    intro p u v q he x y hx hy hbrk
    obtain ⟨l1, l2, h1, h2, h3⟩ := List.map_eq_append_iff.mp he
    obtain ⟨g, l3, rfl, rfl, h4⟩ := List.map_eq_cons_iff.mp h3
    obtain ⟨h, l4, rfl, rfl, h5⟩ := List.map_eq_cons_iff.mp h4
    have hlast := last_decompose F hx
    have hhead := head_decompose F hy
    rw [F.decompose_result hs.1] at hlast hhead
    rw [Form.Ordered]
    by_cases hc : cccResolve (F.ls x) = 0
    · rw [hc]; exact ccc_nonneg _
    · exfalso
      rcases F.junction hs h1 with ⟨hbl, hall⟩ | ⟨c0, h', rfl, hpl, hhd⟩
      · rw [show sort canonicalCombiningOrder (decompose F.map g) = g from hbl] at hlast
        exact hc (ctl_ccc (hall _ (List.mem_of_getLast? hlast)))
      · rw [hhd] at hhead
        have hyy : F.hd c0 = F.hd y := by simpa using hhead
        have g1 := F.plain_hd hpl
        have g2 := F.plain_of_hd (c := y) (by rw [← hyy]; exact g1.1)
        obtain ⟨k1, k2⟩ := (plain_break g2.1 (F.oes_of_ls hc)).mp hbrk
        exact hbad ⟨l1, g, c0 :: h', l4, c0, x, h1, rfl, g1.2.mp (by rw [hyy]; exact g2.2.mpr k2), hx, k1, hc⟩

/-! ### Emoji modifiers after emoji bases -/

/-- Every emoji modifier directly follows an emoji base. -/
abbrev ModifiersFollowBases (cs : List Int) : Prop := ModifiersFollowBasesBy gcbResolve cs

/-- The same for two neighbours. -/
def ModPair (a b : Int) : Prop := gcbResolve b = .E_MODIFIER → gcbResolve a = .E_BASE ∨ gcbResolve a = .E_BASE_GAZ

/-- Emoji modifiers only directly after emoji bases. -/
structure GoodMod (l : List Int) : Prop where
  head : ∀ m, l.head? = some m → gcbResolve m ≠ .E_MODIFIER
  adj : Adj ModPair l

theorem GoodMod.of_none {l : List Int} (h : ∀ c ∈ l, gcbResolve c ≠ .E_MODIFIER) : GoodMod l :=
  ⟨fun m hm => h m (List.mem_of_head? hm), adj_iff.mpr fun p a b q he hb => absurd hb (h b (by simp [he]))⟩

/-- The graphemes of such a text are such. -/
theorem GoodMod.grapheme {cs g : List Int} (h : GoodMod cs) (hg : g ∈ graphemes cs) : GoodMod g := by
  have seg := segments_isSegmentation isGraphemeBoundary cs
  obtain ⟨p, q, he⟩ := List.append_of_mem hg
  have he' : segments isGraphemeBoundary cs = p ++ g :: q := he
  have hfl : cs = p.flatten ++ (g ++ q.flatten) := by
    have := segments_flatten isGraphemeBoundary cs
    rw [he'] at this; rw [← this]; simp
  have hadj := h.adj
  rw [hfl, adj_append, adj_append] at hadj
  refine ⟨fun m hm hmm => ?_, hadj.2.1.1⟩
  cases hp : p.getLast? with
  | none =>
    rw [List.getLast?_eq_none_iff] at hp
    subst hp
    refine h.head m ?_ hmm
    rw [hfl]
    cases g with
    | nil => simp at hm
    | cons a g => simpa using hm
  | some g' =>
    obtain ⟨p', rfl⟩ := List.getLast?_eq_some_iff.mp hp
    have hne : g' ≠ [] := seg.nonempty g' (by rw [he']; simp)
    cases hl : g'.getLast? with
    | none => exact hne (List.getLast?_eq_none_iff.mp hl)
    | some a =>
      have hb := seg.between p' g' g q (by rw [he']; simp) a m hl hm
      have hP : ModPair a m := by
        refine hadj.2.2 a m ?_ ?_
        · obtain ⟨w, rfl⟩ := List.getLast?_eq_some_iff.mp hl
          simp [List.getLast?_append]
        · cases g with
          | nil => simp at hm
          | cons x g => simpa using hm
      have := hP hmm
      rw [isGraphemeBoundary, hmm] at hb
      rcases this with e | e <;> rw [e] at hb <;> revert hb <;> decide

/-- `ModifiersFollowBases`, between neighbours. -/
theorem goodMod_iff {cs : List Int} : ModifiersFollowBases cs ↔ GoodMod cs := by
  constructor
  · intro h
    refine ⟨fun m hm hmm => ?_, adj_iff.mpr fun p a b q he hb => ?_⟩
    · cases cs with
      | nil => simp at hm
      | cons a l =>
        obtain rfl : a = m := by simpa using hm
        obtain ⟨p', b, e, _⟩ := h [] a l rfl hmm
        simp at e
    · obtain ⟨p', x, e, hx⟩ := h (p ++ [a]) b q (by simp [he]) hb
      obtain ⟨_, e⟩ := List.append_inj' e rfl
      obtain rfl : a = x := by simpa using e
      exact hx
  · rintro h p m q he hm
    cases hl : p.getLast? with
    | none =>
      rw [List.getLast?_eq_none_iff] at hl
      subst hl
      exact absurd hm (h.head m (by simp [he]))
    | some b =>
      obtain ⟨p', rfl⟩ := List.getLast?_eq_some_iff.mp hl
      exact ⟨p', b, rfl, adj_iff.mp h.adj p' b m q (by simp [he]) hm⟩

/-- `ModifiersFollowBases` by look-up. -/
def modifiersOk : List Int → Bool
  | [] => true
  | a :: l => gcbResolve a != .E_MODIFIER && ((a :: l).zip l).all fun x =>
      gcbResolve x.2 != .E_MODIFIER || (gcbResolve x.1 == .E_BASE || gcbResolve x.1 == .E_BASE_GAZ)

theorem adj_zip {R : Int → Int → Prop} : ∀ {a : Int} {l : List Int}, (∀ x ∈ (a :: l).zip l, R x.1 x.2) → Adj R (a :: l)
  | _, [], _ => trivial
  | a, b :: l, h => adj_cons.mpr ⟨fun x hx => by
      obtain rfl : b = x := by simpa using hx
      exact h (a, b) (by simp), adj_zip fun x hx => h x (by simp at hx ⊢; exact .inr hx)⟩

theorem modifiers_of {cs : List Int} (h : modifiersOk cs = true) : ModifiersFollowBases cs := by
  refine goodMod_iff.mpr ?_
  cases cs with
  | nil => exact .of_none (by simp)
  | cons a l =>
    rw [modifiersOk, Bool.and_eq_true, bne_iff_ne, List.all_eq_true] at h
    refine ⟨fun m hm => ?_, adj_zip fun x hx hm => ?_⟩
    · obtain rfl : a = m := by simpa using hm
      exact h.1
    · have := h.2 x hx
      rw [hm] at this
      simpa using this

theorem modifiers_of_none {cs : List Int} (h : ∀ c ∈ cs, gcbResolve c ≠ .E_MODIFIER) : ModifiersFollowBases cs :=
  goodMod_iff.mpr (.of_none h)

end U5e
