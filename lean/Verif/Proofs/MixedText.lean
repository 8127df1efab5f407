import Verif.Proofs.MixedBlock
/-! Compatibility forms of canonical forms; graphemes of normalized text. -/
namespace U5e
open Spec

theorem other_pred {a b : Int} (h : isGraphemeBoundary a b = false)
    (hb : gcbResolve b = .OTHER ∨ gcbResolve b = .PREPEND) : gcbResolve a = .PREPEND := by
  revert h hb
  rw [isGraphemeBoundary]
  cases gcbResolve a <;> cases gcbResolve b <;> decide

theorem before_other {u : List Int} (h : Adj UnbrokenN u) :
    ∀ (n : Nat) (p : List Int) (e : Int) (q : List Int), p.length = n → u = p ++ e :: q →
      gcbResolve e = .OTHER ∨ gcbResolve e = .PREPEND → ∀ x ∈ p, gcbResolve x = .PREPEND := by
  intro n
  induction n with
  | zero => intro p e q hl _ _ x hx; simp at hl; subst hl; simp at hx
  | succ n ih =>
    intro p e q hl he hc x hx
    obtain ⟨a, ha⟩ : ∃ a, p.getLast? = some a := by
      cases hp : p.getLast? with
      | none => rw [List.getLast?_eq_none_iff.mp hp] at hl; simp at hl
      | some a => exact ⟨a, rfl⟩
    obtain ⟨p', rfl⟩ := List.getLast?_eq_some_iff.mp ha
    have h1 := other_pred (adj_iff.mp h p' a e q (by rw [he]; simp)).1 hc
    rcases List.mem_append.mp hx with hx | hx
    · exact ih p' a (e :: q) (by simpa using hl) (by rw [he]; simp) (.inr h1) x hx
    · simp at hx; rw [hx]; exact h1

/-- The decomposition of a grapheme with emoji modifiers only after bases. -/
theorem otherFirst_decompose {g : List Int} (hg : Adj (fun a b => isGraphemeBoundary a b = false) g)
    (hmod : GoodMod g) : OtherFirst (decompose decResolve g) := by
  rcases ctl_dichotomy hg with hc | hc
  · rw [decompose_id fun x hx => factsD.ctl (hc x hx)]
    intro p e q he ho
    have := hc e (by rw [he]; simp)
    rw [ho] at this; simp [isCtl] at this
  · intro p e q he ho x hx
    have := before_other (decompose_unbroken hg hc hmod) _ p e q rfl he (.inl ho) x hx
    exact plain_ccc (by rw [this]; rfl)

theorem atomic_decompose (g : List Int) : Atomic (decompose decResolve g) := by
  intro x hx
  obtain ⟨c, _, hx⟩ := List.mem_flatMap.mp hx
  exact factsD.elem hx

theorem decomposeK_decomposeD (g : List Int) :
    decompose kdecResolve (decompose decResolve g) = decompose kdecResolve g := by
  rw [decompose, decompose, List.flatMap_assoc, decompose]
  congr 1
  funext c
  exact (fullK_fullD c).symm

theorem grapheme_adj {cs g : List Int} (hg : g ∈ graphemes cs) :
    Adj (fun a b => isGraphemeBoundary a b = false) g := by
  refine adj_iff.mpr fun p a b q he => ?_
  have := (segments_isSegmentation isGraphemeBoundary cs).inside g hg p a b q he
  simpa using this

theorem grapheme_mem {cs g : List Int} (hg : g ∈ graphemes cs) : ∀ x ∈ g, x ∈ cs := by
  intro x hx
  rw [← segments_flatten isGraphemeBoundary cs]
  exact List.mem_flatten.mpr ⟨g, hg, hx⟩

/-- NFKD after NFD, exactly. -/
theorem kd_of_d_iff {sort : SortFn} (hs : StableSort sort) {cs : List Int} (hmod : GoodMod cs) :
    Form.KD.text sort (Form.D.text sort cs) = Form.KD.text sort cs ↔
      ∀ g ∈ graphemes cs, ¬ TibTrap (decompose decResolve g) := by
  have hB : ∀ z, Form.KD.text sort z = (graphemes z).flatMap (Form.KD.block sort) :=
    fun z => Form.KD.base_text sort z
  rw [hB, hB, graphemes_nfd hs hmod, List.flatMap_map]
  have key : ∀ g ∈ graphemes cs, (Form.KD.block sort (Form.D.block sort g) = Form.KD.block sort g ↔
      ¬ TibTrap (decompose decResolve g)) := by
    intro g hg
    have := reorder_iff hs (atomic_decompose g)
      (otherFirst_decompose (grapheme_adj hg) (hmod.grapheme hg))
    rw [decomposeK_decomposeD] at this
    exact this
  constructor
  · intro h g hg
    refine (key g hg).mp (flatMap_congr_lengths (f := fun g => Form.KD.block sort (Form.D.block sort g)) ?_ _ h g hg)
    intro x
    rw [(hs.1.perm _).length_eq, (hs.1.perm _).length_eq]
    rw [show decompose Form.KD.map x = decompose kdecResolve (decompose decResolve x) from
      (decomposeK_decomposeD x).symm]
    exact ((hs.1.perm _).flatMap_right _).length_eq
  · intro h
    rw [List.flatMap_def, List.flatMap_def]
    congr 1
    exact List.map_congr_left fun g hg => (key g hg).mpr (h g hg)

theorem compat_text_iff (G : Form) (hG : G.base = .KD) {sort : SortFn} (hs : StableSort sort) (x y : List Int) :
    G.text sort x = G.text sort y ↔ Form.KD.text sort x = Form.KD.text sort y := by
  constructor
  · intro h
    have := congrArg (decompose G.map) h
    rw [G.decompose_text hs.1, G.decompose_text hs.1, hG] at this
    exact this
  · intro h
    rw [G.text_eq hs, G.text_eq hs, hG, h]

/-! ### NFC -/

theorem ModPair.of_ne {a b : Int} (h : gcbResolve b ≠ .E_MODIFIER) : ModPair a b := fun e => absurd e h

theorem goodMod_composeFrom {a : Int} {l : List Int} (h : Adj ModPair (a :: l)) :
    Adj ModPair (composeFrom compResolve a l) ∧
      ∃ x, (composeFrom compResolve a l).head? = some x ∧ (x = a ∨ gcbResolve x ≠ .E_MODIFIER) := by
  induction l generalizing a with
  | nil => exact ⟨by simpa [composeFrom] using h, a, by simp [composeFrom], .inl rfl⟩
  | cons b l ih =>
    have h' := adj_cons.mp h
    rw [composeFrom]
    cases hc : compResolve a b with
    | some c =>
      have hcm : gcbResolve c ≠ .E_MODIFIER := by
        intro hm; have := (comp_facts hc).gcb3; rw [hm] at this; simp [isOES] at this
      have hbl := adj_cons.mp h'.2
      have hadj : Adj ModPair (c :: l) := by
        refine adj_cons.mpr ⟨fun d hd hdm => ?_, hbl.2⟩
        have := (comp_facts hc).gcb2
        rcases hbl.1 d hd hdm with e | e <;> rw [e] at this <;> simp [isMark] at this
      obtain ⟨h1, x, h2, h3⟩ := ih hadj
      exact ⟨h1, x, h2, .inr (h3.elim (fun e => e ▸ hcm) id)⟩
    | none =>
      obtain ⟨h1, x, h2, h3⟩ := ih h'.2
      refine ⟨adj_cons.mpr ⟨fun d hd => ?_, h1⟩, a, rfl, .inl rfl⟩
      rw [h2] at hd; cases hd
      rcases h3 with rfl | h3
      · exact h'.1 x rfl
      · exact .of_ne h3

theorem goodMod_compose {l : List Int} (h : GoodMod l) : GoodMod (compose compResolve l) := by
  cases l with
  | nil => exact h
  | cons a l =>
    obtain ⟨h1, x, h2, h3⟩ := goodMod_composeFrom h.adj
    refine ⟨fun m hm => ?_, h1⟩
    rw [compose, h2] at hm; cases hm
    rcases h3 with rfl | h3
    · exact h.head x rfl
    · exact h3

/-- An emoji modifier or base is its own decomposition. -/
theorem Form.full_emoji (F : Form) {c : Int} (h : gcbResolve c = .E_MODIFIER ∨ gcbResolve c = .E_BASE ∨ gcbResolve c = .E_BASE_GAZ) :
    full F.map c = [c] := by
  cases hm : F.map c with
  | none => exact F.facts.none_ hm
  | some m =>
    obtain ⟨h', t', _, hok, _⟩ := F.facts.some_ c m hm
    exfalso
    rcases h with h | h | h <;> rw [h] at hok <;> revert hok <;> cases gcbResolve h' <;> decide

theorem goodMod_decompose (F : Form) {g : List Int} (h : GoodMod g) : GoodMod (decompose F.map g) := by
  have hd : ∀ c, gcbResolve (F.hd c) = .E_MODIFIER → gcbResolve c = .E_MODIFIER ∧ F.hd c = c := by
    intro c hm
    have hc : gcbResolve c = .E_MODIFIER := by
      refine Decidable.byContradiction fun hne => F.facts.emod (List.mem_of_head? (F.head_full c)) hne hm
    refine ⟨hc, ?_⟩
    rw [Form.hd, F.full_emoji (.inl hc)]; rfl
  constructor
  · intro m hm hmm
    cases g with
    | nil => simp [decompose] at hm
    | cons c g =>
      rw [head_decompose F (e := c) rfl] at hm
      cases hm
      exact h.head c rfl (hd c hmm).1
  · rw [decompose, adj_flatMap F.facts.ne_nil]
    refine ⟨fun c _ => ?_, adj_iff.mpr ?_⟩
    · refine adj_iff.mpr fun p a b q he hb => ?_
      by_cases hc : gcbResolve c = .E_MODIFIER
      · rw [F.full_emoji (.inl hc)] at he
        have := congrArg List.length he
        simp at this; omega
      · exact absurd hb (F.facts.emod (by rw [he]; simp) hc)
    · rintro p a b q he x y hx hy hm
      rw [F.last_full] at hx; rw [F.head_full] at hy
      cases hx; cases hy
      obtain ⟨hb, _⟩ := hd b hm
      have := adj_iff.mp h.adj p a b q he hb
      rw [Form.ls, F.full_emoji (.inr this)]
      exact this

theorem goodMod_filter {l : List Int} (h : Adj ModPair l) :
    Adj ModPair (l.filter (fun y => cccResolve y == 0)) ∧
    ∀ m, (l.filter (fun y => cccResolve y == 0)).head? = some m → gcbResolve m = .E_MODIFIER → l.head? = some m := by
  induction l with
  | nil => exact ⟨trivial, by simp⟩
  | cons a l ih =>
    have h' := adj_cons.mp h
    obtain ⟨h1, h2⟩ := ih h'.2
    by_cases ha : cccResolve a = 0
    · rw [List.filter_cons_of_pos (by simpa using ha)]
      exact ⟨adj_cons.mpr ⟨fun b hb hm => h'.1 b (h2 b hb hm) hm, h1⟩, fun m hm _ => by simpa using hm⟩
    · rw [List.filter_cons_of_neg (by simpa using ha)]
      refine ⟨h1, fun m hm hmm => ?_⟩
      rcases h'.1 m (h2 m hm hmm) hmm with e | e <;> exact absurd (plain_ccc (by rw [e]; rfl)) ha

theorem goodMod_sort {sort : SortFn} (hs : StableSort sort) {l : List Int} (h : GoodMod l) :
    GoodMod (sort canonicalCombiningOrder l) := by
  obtain ⟨f1, f2⟩ := goodMod_filter h.adj
  have hb0 : ∀ {b : Int}, gcbResolve b = .E_MODIFIER → cccResolve b = 0 := fun e => plain_ccc (by rw [e]; rfl)
  constructor
  · intro m hm hmm
    refine h.head m (f2 m ?_ hmm) hmm
    rw [← stable_filter hs l 0]
    cases hso : sort canonicalCombiningOrder l with
    | nil => rw [hso] at hm; simp at hm
    | cons a t =>
      rw [hso] at hm
      obtain rfl : a = m := by simpa using hm
      rw [List.filter_cons_of_pos (by simpa using hb0 hmm)]; rfl
  · refine adj_iff.mpr fun p a b q he hb => ?_
    have hsort := hs.1.sorted l
    rw [he] at hsort
    have hle : ∀ x ∈ p ++ [a], cccResolve x = 0 := by
      intro x hx
      rw [show p ++ a :: b :: q = (p ++ [a]) ++ b :: q by simp, CccSorted, List.pairwise_append] at hsort
      have := hsort.2.2 x hx b (by simp)
      have := ccc_nonneg x
      have := hb0 hb
      omega
    have hf := stable_filter hs l 0
    rw [he, show p ++ a :: b :: q = (p ++ [a]) ++ b :: q by simp, List.filter_append,
      List.filter_eq_self.mpr (by intro x hx; simpa using hle x hx),
      List.filter_cons_of_pos (by simpa using hb0 hb)] at hf
    rw [← hf, List.append_assoc] at f1
    exact adj_iff.mp f1 p a b _ rfl hb

theorem goodMod_flatten : ∀ {ws : List (List Int)}, (∀ w ∈ ws, GoodMod w ∧ w ≠ []) → GoodMod ws.flatten
  | [], _ => ⟨by simp, trivial⟩
  | w :: ws, h => by
    have ih := goodMod_flatten fun v hv => h v (List.mem_cons_of_mem _ hv)
    obtain ⟨hw, hne⟩ := h w (by simp)
    rw [List.flatten_cons]
    refine ⟨fun m hm => ?_, adj_append.mpr ⟨hw.adj, ih.adj, fun a b _ hb => .of_ne (ih.head b hb)⟩⟩
    cases w with
    | nil => exact absurd rfl hne
    | cons a w => exact hw.head m (by simpa using hm)

theorem Form.goodMod_text (F : Form) {sort : SortFn} (hs : StableSort sort) {cs : List Int} (h : GoodMod cs) :
    GoodMod (F.text sort cs) := by
  rw [Form.text, List.flatMap_def]
  refine goodMod_flatten fun w hw => ?_
  obtain ⟨g, hg, rfl⟩ := List.mem_map.mp hw
  refine ⟨?_, F.result_ne_nil hs.1 (segments_nonempty _ _ g hg)⟩
  have hb := goodMod_sort hs (goodMod_decompose F (h.grapheme hg))
  rw [Form.result]
  cases F
  · exact hb
  · exact goodMod_compose hb
  · exact hb
  · exact goodMod_compose hb

theorem settled_text (F : Form) {sort : SortFn} (hs : StableSort sort) {cs : List Int} (h : GoodMod cs) :
    F.Settled (F.text sort cs) := by
  rw [F.settled_text_iff hs]
  rintro ⟨p, g, k, q, m, e, hg, hm, hmm, _⟩
  exact (h.grapheme (by rw [hg]; simp : k ∈ graphemes cs)).head m hm hmm

/-- NFD of NFC. -/
theorem d_of_c {sort : SortFn} (hs : StableSort sort) {cs : List Int} (h : GoodMod cs) :
    Form.D.text sort (Form.C.text sort cs) = Form.D.text sort cs :=
  (Form.C.renormalize Form.D rfl hs cs).mpr (settled_text _ hs h)

/-- Ordered text has no trap. -/
theorem noTrap_sorted {u : List Int} (h : CccSorted cccResolve u) : ¬ TibTrap u := by
  rintro ⟨p, s, q, n, he, hts, hn, hc, _⟩
  rw [he, CccSorted, List.pairwise_append] at h
  have := h.2.2 n hn s (by simp)
  obtain ⟨_, _, _, _, _, _, _, _, h9, h10, _⟩ := kdec_tibetan
  rcases hts with rfl | rfl <;> omega

/-- NFKD of NFC is NFKD of NFD. -/
theorem kd_of_c {sort : SortFn} (hs : StableSort sort) {cs : List Int} (h : GoodMod cs) :
    Form.KD.text sort (Form.C.text sort cs) = Form.KD.text sort (Form.D.text sort cs) := by
  have := (kd_of_d_iff hs (Form.C.goodMod_text hs h)).mpr fun g hg =>
    noTrap_sorted ((Form.C.settled_iff _).mp (settled_text Form.C hs h) g hg)
  rw [d_of_c hs h] at this
  exact this.symm

/-! ### The graphemes of a normal form -/

theorem flatMap_split_unique {f : Int → List Int} (hne : ∀ x, f x ≠ []) {a b c d : List Int}
    (h : a ++ b = c ++ d) (hf : a.flatMap f = c.flatMap f) : a = c := by
  rcases List.append_eq_append_iff.mp h with ⟨t, h1, _⟩ | ⟨t, h1, _⟩
  · subst h1
    rw [List.flatMap_append] at hf
    cases t with
    | nil => simp
    | cons x t =>
      have := congrArg List.length hf
      rw [List.length_append, List.flatMap_cons, List.length_append] at this
      have := List.length_pos_iff.mpr (hne x)
      omega
  · subst h1
    rw [List.flatMap_append] at hf
    cases t with
    | nil => simp
    | cons x t =>
      have := congrArg List.length hf
      rw [List.length_append, List.flatMap_cons, List.length_append] at this
      have := List.length_pos_iff.mpr (hne x)
      omega

theorem flatMap_splits_unique {f : Int → List Int} (hne : ∀ x, f x ≠ []) :
    ∀ (ks ls : List (List Int)), ks.map (·.flatMap f) = ls.map (·.flatMap f) →
      ks.flatten = ls.flatten → ks = ls := by
  intro ks
  induction ks with
  | nil =>
    intro ls h _
    cases ls with
    | nil => rfl
    | cons l ls => simp at h
  | cons k ks ih =>
    intro ls h hfl
    cases ls with
    | nil => simp at h
    | cons l ls =>
      simp only [List.map_cons, List.cons.injEq] at h
      rw [List.flatten_cons, List.flatten_cons] at hfl
      have := flatMap_split_unique hne hfl h.1
      subst this
      rw [ih ls h.2 (List.append_cancel_left hfl)]

theorem graphemes_nfc {sort : SortFn} (hs : StableSort sort) {cs : List Int} (h : GoodMod cs) :
    graphemes (Form.C.text sort cs) = (graphemes cs).map (Form.C.result sort) := by
  have h1 := graphemes_nfd hs (Form.C.goodMod_text hs h)
  rw [d_of_c hs h, graphemes_nfd hs h] at h1
  have hset := (Form.C.settled_iff _).mp (settled_text Form.C hs h)
  refine flatMap_splits_unique (f := fullD) factsD.ne_nil _ _ ?_ ?_
  · have e1 : (graphemes (Form.C.text sort cs)).map (·.flatMap fullD) =
        (graphemes (Form.C.text sort cs)).map (Form.D.block sort) :=
      List.map_congr_left fun k hk => (stable_sorted hs (hset k hk)).symm
    rw [e1, ← h1, List.map_map]
    refine List.map_congr_left fun g _ => ?_
    exact (Form.C.decompose_result hs.1 g).symm
  · rw [segments_flatten, Form.text, List.flatMap_def]

/-- The graphemes of a canonical normal form are the normal forms of the graphemes. -/
theorem graphemes_canonical (F : Form) (hF : F.base = .D) {sort : SortFn} (hs : StableSort sort) {cs : List Int}
    (h : GoodMod cs) : graphemes (F.text sort cs) = (graphemes cs).map (F.result sort) := by
  cases F
  · exact graphemes_nfd hs h
  · exact graphemes_nfc hs h
  · simp [Form.base] at hF
  · simp [Form.base] at hF

/-- A grapheme is a text of one grapheme. -/
theorem graphemes_grapheme {cs g : List Int} (hg : g ∈ graphemes cs) : graphemes g = [g] := by
  symm
  have seg := segments_isSegmentation isGraphemeBoundary cs
  refine isSegmentation_unique _ _ _ ⟨by simp, ?_, ?_, ?_⟩
  · intro w hw; simp at hw; rw [hw]; exact seg.nonempty g hg
  · intro w hw; simp at hw; rw [hw]; exact seg.inside g hg
  · intro p u v q he
    have := congrArg List.length he
    simp at this; omega

theorem text_grapheme (F : Form) (sort : SortFn) {cs g : List Int} (hg : g ∈ graphemes cs) :
    F.text sort g = F.result sort g := by
  rw [Form.text, graphemes_grapheme hg]; simp

/-! ### Lengths -/

theorem decomposeK_text_length (F : Form) (hF : F.base = .D) {sort : SortFn} (hs : ConformingSort sort) (cs : List Int) :
    (decompose kdecResolve (F.text sort cs)).length = (decompose kdecResolve cs).length := by
  have hp : ∀ l, decompose kdecResolve (F.post l) = decompose kdecResolve l := by
    intro l
    cases F
    · rfl
    · exact decompose_compose (fun a b c h => comp_fullK h) l
    · simp [Form.base] at hF
    · simp [Form.base] at hF
  have hmap : F.map = decResolve := by cases F <;> simp_all [Form.base, Form.map]
  have e : decompose kdecResolve (F.text sort cs) =
      (graphemes cs).flatMap (fun g => decompose kdecResolve (F.result sort g)) := by
    rw [Form.text, decompose, List.flatMap_assoc]; rfl
  rw [e, decompose_graphemes kdecResolve cs]
  have key : ∀ g, (decompose kdecResolve (F.result sort g)).length = (decompose kdecResolve g).length := by
    intro g
    rw [Form.result, hp, hmap]
    rw [← decomposeK_decomposeD g]
    exact ((hs.perm _).flatMap_right _).length_eq
  generalize graphemes cs = gs
  induction gs with
  | nil => rfl
  | cons g gs ih => rw [List.flatMap_cons, List.flatMap_cons, List.length_append, List.length_append, ih, key]

theorem fullD_length_le (c : Int) : (fullD c).length ≤ (fullK c).length := by
  rw [fullK_fullD]
  generalize fullD c = l
  induction l with
  | nil => simp
  | cons a l ih =>
    rw [decompose_cons, List.length_append, List.length_cons]
    have := List.length_pos_iff.mpr (factsK.ne_nil a)
    omega

theorem decomposeD_length_le (cs : List Int) : (cs.flatMap fullD).length ≤ (cs.flatMap fullK).length := by
  induction cs with
  | nil => simp
  | cons a l ih =>
    rw [List.flatMap_cons, List.flatMap_cons, List.length_append, List.length_append]
    have := fullD_length_le a
    omega

theorem flatMap_split {f : Int → List Int} :
    ∀ (g P : List Int) (s : Int) (Q : List Int), g.flatMap f = P ++ s :: Q →
      ∃ p c q a b, g = p ++ c :: q ∧ f c = a ++ s :: b ∧ P = p.flatMap f ++ a := by
  intro g
  induction g with
  | nil => intro P s Q h; simp at h
  | cons c g ih =>
    intro P s Q h
    rw [List.flatMap_cons] at h
    rcases List.append_eq_append_iff.mp h with ⟨t, h1, h2⟩ | ⟨t, h1, h2⟩
    · obtain ⟨p, c', q, a, b, rfl, h4, h5⟩ := ih t s Q h2
      exact ⟨c :: p, c', q, a, b, rfl, h4, by rw [h1, h5]; simp⟩
    · cases t with
      | nil =>
        simp at h1 h2
        obtain ⟨p, c', q, a, b, rfl, h4, h5⟩ := ih [] s Q (by rw [← h2]; rfl)
        exact ⟨c :: p, c', q, a, b, rfl, h4, by rw [List.flatMap_cons, List.append_assoc, ← h5, ← h1]; simp⟩
      | cons y t =>
        simp at h2
        exact ⟨[], c, g, P, t, rfl, by rw [h1, h2.1], rfl⟩

/-- The trap, on the grapheme itself. -/
theorem tibTrap_iff (g : List Int) : TibTrap (decompose decResolve g) ↔
    ∃ p s q n, g = p ++ s :: q ∧ (s = 0xF77 ∨ s = 0xF79) ∧ n ∈ p.flatMap fullD ∧
      cccResolve n = 130 ∧ n ≠ 0xF80 := by
  constructor
  · rintro ⟨P, s, Q, n, he, hts, hn, hc, hne⟩
    obtain ⟨p, c, q, a, b, rfl, h2, rfl⟩ := flatMap_split g P s Q he
    have hcs : c = s ∧ a = [] := by
      cases hm : decResolve c with
      | none =>
        rw [factsD.none_ hm] at h2
        cases a with
        | nil => simp at h2; exact ⟨h2.1, rfl⟩
        | cons x a => simp at h2
      | some m =>
        obtain ⟨h, t, he', _, _, _, _, _, hx⟩ := dec_shape hm
        have : s ∈ h :: t := by rw [← he', h2]; simp
        rcases hts with rfl | rfl
        · exact absurd rfl (hx _ this).1
        · exact absurd rfl (hx _ this).2
    obtain ⟨rfl, rfl⟩ := hcs
    exact ⟨p, c, q, n, rfl, hts, by simpa using hn, hc, hne⟩
  · rintro ⟨p, s, q, n, rfl, hts, hn, hc, hne⟩
    refine ⟨decompose decResolve p, s, decompose decResolve q, n, ?_, hts, hn, hc, hne⟩
    rw [decompose_append, decompose_cons]
    obtain ⟨_, _, h3, h4, _⟩ := kdec_tibetan
    rcases hts with rfl | rfl
    · rw [h3]; rfl
    · rw [h4]; rfl

end U5e
