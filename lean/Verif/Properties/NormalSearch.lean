import Verif.Properties.Mixed
/-!
# C82: searching normalized text by whole graphemes

`normalize32 F sort fuel cs out` filters the NUL-terminated utf32ne string `cs` through form `F`
(Properties/Normalize.lean). `gs` are the graphemes of the text, `ns` those of its normal form `ys`.
-/
namespace U5e
open Spec

/-- Consecutive graphemes of a text are the graphemes of what they make up. -/
theorem run_segmentation {brk : Int → Int → Prop} {cs : List Int} {gs : List (List Int)}
    (h : IsSegmentation brk cs gs) (i k : Nat) :
    IsSegmentation brk ((gs.drop i).take k).flatten ((gs.drop i).take k) := by
  have hsplit : gs = gs.take i ++ ((gs.drop i).take k ++ (gs.drop i).drop k) := by
    rw [List.take_append_drop, List.take_append_drop]
  have hmem : ∀ g ∈ (gs.drop i).take k, g ∈ gs := fun g hg => List.mem_of_mem_drop (List.mem_of_mem_take hg)
  refine ⟨rfl, fun g hg => h.nonempty g (hmem g hg), fun g hg => h.inside g (hmem g hg), ?_⟩
  intro p g g' q he a b ha hb
  exact h.between (gs.take i ++ p) g g' (q ++ (gs.drop i).drop k)
    (by rw [he] at hsplit; simpa using hsplit) a b ha hb

/-- What the graphemes from `i` on make up is a piece of the text. -/
theorem run_length (gs : List (List Int)) (i k : Nat) (f : Int → List Int) :
    ((gs.drop i).take k).flatten.length ≤ gs.flatten.length ∧
    (((gs.drop i).take k).flatten.flatMap f).length ≤ (gs.flatten.flatMap f).length := by
  have hsplit : gs = gs.take i ++ ((gs.drop i).take k ++ (gs.drop i).drop k) := by
    rw [List.take_append_drop, List.take_append_drop]
  have h1 := congrArg (fun l => l.flatten.length) hsplit
  have h2 := congrArg (fun l => (l.flatten.flatMap f).length) hsplit
  simp only [List.flatten_append, List.flatMap_append, List.length_append] at h1 h2
  omega

theorem search_run (F : Form) (sort : SortFn) (hs : StableSort sort) (cs : List Int)
    (gs : List (List Int)) (hgs : IsSegmentation Breaks cs gs) (fuel : Nat) (hf : cs.length < fuel)
    (hb : (cs.flatMap (full F.map)).length < 2 ^ 31)
    (ns : List (List Int)) (hns : ns = gs.map (F.result sort))
    (p P : List Int) (hP : normalize32 F sort fuel p [] = .ok ((P.length : Int), P)) (i k : Nat) :
    ((ns.drop i).take k).flatten = P ↔
      normalize32 F sort fuel ((gs.drop i).take k).flatten [] = normalize32 F sort fuel p [] := by
  have hcs := hgs.concat
  have hr := run_length gs i k (full F.map)
  rw [hcs] at hr
  have hrun : F.text sort ((gs.drop i).take k).flatten = ((ns.drop i).take k).flatten := by
    rw [Form.text, show graphemes ((gs.drop i).take k).flatten = (gs.drop i).take k from
      (segments_unique (run_segmentation hgs i k)).symm, hns, ← List.map_drop, ← List.map_take, List.flatMap_def]
  rw [hP, normalize32_eq F hs.1 _ [] fuel (by omega) (by omega), hrun]
  constructor
  · rintro rfl; simp
  · intro h
    simp only [Res.ok.injEq, Prod.mk.injEq, List.nil_append] at h
    exact h.2

/-- C82: for every text whose graphemes NFD (NFC) keeps (the conditions of `C59_exact`): let `ns` be the graphemes of the
normal form of the text and `P` the normal form of a pattern `p`. Then `k` consecutive graphemes of the normal form, from
number `i` on, are `P` if and only if the `k` graphemes of the text from number `i` on have the same normal form as the
pattern: searching the normal form by whole graphemes finds the pieces of the text that are equivalent to the pattern,
all of them and where they are. -/
theorem C82_search (F : Form) (hF : F = .D ∨ F = .C) (sort : SortFn) (hs : StableSort sort) (cs : List Int)
    (gs : List (List Int)) (hgs : IsSegmentation Breaks cs gs) (fuel : Nat) (hf : cs.length < fuel)
    (hb : (cs.flatMap fullD).length < 2 ^ 31)
    (hin : ∀ g ∈ gs, ∀ n, normalize32 F sort fuel g [] = .ok ((n.length : Int), n) →
      ∀ p a m q, n = p ++ a :: m :: q → gcbResolve m = .E_MODIFIER → ¬ Breaks a m)
    (hseam : ∀ p g m h r, gs = p ++ g :: (m :: h) :: r → gcbResolve m = .E_MODIFIER →
      ∀ n w y, normalize32 F sort fuel g [] = .ok ((n.length : Int), n) → n = w ++ [y] → gcbResolve y ≠ .EXTEND)
    (ys : List Int) (hy : normalize32 F sort fuel cs [] = .ok ((ys.length : Int), ys))
    (ns : List (List Int)) (hns : IsSegmentation Breaks ys ns)
    (p P : List Int) (hP : normalize32 F sort fuel p [] = .ok ((P.length : Int), P)) (i k : Nat) :
    ((ns.drop i).take k).flatten = P ↔
      normalize32 F sort fuel ((gs.drop i).take k).flatten [] = normalize32 F sort fuel p [] := by
  have hFm : F.map = decResolve := by rcases hF with rfl | rfl <;> rfl
  have hk := (one_for_one_iff F hF hs hgs hf hb).2.mp ((C59_exact F hF sort hs cs gs hgs fuel hf hb).mpr ⟨hin, hseam⟩)
  rw [normalize32_eq F hs.1 cs [] fuel hf (by rw [hFm]; exact hb)] at hy
  simp only [Res.ok.injEq, Prod.mk.injEq, List.nil_append] at hy
  refine search_run F sort hs cs gs hgs fuel hf (by rw [hFm]; exact hb) ns ?_ p P hP i k
  rw [segments_unique hns, ← hy.2, segments_unique hgs]
  exact hk

/-- C82, for texts in which emoji modifiers directly follow emoji bases, and all pieces: the pattern is a run of
graphemes of the normal form if and only if some run of graphemes of the text is equivalent to it. -/
theorem C82_occurs (F : Form) (hF : F = .D ∨ F = .C) (sort : SortFn) (hs : StableSort sort) (cs : List Int)
    (hmod : ModifiersFollowBases cs)
    (gs : List (List Int)) (hgs : IsSegmentation Breaks cs gs) (fuel : Nat) (hf : cs.length < fuel)
    (hb : (cs.flatMap fullD).length < 2 ^ 31)
    (ys : List Int) (hy : normalize32 F sort fuel cs [] = .ok ((ys.length : Int), ys))
    (ns : List (List Int)) (hns : IsSegmentation Breaks ys ns)
    (p P : List Int) (hP : normalize32 F sort fuel p [] = .ok ((P.length : Int), P)) :
    (∃ u v w, ns = u ++ v ++ w ∧ v.flatten = P) ↔
      ∃ u v w, gs = u ++ v ++ w ∧ normalize32 F sort fuel v.flatten [] = normalize32 F sort fuel p [] := by
  have hx := (C59_exact F hF sort hs cs gs hgs fuel hf hb).mp
    (C59_graphemes_of_normal_form F hF sort hs cs hmod gs hgs fuel hf hb)
  have key := C82_search F hF sort hs cs gs hgs fuel hf hb hx.1 hx.2 ys hy ns hns p P hP
  have mk : ∀ (l : List (List Int)) (u v w : List (List Int)), l = u ++ v ++ w →
      (l.drop u.length).take v.length = v := by
    rintro l u v w rfl
    rw [List.append_assoc, List.drop_left, List.take_left]
  constructor
  · rintro ⟨u, v, w, he, hv⟩
    refine ⟨gs.take u.length, (gs.drop u.length).take v.length, (gs.drop u.length).drop v.length, ?_, ?_⟩
    · rw [List.append_assoc, List.take_append_drop, List.take_append_drop]
    · rw [← key, mk ns u v w he]; exact hv
  · rintro ⟨u, v, w, he, hv⟩
    refine ⟨ns.take u.length, (ns.drop u.length).take v.length, (ns.drop u.length).drop v.length, ?_, ?_⟩
    · rw [List.append_assoc, List.take_append_drop, List.take_append_drop]
    · rw [key, mk gs u v w he]; exact hv

/-- Instance: "é" as one codepoint, searched for in "aéb" with the "é" as two. -/
example := C82_occurs .C (.inr rfl) insSort insSort_stable [0x61, 0x65, 0x301, 0x62] (modifiers_of (by decide +kernel))
  [[0x61], [0x65, 0x301], [0x62]] (segmentation_of (by decide +kernel)) 9 (by decide) (by decide +kernel)
  [0x61, 0xE9, 0x62] (by decide +kernel) [[0x61], [0xE9], [0x62]] (segmentation_of (by decide +kernel))
  [0xE9] [0xE9] (by decide +kernel)

/-- Searching for the codepoints of the pattern alone is not enough: the NFD of "é" contains that of "e", which no
piece of the text is equivalent to. -/
theorem C82_counterexample :
    normalize32 .D insSort 9 [0xE9] [] = .ok (2, [0x65, 0x301]) ∧ normalize32 .D insSort 9 [0x65] [] = .ok (1, [0x65]) ∧
    [0x65] <+: [0x65, 0x301] ∧ graphemes [0xE9] = [[0xE9]] ∧
    normalize32 .D insSort 9 [0xE9] [] ≠ normalize32 .D insSort 9 [0x65] [] ∧
    normalize32 .D insSort 9 [] [] ≠ normalize32 .D insSort 9 [0x65] [] := by
  refine ⟨by decide +kernel, by decide +kernel, by simp, by decide +kernel, by decide +kernel, by decide +kernel⟩

/-! ### Equivalent texts -/

/-- C59, for two texts: if a canonical form keeps the graphemes of both (by `C59_exact`; in particular if emoji modifiers
directly follow emoji bases in both) and their normal forms are equal, they have as many graphemes and these are
equivalent one by one. So counting, cutting and addressing by graphemes does not depend on how the text is composed. -/
theorem C59_equivalent_texts (F : Form) (hF : F = .D ∨ F = .C) (sort : SortFn) (hs : StableSort sort) (xs ys : List Int)
    (gx gy : List (List Int)) (hgx : IsSegmentation Breaks xs gx) (hgy : IsSegmentation Breaks ys gy) (fuel : Nat)
    (hfx : xs.length < fuel) (hfy : ys.length < fuel)
    (hbx : (xs.flatMap fullD).length < 2 ^ 31) (hby : (ys.flatMap fullD).length < 2 ^ 31)
    (hkeep : ∀ (cs : List Int) (gs : List (List Int)), (cs = xs ∧ gs = gx ∨ cs = ys ∧ gs = gy) →
      (∀ g ∈ gs, ∀ n, normalize32 F sort fuel g [] = .ok ((n.length : Int), n) →
        ∀ p a m q, n = p ++ a :: m :: q → gcbResolve m = .E_MODIFIER → ¬ Breaks a m) ∧
      ∀ p g m h r, gs = p ++ g :: (m :: h) :: r → gcbResolve m = .E_MODIFIER →
        ∀ n w y, normalize32 F sort fuel g [] = .ok ((n.length : Int), n) → n = w ++ [y] → gcbResolve y ≠ .EXTEND)
    (h : normalize32 F sort fuel xs [] = normalize32 F sort fuel ys []) :
    gx.length = gy.length ∧ ∀ (i : Nat) (g g' : List Int), gx[i]? = some g → gy[i]? = some g' →
      normalize32 F sort fuel g [] = normalize32 F sort fuel g' [] := by
  have hFm : F.map = decResolve := by rcases hF with rfl | rfl <;> rfl
  obtain ⟨kx, ox⟩ := one_for_one_iff F hF hs hgx hfx hbx
  obtain ⟨ky, oy⟩ := one_for_one_iff F hF hs hgy hfy hby
  have hx := ox.mp ((C59_exact F hF sort hs xs gx hgx fuel hfx hbx).mpr (hkeep xs gx (.inl ⟨rfl, rfl⟩)))
  have hy := oy.mp ((C59_exact F hF sort hs ys gy hgy fuel hfy hby).mpr (hkeep ys gy (.inr ⟨rfl, rfl⟩)))
  have ht : F.text sort xs = F.text sort ys := by
    rw [normalize32_eq F hs.1 xs [] fuel hfx (by rw [hFm]; exact hbx),
      normalize32_eq F hs.1 ys [] fuel hfy (by rw [hFm]; exact hby)] at h
    simp only [Res.ok.injEq, Prod.mk.injEq, List.nil_append] at h
    exact h.2
  rw [ht, hy, show graphemes xs = gx from (segments_unique hgx).symm,
    show graphemes ys = gy from (segments_unique hgy).symm] at hx
  refine ⟨by simpa using (congrArg List.length hx).symm, fun i g g' hg hg' => ?_⟩
  have he : F.result sort g = F.result sort g' := by
    have := congrArg (fun l => l[i]?) hx
    simpa [hg, hg'] using this.symm
  rw [(kx g (List.mem_of_getElem? hg) (F.result sort g')).mpr he.symm, (ky g' (List.mem_of_getElem? hg') _).mpr rfl]

/-- Instance: "aé" given in two ways. -/
example := C59_equivalent_texts .D (.inl rfl) insSort insSort_stable [0x61, 0xE9] [0x61, 0x65, 0x301]
  [[0x61], [0xE9]] [[0x61], [0x65, 0x301]] (segmentation_of (by decide +kernel)) (segmentation_of (by decide +kernel)) 9
  (by decide) (by decide) (by decide +kernel) (by decide +kernel)
  (by
    rintro cs gs (⟨rfl, rfl⟩ | ⟨rfl, rfl⟩)
    · exact (C59_exact .D (.inl rfl) insSort insSort_stable [0x61, 0xE9] _ (segmentation_of (by decide +kernel)) 9 (by decide)
        (by decide +kernel)).mp (C59_graphemes_of_normal_form .D (.inl rfl) insSort insSort_stable [0x61, 0xE9]
          (modifiers_of (by decide +kernel)) _ (segmentation_of (by decide +kernel)) 9 (by decide) (by decide +kernel))
    · exact (C59_exact .D (.inl rfl) insSort insSort_stable [0x61, 0x65, 0x301] _ (segmentation_of (by decide +kernel)) 9 (by decide)
        (by decide +kernel)).mp (C59_graphemes_of_normal_form .D (.inl rfl) insSort insSort_stable [0x61, 0x65, 0x301]
          (modifiers_of (by decide +kernel)) _ (segmentation_of (by decide +kernel)) 9 (by decide) (by decide +kernel)))
  (by decide +kernel)

/-- C59, comparing grapheme by grapheme: for texts whose graphemes the form keeps (for instance with emoji modifiers directly
after emoji bases), the normal forms are equal if and only if the texts have as many graphemes and the i-th ones have
equal normal forms. So equivalent texts can be recognized without normalizing more than a grapheme at a time. -/
theorem C59_compare_by_graphemes (F : Form) (hF : F = .D ∨ F = .C) (sort : SortFn) (hs : StableSort sort) (xs ys : List Int)
    (hmx : ModifiersFollowBases xs) (hmy : ModifiersFollowBases ys)
    (gx gy : List (List Int)) (hgx : IsSegmentation Breaks xs gx) (hgy : IsSegmentation Breaks ys gy) (fuel : Nat)
    (hfx : xs.length < fuel) (hfy : ys.length < fuel)
    (hbx : (xs.flatMap fullD).length < 2 ^ 31) (hby : (ys.flatMap fullD).length < 2 ^ 31) :
    normalize32 F sort fuel xs [] = normalize32 F sort fuel ys [] ↔
    gx.length = gy.length ∧ ∀ (i : Nat) (g g' : List Int), gx[i]? = some g → gy[i]? = some g' →
      normalize32 F sort fuel g [] = normalize32 F sort fuel g' [] := by
  have hFm : F.map = decResolve := by rcases hF with rfl | rfl <;> rfl
  constructor
  · refine C59_equivalent_texts F hF sort hs xs ys gx gy hgx hgy fuel hfx hfy hbx hby ?_
    rintro cs gs (⟨rfl, rfl⟩ | ⟨rfl, rfl⟩)
    · exact (C59_exact F hF sort hs _ _ hgx fuel hfx hbx).mp
        (C59_graphemes_of_normal_form F hF sort hs _ hmx _ hgx fuel hfx hbx)
    · exact (C59_exact F hF sort hs _ _ hgy fuel hfy hby).mp
        (C59_graphemes_of_normal_form F hF sort hs _ hmy _ hgy fuel hfy hby)
  · rintro ⟨hlen, h⟩
    obtain ⟨kx, _⟩ := one_for_one_iff F hF hs hgx hfx hbx
    obtain ⟨ky, _⟩ := one_for_one_iff F hF hs hgy hfy hby
    have he : gx.map (F.result sort) = gy.map (F.result sort) := by
      refine List.ext_getElem? fun i => ?_
      rw [List.getElem?_map, List.getElem?_map]
      by_cases hi : i < gx.length
      · have hi' : i < gy.length := by omega
        have h1 := List.getElem?_eq_getElem hi
        have h2 := List.getElem?_eq_getElem hi'
        have h3 := h i _ _ h1 h2
        rw [(ky _ (List.getElem_mem hi') (F.result sort gy[i])).mpr rfl] at h3
        have h4 := (kx _ (List.getElem_mem hi) _).mp h3
        rw [h1, h2, Option.map_some, Option.map_some, ← h4]
      · rw [List.getElem?_eq_none (by omega), List.getElem?_eq_none (by omega)]
    have ht : F.text sort xs = F.text sort ys := by
      rw [Form.text, Form.text, show graphemes xs = gx from (segments_unique hgx).symm,
        show graphemes ys = gy from (segments_unique hgy).symm, List.flatMap_def, List.flatMap_def, he]
    rw [normalize32_eq F hs.1 xs [] fuel hfx (by rw [hFm]; exact hbx),
      normalize32_eq F hs.1 ys [] fuel hfy (by rw [hFm]; exact hby), ht]

/-- Instance: "aé" given in two ways. -/
example := C59_compare_by_graphemes .C (.inr rfl) insSort insSort_stable [0x61, 0xE9] [0x61, 0x65, 0x301]
  (modifiers_of (by decide +kernel)) (modifiers_of (by decide +kernel))
  [[0x61], [0xE9]] [[0x61], [0x65, 0x301]] (segmentation_of (by decide +kernel)) (segmentation_of (by decide +kernel)) 9
  (by decide) (by decide) (by decide +kernel) (by decide +kernel)

/-- Without the condition it is false: an accent and an emoji modifier after "e", in either order, have the same NFD, but
are one grapheme or two. -/
theorem C59_equivalent_texts_counterexample :
    normalize32 .D insSort 9 [0x65, 0x1F3FB, 0x301] [] = .ok (3, [0x65, 0x1F3FB, 0x301]) ∧
    normalize32 .D insSort 9 [0x65, 0x301, 0x1F3FB] [] = .ok (3, [0x65, 0x1F3FB, 0x301]) ∧
    graphemes [0x65, 0x301, 0x1F3FB] = [[0x65, 0x301, 0x1F3FB]] ∧
    graphemes [0x65, 0x1F3FB, 0x301] = [[0x65], [0x1F3FB, 0x301]] := by decide +kernel

end U5e
