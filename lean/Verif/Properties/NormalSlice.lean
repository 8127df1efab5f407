import Verif.Properties.NormalSearch
import Verif.Properties.GraphemeAt
/-!
# C83: cutting a text by graphemes and normalizing it

`normalize32 F sort fuel cs out` filters the NUL-terminated utf32ne string `cs` through form `F`
(Properties/Normalize.lean). `gs` are the graphemes of the text, `ns` those of its normal form `ys`. The `k`-th grapheme
iterator of a string is `grapheme_begin` incremented `k` times.
-/
namespace U5e
open Spec

theorem take_drop_one {l : List α} {j : Nat} {x : α} (h : l[j]? = some x) : (l.take (j + 1)).drop j = [x] := by
  obtain ⟨hj, rfl⟩ := List.getElem?_eq_some_iff.mp h
  have : List.drop j l = l[j] :: List.drop (j + 1) l := List.drop_eq_getElem_cons hj
  rw [List.drop_take, show j + 1 - j = 1 by omega, this, List.take_succ_cons, List.take_zero]

/-- C83, exactly: from any grapheme to any other, the normal form of that part of the text is that part of the normal form
of the text, and there are as many graphemes, if and only if NFD (NFC) keeps the graphemes (the conditions of `C59_exact`:
no emoji modifier after a break in the form of a grapheme, none at the start of a grapheme after one whose form ends in
Extend). -/
theorem C83_exact (F : Form) (hF : F = .D ∨ F = .C) (sort : SortFn) (hs : StableSort sort) (cs : List Int)
    (gs : List (List Int)) (hgs : IsSegmentation Breaks cs gs) (fuel : Nat) (hf : cs.length < fuel)
    (hb : (cs.flatMap fullD).length < 2 ^ 31)
    (ys : List Int) (hy : normalize32 F sort fuel cs [] = .ok ((ys.length : Int), ys))
    (ns : List (List Int)) (hns : IsSegmentation Breaks ys ns) :
    (ns.length = gs.length ∧ ∀ j k, j ≤ k → k ≤ gs.length →
      normalize32 F sort fuel ((gs.take k).drop j).flatten [] =
        .ok ((((ns.take k).drop j).flatten.length : Int), ((ns.take k).drop j).flatten)) ↔
    (∀ g ∈ gs, ∀ n, normalize32 F sort fuel g [] = .ok ((n.length : Int), n) →
      ∀ p a m q, n = p ++ a :: m :: q → gcbResolve m = .E_MODIFIER → ¬ Breaks a m) ∧
    ∀ p g m h r, gs = p ++ g :: (m :: h) :: r → gcbResolve m = .E_MODIFIER →
      ∀ n w y, normalize32 F sort fuel g [] = .ok ((n.length : Int), n) → n = w ++ [y] → gcbResolve y ≠ .EXTEND := by
  have hx := C59_exact F hF sort hs cs gs hgs fuel hf hb
  constructor
  · rintro ⟨hlen, h⟩
    refine hx.mp ⟨ys, ns, hy, hns, hlen, fun i g n hg hn => ?_⟩
    have hi := (List.getElem?_eq_some_iff.mp hg).1
    have := h i (i + 1) (by omega) (by omega)
    rw [take_drop_one hg, take_drop_one hn] at this
    simpa using this
  · intro hk
    obtain ⟨ys', ns', h1, h2, h3, _⟩ := hx.mpr hk
    rw [hy] at h1
    simp only [Res.ok.injEq, Prod.mk.injEq] at h1
    obtain ⟨_, rfl⟩ := h1
    rw [segments_unique h2] at h3
    rw [segments_unique hns]
    refine ⟨h3, fun j k hjk hkl => ?_⟩
    have hFm : F.map = decResolve := by rcases hF with rfl | rfl <;> rfl
    have hl := run_length gs j (k - j) (full F.map)
    rw [hgs.concat] at hl
    have hv := normalize32_eq F hs.1 ((gs.drop j).take (k - j)).flatten [] fuel (by omega) (by rw [hFm] at hl ⊢; exact Nat.lt_of_le_of_lt hl.2 hb)
    rw [List.nil_append] at hv
    have := (C82_search F hF sort hs cs gs hgs fuel hf hb hk.1 hk.2 ys hy _ hns _ _ hv j (k - j)).mpr rfl
    rw [List.drop_take, List.drop_take, hv, ← this, ← segments_unique hns]

/-- C83 as a program: where the form keeps the graphemes, appending the range between the j-th and the k-th grapheme of the
text and normalizing what was appended gives the same as normalizing the text and appending the range between the j-th
and the k-th grapheme of the result. -/
theorem C83_cut_then_normalize (F : Form) (hF : F = .D ∨ F = .C) (sort : SortFn) (hs : StableSort sort) (cs : List Int)
    (gs : List (List Int)) (hgs : IsSegmentation Breaks cs gs) (fuel : Nat) (hf : cs.length < fuel)
    (hb : (cs.flatMap fullD).length < 2 ^ 31)
    (hin : ∀ g ∈ gs, ∀ n, normalize32 F sort fuel g [] = .ok ((n.length : Int), n) →
      ∀ p a m q, n = p ++ a :: m :: q → gcbResolve m = .E_MODIFIER → ¬ Breaks a m)
    (hseam : ∀ p g m h r, gs = p ++ g :: (m :: h) :: r → gcbResolve m = .E_MODIFIER →
      ∀ n w y, normalize32 F sort fuel g [] = .ok ((n.length : Int), n) → n = w ++ [y] → gcbResolve y ≠ .EXTEND)
    (ys : List Int) (hy : normalize32 F sort fuel cs [] = .ok ((ys.length : Int), ys)) (hf' : ys.length < fuel)
    (j k : Nat) (hjk : j ≤ k) (hk : k ≤ gs.length) :
    let I := utf32Iter (cs ++ [0])
    let J := utf32Iter (ys ++ [0])
    ∃ gj gk gj' gk' part out, (graphemeBegin I fuel 0 cs.length >>= incN I fuel j) = .ok gj ∧
      (graphemeBegin I fuel 0 cs.length >>= incN I fuel k) = .ok gk ∧
      appendGraphemes32 I fuel [] gj gk = .ok part ∧
      (graphemeBegin J fuel 0 ys.length >>= incN J fuel j) = .ok gj' ∧
      (graphemeBegin J fuel 0 ys.length >>= incN J fuel k) = .ok gk' ∧
      appendGraphemes32 J fuel [] gj' gk' = .ok out ∧
      normalize32 F sort fuel part [] = .ok ((out.length : Int), out) := by
  intro I J
  have hns := segments_breaks ys
  have h := (C83_exact F hF sort hs cs gs hgs fuel hf hb ys hy _ hns).mpr ⟨hin, hseam⟩
  obtain ⟨gj, gk, a1, a2, a3⟩ := C39_append_utf32 cs [] gs hgs fuel hf j k hjk hk
  obtain ⟨gj', gk', b1, b2, b3⟩ := C39_append_utf32 ys [] _ hns fuel hf' j k hjk (by rw [h.1]; exact hk)
  exact ⟨gj, gk, gj', gk', _, _, a1, a2, a3, b1, b2, b3, by simpa using h.2 j k hjk hk⟩

/-- C83, for texts in which emoji modifiers directly follow emoji bases: truncating to any number of graphemes and
normalizing may be done in either order. -/
theorem C83_truncate (F : Form) (hF : F = .D ∨ F = .C) (sort : SortFn) (hs : StableSort sort) (cs : List Int)
    (hmod : ModifiersFollowBases cs)
    (gs : List (List Int)) (hgs : IsSegmentation Breaks cs gs) (fuel : Nat) (hf : cs.length < fuel)
    (hb : (cs.flatMap fullD).length < 2 ^ 31)
    (ys : List Int) (hy : normalize32 F sort fuel cs [] = .ok ((ys.length : Int), ys))
    (ns : List (List Int)) (hns : IsSegmentation Breaks ys ns) (k : Nat) (hk : k ≤ gs.length) :
    ns.length = gs.length ∧
    normalize32 F sort fuel (gs.take k).flatten [] = .ok (((ns.take k).flatten.length : Int), (ns.take k).flatten) := by
  have hx := (C59_exact F hF sort hs cs gs hgs fuel hf hb).mp
    (C59_graphemes_of_normal_form F hF sort hs cs hmod gs hgs fuel hf hb)
  have h := (C83_exact F hF sort hs cs gs hgs fuel hf hb ys hy ns hns).mpr hx
  exact ⟨h.1, by simpa using h.2 0 k (Nat.zero_le _) hk⟩

/-- Instance: "aéb" cut to two graphemes. -/
example := C83_truncate .C (.inr rfl) insSort insSort_stable [0x61, 0x65, 0x301, 0x62] (modifiers_of (by decide +kernel))
  [[0x61], [0x65, 0x301], [0x62]] (segmentation_of (by decide +kernel)) 9 (by decide) (by decide +kernel)
  [0x61, 0xE9, 0x62] (by decide +kernel) [[0x61], [0xE9], [0x62]] (segmentation_of (by decide +kernel)) 2 (by decide)

/-- Instance: the same text from the second grapheme to the third. -/
example :=
  let hx := (C59_exact .C (.inr rfl) insSort insSort_stable [0x61, 0x65, 0x301, 0x62] [[0x61], [0x65, 0x301], [0x62]]
    (segmentation_of (by decide +kernel)) 9 (by decide) (by decide +kernel)).mp
    (C59_graphemes_of_normal_form .C (.inr rfl) insSort insSort_stable [0x61, 0x65, 0x301, 0x62]
      (modifiers_of (by decide +kernel)) _ (segmentation_of (by decide +kernel)) 9 (by decide) (by decide +kernel))
  C83_cut_then_normalize .C (.inr rfl) insSort insSort_stable [0x61, 0x65, 0x301, 0x62]
    [[0x61], [0x65, 0x301], [0x62]] (segmentation_of (by decide +kernel)) 9 (by decide) (by decide +kernel) hx.1 hx.2
    [0x61, 0xE9, 0x62] (by decide +kernel) (by decide) 1 2 (by decide) (by decide)

/-- C83 for all four forms and every conforming sort, also an unstable one: from any grapheme to any other, the form of that
part of the text is that part of the form of the text, and there are as many graphemes, if and only if the form of each
grapheme is one grapheme and there is a break between the forms of any two neighbours. -/
theorem C83_any_form (F : Form) (sort : SortFn) (hs : ConformingSort sort) (cs : List Int)
    (gs : List (List Int)) (hgs : IsSegmentation Breaks cs gs) (fuel : Nat) (hf : cs.length < fuel)
    (hb : (cs.flatMap (full F.map)).length < 2 ^ 31)
    (ys : List Int) (hy : normalize32 F sort fuel cs [] = .ok ((ys.length : Int), ys))
    (ns : List (List Int)) (hns : IsSegmentation Breaks ys ns) :
    (ns.length = gs.length ∧ ∀ j k, j ≤ k → k ≤ gs.length →
      normalize32 F sort fuel ((gs.take k).drop j).flatten [] =
        .ok ((((ns.take k).drop j).flatten.length : Int), ((ns.take k).drop j).flatten)) ↔
    (∀ g ∈ gs, ∀ n, normalize32 F sort fuel g [] = .ok ((n.length : Int), n) → IsSegmentation Breaks n [n]) ∧
    ∀ p g h r, gs = p ++ g :: h :: r → ∀ n w a m b z, normalize32 F sort fuel g [] = .ok ((n.length : Int), n) →
      normalize32 F sort fuel h [] = .ok ((m.length : Int), m) → n = w ++ [a] → m = b :: z → Breaks a b := by
  have hval : ∀ i k, normalize32 F sort fuel ((gs.drop i).take k).flatten [] =
      .ok (((((gs.drop i).take k).flatMap (F.result sort)).length : Int), ((gs.drop i).take k).flatMap (F.result sort)) := by
    intro i k
    have hl := run_length gs i k (full F.map)
    rw [hgs.concat] at hl
    rw [normalize32_eq F hs _ [] fuel (by omega) (by omega), Form.text,
      show graphemes ((gs.drop i).take k).flatten = (gs.drop i).take k from (segments_unique (run_segmentation hgs i k)).symm,
      List.nil_append]
  have hone : ∀ g ∈ gs, ∀ n, normalize32 F sort fuel g [] = .ok ((n.length : Int), n) ↔ n = F.result sort g := by
    intro g hg n
    obtain ⟨i, hi⟩ := List.getElem?_of_mem hg
    have h1 := take_drop_one hi
    rw [List.drop_take, show i + 1 - i = 1 by omega] at h1
    have h2 := hval i 1
    rw [h1] at h2
    simp only [List.flatten_cons, List.flatten_nil, List.append_nil, List.flatMap_cons, List.flatMap_nil] at h2
    rw [h2]
    constructor
    · intro h; simp only [Res.ok.injEq, Prod.mk.injEq] at h; exact h.2.symm
    · rintro rfl; rfl
  have hys : (gs.map (F.result sort)).flatten = ys := by
    have h := hval 0 gs.length
    rw [List.drop_zero, List.take_length, hgs.concat, hy] at h
    simp only [Res.ok.injEq, Prod.mk.injEq] at h
    rw [h.2, List.flatMap_def]
  have hlist : (ns.length = gs.length ∧ ∀ j k, j ≤ k → k ≤ gs.length →
      normalize32 F sort fuel ((gs.take k).drop j).flatten [] =
        .ok ((((ns.take k).drop j).flatten.length : Int), ((ns.take k).drop j).flatten)) ↔
      ns = gs.map (F.result sort) := by
    constructor
    · rintro ⟨hlen, h⟩
      refine List.ext_getElem? fun i => ?_
      rw [List.getElem?_map]
      by_cases hi : i < gs.length
      · have hi' : i < ns.length := by omega
        have e1 := List.getElem?_eq_getElem hi
        have e2 := List.getElem?_eq_getElem hi'
        have h1 := h i (i + 1) (by omega) (by omega)
        rw [take_drop_one e1, take_drop_one e2, List.flatten_cons, List.flatten_nil, List.append_nil,
          List.flatten_cons, List.flatten_nil, List.append_nil] at h1
        rw [e1, e2, Option.map_some, (hone _ (List.getElem_mem hi) _).mp h1]
      · rw [List.getElem?_eq_none (by omega), List.getElem?_eq_none (by omega)]; rfl
    · rintro rfl
      refine ⟨by simp, fun j k hjk hk => ?_⟩
      rw [List.drop_take, hval, List.drop_take, ← List.map_drop, ← List.map_take, List.flatMap_def]
  rw [hlist]
  constructor
  · rintro rfl
    refine ⟨fun g hg n hn => ?_, fun p g h r he n w a m b z hn hm hna hmb => ?_⟩
    · have hmem : n ∈ gs.map (F.result sort) := by
        rw [(hone g hg n).mp hn]; exact List.mem_map.mpr ⟨g, hg, rfl⟩
      refine ⟨by simp, fun x hx => ?_, fun x hx => ?_, fun p x y q hpq => ?_⟩
      · rw [List.mem_singleton.mp hx]; exact hns.nonempty n hmem
      · rw [List.mem_singleton.mp hx]; exact hns.inside n hmem
      · have := congrArg List.length hpq
        simp at this
        omega
    · have hg : g ∈ gs := by rw [he]; simp
      have hh : h ∈ gs := by rw [he]; simp
      have en := (hone g hg n).mp hn
      have em := (hone h hh m).mp hm
      refine hns.between (p.map (F.result sort)) n m (r.map (F.result sort)) ?_ a b (by rw [hna]; simp) (by rw [hmb]; simp)
      rw [he, en, em]; simp
  · rintro ⟨h1, h2⟩
    have hseg : IsSegmentation Breaks ys (gs.map (F.result sort)) := by
      refine ⟨hys, fun x hx => ?_, fun x hx => ?_, fun p x y q hpq a b ha hb' => ?_⟩
      · obtain ⟨g, hg, rfl⟩ := List.mem_map.mp hx
        exact (h1 g hg _ ((hone g hg _).mpr rfl)).nonempty _ (by simp)
      · obtain ⟨g, hg, rfl⟩ := List.mem_map.mp hx
        exact (h1 g hg _ ((hone g hg _).mpr rfl)).inside _ (by simp)
      · obtain ⟨l1, l2, he, e1, e2⟩ := List.map_eq_append_iff.mp hpq
        obtain ⟨g, l3, he2, eg, e3⟩ := List.map_eq_cons_iff.mp e2
        obtain ⟨h, r, he3, eh, e4⟩ := List.map_eq_cons_iff.mp e3
        have he' : gs = l1 ++ g :: h :: r := by rw [he, he2, he3]
        obtain ⟨w, hw⟩ := List.getLast?_eq_some_iff.mp ha
        obtain ⟨z, hz⟩ := List.head?_eq_some_iff.mp hb'
        exact h2 l1 g h r he' x w a y b z ((hone g (by rw [he']; simp) x).mpr eg.symm)
          ((hone h (by rw [he']; simp) y).mpr eh.symm) hw hz
    rw [segments_unique hns, segments_unique hseg]

theorem drop_take_min (l : List α) (i k : Nat) :
    (l.drop i).take k = (l.take (min (i + k) l.length)).drop (min i l.length) := by
  by_cases h : i ≤ l.length
  · rw [Nat.min_eq_left h, List.drop_take]
    by_cases h' : i + k ≤ l.length
    · rw [Nat.min_eq_left h', show i + k - i = k by omega]
    · rw [Nat.min_eq_right (by omega), List.take_of_length_le (by simp; omega), List.take_of_length_le (by simp)]
  · rw [Nat.min_eq_right (by omega), Nat.min_eq_right (by omega), List.drop_eq_nil_of_le (by omega),
      List.drop_eq_nil_of_le (by simp)]; simp

/-- C82 for all four forms and every conforming sort: let the form of each grapheme of the text be one grapheme, with a break
between the forms of any two neighbours. Then `k` consecutive graphemes of the form of the text, from number `i` on, are
the form of the pattern if and only if the `k` graphemes of the text from number `i` on have the same form as the
pattern. -/
theorem C82_any_form (F : Form) (sort : SortFn) (hs : ConformingSort sort) (cs : List Int)
    (gs : List (List Int)) (hgs : IsSegmentation Breaks cs gs) (fuel : Nat) (hf : cs.length < fuel)
    (hb : (cs.flatMap (full F.map)).length < 2 ^ 31)
    (hone : ∀ g ∈ gs, ∀ n, normalize32 F sort fuel g [] = .ok ((n.length : Int), n) → IsSegmentation Breaks n [n])
    (hseam : ∀ p g h r, gs = p ++ g :: h :: r → ∀ n w a m b z, normalize32 F sort fuel g [] = .ok ((n.length : Int), n) →
      normalize32 F sort fuel h [] = .ok ((m.length : Int), m) → n = w ++ [a] → m = b :: z → Breaks a b)
    (ys : List Int) (hy : normalize32 F sort fuel cs [] = .ok ((ys.length : Int), ys))
    (ns : List (List Int)) (hns : IsSegmentation Breaks ys ns)
    (p P : List Int) (hP : normalize32 F sort fuel p [] = .ok ((P.length : Int), P)) (i k : Nat) :
    ((ns.drop i).take k).flatten = P ↔
      normalize32 F sort fuel ((gs.drop i).take k).flatten [] = normalize32 F sort fuel p [] := by
  obtain ⟨hlen, h⟩ := (C83_any_form F sort hs cs gs hgs fuel hf hb ys hy ns hns).mpr ⟨hone, hseam⟩
  rw [drop_take_min gs, drop_take_min ns, hlen, h _ _ (by omega) (by omega), hP]
  constructor
  · rintro rfl; rfl
  · intro he; simp only [Res.ok.injEq, Prod.mk.injEq] at he; exact he.2

/-- Instance: NFKC of "µé" (the micro sign and "é" as two codepoints): all parts of it, and so the other side of
`C83_any_form`, which is the condition of `C82_any_form`; there the pattern is "é" as one codepoint. -/
example : normalize32 .KC insSort 9 [0x65, 0x301] [] = normalize32 .KC insSort 9 [0xE9] [] := by
  have h := (C83_any_form .KC insSort insSort_stable.1 [0xB5, 0x65, 0x301] [[0xB5], [0x65, 0x301]]
    (segmentation_of (by decide +kernel)) 9 (by decide) (by decide +kernel) [0x3BC, 0xE9] (by decide +kernel)
    [[0x3BC], [0xE9]] (segmentation_of (by decide +kernel))).mp ⟨rfl, fun j k hjk hk => by
      have hk' : k ≤ 2 := hk
      have : (j = 0 ∧ k = 0) ∨ (j = 0 ∧ k = 1) ∨ (j = 0 ∧ k = 2) ∨ (j = 1 ∧ k = 1) ∨ (j = 1 ∧ k = 2) ∨ (j = 2 ∧ k = 2) := by
        omega
      rcases this with ⟨rfl, rfl⟩ | ⟨rfl, rfl⟩ | ⟨rfl, rfl⟩ | ⟨rfl, rfl⟩ | ⟨rfl, rfl⟩ | ⟨rfl, rfl⟩ <;> decide +kernel⟩
  exact (C82_any_form .KC insSort insSort_stable.1 [0xB5, 0x65, 0x301] [[0xB5], [0x65, 0x301]]
    (segmentation_of (by decide +kernel)) 9 (by decide) (by decide +kernel) h.1 h.2 [0x3BC, 0xE9] (by decide +kernel)
    [[0x3BC], [0xE9]] (segmentation_of (by decide +kernel)) [0xE9] [0xE9] (by decide +kernel) 1 1).mp rfl

/-- C59, comparing grapheme by grapheme, for all four forms and every conforming sort: if in both texts the form of each
grapheme is one grapheme with a break between the forms of any two neighbours, then the texts have the same form if and
only if they have as many graphemes and the i-th ones have the same form. -/
theorem C59_compare_any_form (F : Form) (sort : SortFn) (hs : ConformingSort sort) (xs ys : List Int)
    (gx gy : List (List Int)) (hgx : IsSegmentation Breaks xs gx) (hgy : IsSegmentation Breaks ys gy) (fuel : Nat)
    (hfx : xs.length < fuel) (hfy : ys.length < fuel)
    (hbx : (xs.flatMap (full F.map)).length < 2 ^ 31) (hby : (ys.flatMap (full F.map)).length < 2 ^ 31)
    (hkeep : ∀ gs, gs = gx ∨ gs = gy →
      (∀ g ∈ gs, ∀ n, normalize32 F sort fuel g [] = .ok ((n.length : Int), n) → IsSegmentation Breaks n [n]) ∧
      ∀ p g h r, gs = p ++ g :: h :: r → ∀ n w a m b z, normalize32 F sort fuel g [] = .ok ((n.length : Int), n) →
        normalize32 F sort fuel h [] = .ok ((m.length : Int), m) → n = w ++ [a] → m = b :: z → Breaks a b) :
    normalize32 F sort fuel xs [] = normalize32 F sort fuel ys [] ↔
    gx.length = gy.length ∧ ∀ (i : Nat) (g g' : List Int), gx[i]? = some g → gy[i]? = some g' →
      normalize32 F sort fuel g [] = normalize32 F sort fuel g' [] := by
  have hvx := normalize32_eq F hs xs [] fuel hfx hbx
  have hvy := normalize32_eq F hs ys [] fuel hfy hby
  rw [List.nil_append] at hvx hvy
  have kx := (C83_any_form F sort hs xs gx hgx fuel hfx hbx _ hvx _ (segments_breaks _)).mpr (hkeep gx (.inl rfl))
  have ky := (C83_any_form F sort hs ys gy hgy fuel hfy hby _ hvy _ (segments_breaks _)).mpr (hkeep gy (.inr rfl))
  -- the i-th grapheme of each
  have one : ∀ (zs : List Int) (gs : List (List Int)), (graphemes (F.text sort zs)).length = gs.length →
      (∀ j k, j ≤ k → k ≤ gs.length → normalize32 F sort fuel ((gs.take k).drop j).flatten [] =
        .ok (((((graphemes (F.text sort zs)).take k).drop j).flatten.length : Int),
          (((graphemes (F.text sort zs)).take k).drop j).flatten)) →
      ∀ (i : Nat) (g : List Int), gs[i]? = some g → ∃ n, (graphemes (F.text sort zs))[i]? = some n ∧
        normalize32 F sort fuel g [] = .ok ((n.length : Int), n) := by
    intro zs gs hlen h i g hg
    have hi := (List.getElem?_eq_some_iff.mp hg).1
    have e2 : (graphemes (F.text sort zs))[i]? = some (graphemes (F.text sort zs))[i] :=
      List.getElem?_eq_getElem (by omega)
    have h1 := h i (i + 1) (by omega) (by omega)
    rw [take_drop_one hg, take_drop_one e2] at h1
    exact ⟨_, e2, by simpa using h1⟩
  have ox := one xs gx kx.1 kx.2
  have oy := one ys gy ky.1 ky.2
  constructor
  · intro h
    rw [hvx, hvy] at h
    simp only [Res.ok.injEq, Prod.mk.injEq] at h
    refine ⟨?_, fun i g g' hg hg' => ?_⟩
    · rw [← kx.1, ← ky.1]; exact congrArg (fun l => (graphemes l).length) h.2
    · obtain ⟨n, h1, h2⟩ := ox i g hg
      obtain ⟨n', h3, h4⟩ := oy i g' hg'
      rw [h.2, h3] at h1
      obtain rfl := Option.some.inj h1
      rw [h2, h4]
  · rintro ⟨hlen, h⟩
    have he : graphemes (F.text sort xs) = graphemes (F.text sort ys) := by
      refine List.ext_getElem? fun i => ?_
      by_cases hi : i < gx.length
      · have e1 := List.getElem?_eq_getElem hi
        have e2 : gy[i]? = some gy[i] := List.getElem?_eq_getElem (by omega)
        obtain ⟨n, h1, h2⟩ := ox i _ e1
        obtain ⟨n', h3, h4⟩ := oy i _ e2
        have h5 := h i _ _ e1 e2
        rw [h2, h4] at h5
        simp only [Res.ok.injEq, Prod.mk.injEq] at h5
        rw [h1, h3, h5.2]
      · have l1 : (graphemes (F.text sort xs)).length = gx.length := kx.1
        have l2 : (graphemes (F.text sort ys)).length = gy.length := ky.1
        rw [List.getElem?_eq_none (by omega), List.getElem?_eq_none (by omega)]
    have ht : F.text sort xs = F.text sort ys := by
      rw [← segments_flatten isGraphemeBoundary (F.text sort xs), ← segments_flatten isGraphemeBoundary (F.text sort ys)]
      exact congrArg List.flatten he
    rw [hvx, hvy, ht]

/-- Instance: the two ways to write "µé", in NFKC. -/
example := C59_compare_any_form .KC insSort insSort_stable.1 [0xB5, 0x65, 0x301] [0xB5, 0xE9] [[0xB5], [0x65, 0x301]]
  [[0xB5], [0xE9]] (segmentation_of (by decide +kernel)) (segmentation_of (by decide +kernel)) 9 (by decide) (by decide)
  (by decide +kernel) (by decide +kernel) (by
    have cases : ∀ j k : Nat, j ≤ k → k ≤ 2 →
        (j = 0 ∧ k = 0) ∨ (j = 0 ∧ k = 1) ∨ (j = 0 ∧ k = 2) ∨ (j = 1 ∧ k = 1) ∨ (j = 1 ∧ k = 2) ∨ (j = 2 ∧ k = 2) := by omega
    rintro gs (rfl | rfl)
    · exact (C83_any_form .KC insSort insSort_stable.1 [0xB5, 0x65, 0x301] [[0xB5], [0x65, 0x301]]
        (segmentation_of (by decide +kernel)) 9 (by decide) (by decide +kernel) [0x3BC, 0xE9] (by decide +kernel)
        [[0x3BC], [0xE9]] (segmentation_of (by decide +kernel))).mp ⟨rfl, fun j k hjk hk => by
          rcases cases j k hjk hk with ⟨rfl, rfl⟩ | ⟨rfl, rfl⟩ | ⟨rfl, rfl⟩ | ⟨rfl, rfl⟩ | ⟨rfl, rfl⟩ | ⟨rfl, rfl⟩ <;>
            decide +kernel⟩
    · exact (C83_any_form .KC insSort insSort_stable.1 [0xB5, 0xE9] [[0xB5], [0xE9]]
        (segmentation_of (by decide +kernel)) 9 (by decide) (by decide +kernel) [0x3BC, 0xE9] (by decide +kernel)
        [[0x3BC], [0xE9]] (segmentation_of (by decide +kernel))).mp ⟨rfl, fun j k hjk hk => by
          rcases cases j k hjk hk with ⟨rfl, rfl⟩ | ⟨rfl, rfl⟩ | ⟨rfl, rfl⟩ | ⟨rfl, rfl⟩ | ⟨rfl, rfl⟩ | ⟨rfl, rfl⟩ <;>
            decide +kernel⟩)

/-- C58, exactly: let a canonical form keep the graphemes of two texts that have the same canonical form, and let no grapheme
of the first hold U+0F77 or U+0F79 after another codepoint of class 130 (`TibetanTrap`). Then the two texts have the same
compatibility forms if and only if no grapheme of the second does. In particular, if neither does, canonically equivalent
texts are compatibility equivalent. -/
theorem C58_canonical_implies_compat_kept (F G : Form) (hF : F = .D ∨ F = .C) (hG : G = .KD ∨ G = .KC)
    (sort : SortFn) (hs : StableSort sort) (xs ys : List Int)
    (gx gy : List (List Int)) (hgx : IsSegmentation Breaks xs gx) (hgy : IsSegmentation Breaks ys gy) (fuel : Nat)
    (hfx : xs.length < fuel) (hfy : ys.length < fuel)
    (hbx : (xs.flatMap fullK).length < 2 ^ 31) (hby : (ys.flatMap fullK).length < 2 ^ 31)
    (zs : List Int) (hx : normalize32 F sort fuel xs [] = .ok ((zs.length : Int), zs))
    (hy : normalize32 F sort fuel ys [] = .ok ((zs.length : Int), zs))
    (ns : List (List Int)) (hns : IsSegmentation Breaks zs ns)
    (hkx : ns.length = gx.length ∧ ∀ (i : Nat) (g n : List Int), gx[i]? = some g → ns[i]? = some n →
      normalize32 F sort fuel g [] = .ok ((n.length : Int), n))
    (hky : ns.length = gy.length ∧ ∀ (i : Nat) (g n : List Int), gy[i]? = some g → ns[i]? = some n →
      normalize32 F sort fuel g [] = .ok ((n.length : Int), n))
    (htx : ¬ TibetanTrap gx) :
    normalize32 G sort fuel xs [] = normalize32 G sort fuel ys [] ↔ ¬ TibetanTrap gy := by
  obtain ⟨a, h1, h2⟩ := C58_compat_after_canonical_kept F G hF hG sort hs xs gx hgx fuel hfx hbx zs hx ns hns hkx.1 hkx.2
  obtain ⟨b, h3, h4⟩ := C58_compat_after_canonical_kept F G hF hG sort hs ys gy hgy fuel hfy hby zs hy ns hns hky.1 hky.2
  have h5 := (h2 (zs.length + 1) (by omega)).mpr htx
  rw [← h4 (zs.length + 1) (by omega), h5, h1, h3]

/-- Instance: "éa" in two ways. -/
example := C58_canonical_implies_compat_kept .C .KD (.inr rfl) (.inl rfl) insSort insSort_stable [0xE9, 0x61]
  [0x65, 0x301, 0x61] [[0xE9], [0x61]] [[0x65, 0x301], [0x61]] (segmentation_of (by decide +kernel))
  (segmentation_of (by decide +kernel)) 9 (by decide) (by decide) (by decide +kernel) (by decide +kernel)
  [0xE9, 0x61] (by decide +kernel) (by decide +kernel) [[0xE9], [0x61]] (segmentation_of (by decide +kernel))
  ⟨rfl, by
    intro i g n hg hn
    match i with
    | 0 => simp at hg hn; subst hg hn; decide +kernel
    | 1 => simp at hg hn; subst hg hn; decide +kernel
    | i + 2 => simp at hg⟩
  ⟨rfl, by
    intro i g n hg hn
    match i with
    | 0 => simp at hg hn; subst hg hn; decide +kernel
    | 1 => simp at hg hn; subst hg hn; decide +kernel
    | i + 2 => simp at hg⟩
  (by
    rintro ⟨g, hg, p, s, q, n, rfl, hs, -⟩
    simp only [List.mem_cons, List.not_mem_nil, or_false] at hg
    rcases hg with h | h
    all_goals
      have := congrArg (fun l => s ∈ l) h
      rcases hs with rfl | rfl <;> simp at this)

/-- The condition on the second text is needed: U+0F72 and U+0F77 in either order have the same NFD, but not the same NFKD. -/
theorem C58_trap_distinguishes :
    normalize32 .D insSort 9 [0xF40, 0xF77, 0xF72] [] = .ok (3, [0xF40, 0xF77, 0xF72]) ∧
    normalize32 .D insSort 9 [0xF40, 0xF72, 0xF77] [] = .ok (3, [0xF40, 0xF77, 0xF72]) ∧
    normalize32 .KD insSort 9 [0xF40, 0xF77, 0xF72] [] = .ok (5, [0xF40, 0xFB2, 0xF71, 0xF80, 0xF72]) ∧
    normalize32 .KD insSort 9 [0xF40, 0xF72, 0xF77] [] = .ok (5, [0xF40, 0xFB2, 0xF71, 0xF72, 0xF80]) := by
  decide +kernel

/-- The restrictions are needed. Cutting by codepoints: "e" cut from "é" given as two codepoints, which is one codepoint in
NFC. The compatibility forms: "ﬁ" is one grapheme, its NFKD two. Emoji modifiers: an accent and a modifier after "e". -/
theorem C83_counterexamples :
    (normalize32 .C insSort 9 [0x65, 0x301] [] = .ok (1, [0xE9]) ∧ normalize32 .C insSort 9 [0x65] [] = .ok (1, [0x65])) ∧
    (graphemes [0xFB01] = [[0xFB01]] ∧ normalize32 .KD insSort 9 [0xFB01] [] = .ok (2, [0x66, 0x69]) ∧
      graphemes [0x66, 0x69] = [[0x66], [0x69]]) ∧
    graphemes [0x65, 0x301, 0x1F3FB] = [[0x65, 0x301, 0x1F3FB]] ∧
    normalize32 .D insSort 9 [0x65, 0x301, 0x1F3FB] [] = .ok (3, [0x65, 0x1F3FB, 0x301]) ∧
    graphemes [0x65, 0x1F3FB, 0x301] = [[0x65], [0x1F3FB, 0x301]] := by decide +kernel

end U5e
