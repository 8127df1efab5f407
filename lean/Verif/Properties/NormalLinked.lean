import Verif.Properties.NormalSlice
import Verif.Properties.StdSort
/-!
# C59, C82 and C83 with the linked `std::sort`

`libSort` is libstdc++'s `std::sort` (C73), which is stable up to 16 elements only. So for texts whose graphemes decompose
to at most 16 codepoints, and only for them (`C73_not_stable`), what is proved of stable sorts holds of it.
-/
namespace U5e
open Spec

/-- Runs of graphemes of such a text, and its graphemes, are normalized as with a stable sort. -/
theorem linked_run (F : Form) (cs : List Int) (gs : List (List Int)) (hgs : IsSegmentation Breaks cs gs)
    (hshort : ∀ g ∈ gs, (g.flatMap (full F.map)).length ≤ 16)
    (fuel : Nat) (hf : cs.length < fuel) (hb : (cs.flatMap (full F.map)).length < 2 ^ 31) :
    (∀ i k, normalize32 F libSort fuel ((gs.drop i).take k).flatten [] =
      normalize32 F insSort fuel ((gs.drop i).take k).flatten []) ∧
    ∀ g ∈ gs, normalize32 F libSort fuel g [] = normalize32 F insSort fuel g [] := by
  have hrun : ∀ i k, normalize32 F libSort fuel ((gs.drop i).take k).flatten [] =
      normalize32 F insSort fuel ((gs.drop i).take k).flatten [] := by
    intro i k
    have hl := run_length gs i k (full F.map)
    rw [hgs.concat] at hl
    exact C73_short_graphemes F _ [] _ (run_segmentation hgs i k)
      (fun g hg => hshort g (List.mem_of_mem_drop (List.mem_of_mem_take hg))) fuel (by omega) (by omega)
  refine ⟨hrun, fun g hg => ?_⟩
  obtain ⟨i, hi⟩ := List.getElem?_of_mem hg
  have h1 := take_drop_one hi
  rw [List.drop_take, show i + 1 - i = 1 by omega] at h1
  have := hrun i 1
  rw [h1] at this
  simpa using this

/-- What keeps the graphemes with the linked sort keeps them with a stable one. -/
theorem linked_kept (F : Form) (fuel : Nat) (gs : List (List Int))
    (hg : ∀ g ∈ gs, normalize32 F libSort fuel g [] = normalize32 F insSort fuel g []) :
    ((∀ g ∈ gs, ∀ n, normalize32 F insSort fuel g [] = .ok ((n.length : Int), n) →
        ∀ p a m q, n = p ++ a :: m :: q → gcbResolve m = .E_MODIFIER → ¬ Breaks a m) ∧
      ∀ p g m h r, gs = p ++ g :: (m :: h) :: r → gcbResolve m = .E_MODIFIER →
        ∀ n w y, normalize32 F insSort fuel g [] = .ok ((n.length : Int), n) → n = w ++ [y] → gcbResolve y ≠ .EXTEND) ↔
    ((∀ g ∈ gs, ∀ n, normalize32 F libSort fuel g [] = .ok ((n.length : Int), n) →
        ∀ p a m q, n = p ++ a :: m :: q → gcbResolve m = .E_MODIFIER → ¬ Breaks a m) ∧
      ∀ p g m h r, gs = p ++ g :: (m :: h) :: r → gcbResolve m = .E_MODIFIER →
        ∀ n w y, normalize32 F libSort fuel g [] = .ok ((n.length : Int), n) → n = w ++ [y] → gcbResolve y ≠ .EXTEND) := by
  refine and_congr ?_ ?_
  · exact forall_congr' fun g => forall_congr' fun h => by rw [hg g h]
  · refine forall_congr' fun p => forall_congr' fun g => forall_congr' fun m => forall_congr' fun h =>
      forall_congr' fun r => forall_congr' fun he => ?_
    rw [hg g (by rw [he]; simp)]

/-- C83 with the linked `std::sort`, exactly: for a text whose graphemes decompose to at most 16 codepoints, from any
grapheme to any other the normal form of that part of the text is that part of the normal form of the text, and there are
as many graphemes, if and only if the form keeps the graphemes. -/
theorem C83_linked (F : Form) (hF : F = .D ∨ F = .C) (cs : List Int)
    (gs : List (List Int)) (hgs : IsSegmentation Breaks cs gs) (hshort : ∀ g ∈ gs, (g.flatMap fullD).length ≤ 16)
    (fuel : Nat) (hf : cs.length < fuel) (hb : (cs.flatMap fullD).length < 2 ^ 31)
    (ys : List Int) (hy : normalize32 F libSort fuel cs [] = .ok ((ys.length : Int), ys))
    (ns : List (List Int)) (hns : IsSegmentation Breaks ys ns) :
    (ns.length = gs.length ∧ ∀ j k, j ≤ k → k ≤ gs.length →
      normalize32 F libSort fuel ((gs.take k).drop j).flatten [] =
        .ok ((((ns.take k).drop j).flatten.length : Int), ((ns.take k).drop j).flatten)) ↔
    (∀ g ∈ gs, ∀ n, normalize32 F libSort fuel g [] = .ok ((n.length : Int), n) →
      ∀ p a m q, n = p ++ a :: m :: q → gcbResolve m = .E_MODIFIER → ¬ Breaks a m) ∧
    ∀ p g m h r, gs = p ++ g :: (m :: h) :: r → gcbResolve m = .E_MODIFIER →
      ∀ n w y, normalize32 F libSort fuel g [] = .ok ((n.length : Int), n) → n = w ++ [y] → gcbResolve y ≠ .EXTEND := by
  have hFm : full F.map = fullD := by rcases hF with rfl | rfl <;> rfl
  obtain ⟨hr, hg⟩ := linked_run F cs gs hgs (by rw [hFm]; exact hshort) fuel hf (by rw [hFm]; exact hb)
  rw [C73_short_graphemes F cs [] gs hgs (by rw [hFm]; exact hshort) fuel hf (by rw [hFm]; exact hb)] at hy
  refine Iff.trans ?_ ((C83_exact F hF insSort insSort_stable cs gs hgs fuel hf hb ys hy ns hns).trans
    (linked_kept F fuel gs hg))
  refine and_congr_right fun _ => forall_congr' fun j => forall_congr' fun k => ?_
  rw [List.drop_take, hr]

/-- C82 with the linked `std::sort`: for a text and a pattern whose graphemes decompose to at most 16 codepoints, if the
form keeps the graphemes of the text. -/
theorem C82_linked (F : Form) (hF : F = .D ∨ F = .C) (cs : List Int)
    (gs : List (List Int)) (hgs : IsSegmentation Breaks cs gs) (hshort : ∀ g ∈ gs, (g.flatMap fullD).length ≤ 16)
    (fuel : Nat) (hf : cs.length < fuel) (hb : (cs.flatMap fullD).length < 2 ^ 31)
    (hin : ∀ g ∈ gs, ∀ n, normalize32 F libSort fuel g [] = .ok ((n.length : Int), n) →
      ∀ p a m q, n = p ++ a :: m :: q → gcbResolve m = .E_MODIFIER → ¬ Breaks a m)
    (hseam : ∀ p g m h r, gs = p ++ g :: (m :: h) :: r → gcbResolve m = .E_MODIFIER →
      ∀ n w y, normalize32 F libSort fuel g [] = .ok ((n.length : Int), n) → n = w ++ [y] → gcbResolve y ≠ .EXTEND)
    (ys : List Int) (hy : normalize32 F libSort fuel cs [] = .ok ((ys.length : Int), ys))
    (ns : List (List Int)) (hns : IsSegmentation Breaks ys ns)
    (p P : List Int) (gp : List (List Int)) (hgp : IsSegmentation Breaks p gp)
    (hshort' : ∀ g ∈ gp, (g.flatMap fullD).length ≤ 16) (hf' : p.length < fuel) (hb' : (p.flatMap fullD).length < 2 ^ 31)
    (hP : normalize32 F libSort fuel p [] = .ok ((P.length : Int), P)) (i k : Nat) :
    ((ns.drop i).take k).flatten = P ↔
      normalize32 F libSort fuel ((gs.drop i).take k).flatten [] = normalize32 F libSort fuel p [] := by
  have hFm : full F.map = fullD := by rcases hF with rfl | rfl <;> rfl
  obtain ⟨hr, hg⟩ := linked_run F cs gs hgs (by rw [hFm]; exact hshort) fuel hf (by rw [hFm]; exact hb)
  have hx := (linked_kept F fuel gs hg).mpr ⟨hin, hseam⟩
  have hp := C73_short_graphemes F p [] gp hgp (by rw [hFm]; exact hshort') fuel hf' (by rw [hFm]; exact hb')
  rw [C73_short_graphemes F cs [] gs hgs (by rw [hFm]; exact hshort) fuel hf (by rw [hFm]; exact hb)] at hy
  rw [hp] at hP
  rw [hr, hp]
  exact C82_search F hF insSort insSort_stable cs gs hgs fuel hf hb hx.1 hx.2 ys hy ns hns p P hP i k

/-- Such a text: emoji modifiers only directly after emoji bases. Truncating to any number of graphemes and normalizing
with the linked `std::sort` may be done in either order. -/
theorem C83_linked_truncate (F : Form) (hF : F = .D ∨ F = .C) (cs : List Int) (hmod : ModifiersFollowBases cs)
    (gs : List (List Int)) (hgs : IsSegmentation Breaks cs gs) (hshort : ∀ g ∈ gs, (g.flatMap fullD).length ≤ 16)
    (fuel : Nat) (hf : cs.length < fuel) (hb : (cs.flatMap fullD).length < 2 ^ 31)
    (ys : List Int) (hy : normalize32 F libSort fuel cs [] = .ok ((ys.length : Int), ys))
    (ns : List (List Int)) (hns : IsSegmentation Breaks ys ns) (k : Nat) (hk : k ≤ gs.length) :
    ns.length = gs.length ∧
    normalize32 F libSort fuel (gs.take k).flatten [] = .ok (((ns.take k).flatten.length : Int), (ns.take k).flatten) := by
  have hFm : full F.map = fullD := by rcases hF with rfl | rfl <;> rfl
  obtain ⟨hr, -⟩ := linked_run F cs gs hgs (by rw [hFm]; exact hshort) fuel hf (by rw [hFm]; exact hb)
  rw [C73_short_graphemes F cs [] gs hgs (by rw [hFm]; exact hshort) fuel hf (by rw [hFm]; exact hb)] at hy
  have := hr 0 k
  rw [List.drop_zero] at this
  rw [this]
  exact C83_truncate F hF insSort insSort_stable cs hmod gs hgs fuel hf hb ys hy ns hns k hk

/-- Instance: "aéb" cut to two graphemes. -/
example := C83_linked_truncate .C (.inr rfl) [0x61, 0x65, 0x301, 0x62] (modifiers_of (by decide +kernel))
  [[0x61], [0x65, 0x301], [0x62]] (segmentation_of (by decide +kernel)) (by decide +kernel) 9 (by decide) (by decide +kernel)
  [0x61, 0xE9, 0x62] (by decide +kernel) [[0x61], [0xE9], [0x62]] (segmentation_of (by decide +kernel)) 2 (by decide)

/-- Instance: the conditions of the other two, for the same text, and "é" as the pattern. -/
example :
    let cs : List Int := [0x61, 0x65, 0x301, 0x62]
    let gs : List (List Int) := [[0x61], [0x65, 0x301], [0x62]]
    let hgs : IsSegmentation Breaks cs gs := segmentation_of (by decide +kernel)
    let hx := (linked_kept .C 9 gs (linked_run .C cs gs hgs (by decide +kernel) 9 (by decide) (by decide +kernel)).2).mp
      ((C59_exact .C (.inr rfl) insSort insSort_stable cs gs hgs 9 (by decide) (by decide +kernel)).mp
        (C59_graphemes_of_normal_form .C (.inr rfl) insSort insSort_stable cs (modifiers_of (by decide +kernel)) gs hgs 9
          (by decide) (by decide +kernel)))
    let _h1 := C82_linked .C (.inr rfl) cs gs hgs (by decide +kernel) 9 (by decide) (by decide +kernel) hx.1 hx.2
      [0x61, 0xE9, 0x62] (by decide +kernel) [[0x61], [0xE9], [0x62]] (segmentation_of (by decide +kernel)) [0xE9] [0xE9]
      [[0xE9]] (segmentation_of (by decide +kernel)) (by decide +kernel) (by decide) (by decide +kernel) (by decide +kernel) 1 1
    let _h2 := (C83_linked .C (.inr rfl) cs gs hgs (by decide +kernel) 9 (by decide) (by decide +kernel)
      [0x61, 0xE9, 0x62] (by decide +kernel) [[0x61], [0xE9], [0x62]] (segmentation_of (by decide +kernel))).mpr hx
    normalize32 .C libSort 9 [0x65, 0x301] [] = normalize32 .C libSort 9 [0xE9] [] ∧
    ([[0x61], [0xE9], [0x62]] : List (List Int)).length = gs.length := by
  intro cs gs hgs hx h1 h2
  exact ⟨h1.mp rfl, h2.1⟩

end U5e
