import Verif.Proofs.NormText
/-!
# C28, C42, C43: the decomposition and composition tables

`decResolve` / `kdecResolve` / `compResolve` are the modelled `resolve` functions (bsearch over the
checked-in tables, Model/Props.lean). `Spec.full map c` is the decomposition of one codepoint.
-/
namespace U5e
open Spec

/-- C28: every canonical mapping is non-empty, zero-terminated, has no interior zero, and none of its
codepoints has a mapping. Any `int` argument. -/
theorem C28_canonical_mapping (c : Int) (m : List Int) (h : decResolve c = some m) :
    ∃ l, m = l ++ [0] ∧ l ≠ [] ∧ ∀ x ∈ l, x ≠ 0 ∧ decResolve x = none :=
  ⟨fullD c, goodD.shape c m h, factsD.ne_nil c, fun x hx => ⟨goodD.nz c m h x hx, factsD.elem hx⟩⟩

/-- Instance: U+1E69. -/
example := C28_canonical_mapping 0x1E69 [0x73, 0x323, 0x307, 0] (by decide +kernel)

/-- C28 for the compatibility table; its codepoints have no canonical mapping either. -/
theorem C28_compatibility_mapping (c : Int) (m : List Int) (h : kdecResolve c = some m) :
    ∃ l, m = l ++ [0] ∧ l ≠ [] ∧ ∀ x ∈ l, x ≠ 0 ∧ kdecResolve x = none ∧ decResolve x = none :=
  ⟨fullK c, goodK.shape c m h, factsK.ne_nil c,
    fun x hx => ⟨goodK.nz c m h x hx, factsK.elem hx, elemK_dec hx⟩⟩

/-- Instance: U+FB01. -/
example := C28_compatibility_mapping 0xFB01 [0x66, 0x69, 0] (by decide +kernel)

/-- The mappings are at most 20 codepoints long, so the `int` counter cannot overflow on one mapping. -/
theorem C28_expansion_bound (c : Int) : (fullD c).length ≤ 20 ∧ (fullK c).length ≤ 20 :=
  ⟨goodD.len c, goodK.len c⟩

/-- C28: `canonical_decomposition(c, out)` and `compatibility_and_canonical_decomposition(c, out)`
append exactly the mapping without its terminator (or `c` itself when there is none), return how many
codepoints they appended, and never read past the mapping. -/
theorem C28_decomposition_call (c : Int) (out : List Int) :
    canonicalDecomposition c out = .ok (((fullD c).length : Int), out ++ fullD c) ∧
    compatibilityDecomposition c out = .ok (((fullK c).length : Int), out ++ fullK c) :=
  ⟨codepointDecomposition_eq goodD c out, codepointDecomposition_eq goodK c out⟩

/-- Filtering a utf32ne string through a decomposition. -/
theorem filter_decompose_string {map} (G : GoodMap map) (cs : List Int) (fuel : Nat)
    (hf : cs.length < fuel) (out : List Int) (hb : (decompose map cs).length ≤ 2147483647) :
    filter (utf32Iter (cs ++ [0])).input fuel 0 cs.length out (codepointDecomposition map) =
      .ok ((decompose map cs).length, out ++ decompose map cs) := by
  have S := sim_utf32 [] cs [0]
  have ht := traverses_codepoints S 0 cs.length (by omega) (Nat.le_refl _)
  simp only [List.length_nil, Nat.zero_add, List.nil_append, List.take_length, List.drop_zero] at ht
  exact filter_decompose G ht fuel hf out hb

/-- C28: filtering a text through a decomposition appends the concatenated decompositions, and
filtering that result again changes nothing. (`hb`: the `int` counter does not overflow.) -/
theorem C28_twice_is_once (cs : List Int) (fuel : Nat) (hf : cs.length < fuel)
    (op : Int → List Int → Res (Int × List Int)) (map : Int → Option (List Int))
    (hop : op = canonicalDecomposition ∧ map = decResolve ∨
      op = compatibilityDecomposition ∧ map = kdecResolve)
    (hb : (cs.flatMap (full map)).length < 2 ^ 31) :
    ∃ ds, filter (utf32Iter (cs ++ [0])).input fuel 0 cs.length [] op = .ok (ds.length, ds) ∧
      ds = cs.flatMap (full map) ∧
      ∀ fuel' out, ds.length < fuel' →
        filter (utf32Iter (ds ++ [0])).input fuel' 0 ds.length out op = .ok (ds.length, out ++ ds) := by
  have key : ∀ map, GoodMap map → DecFacts map → (decompose map cs).length < 2 ^ 31 →
      ∃ ds, filter (utf32Iter (cs ++ [0])).input fuel 0 cs.length [] (codepointDecomposition map) =
        .ok (ds.length, ds) ∧ ds = decompose map cs ∧
      ∀ fuel' out, ds.length < fuel' →
        filter (utf32Iter (ds ++ [0])).input fuel' 0 ds.length out (codepointDecomposition map) =
          .ok (ds.length, out ++ ds) := by
    intro map G F hb
    refine ⟨decompose map cs, by rw [filter_decompose_string G cs fuel hf [] (by omega)]; rfl, rfl, ?_⟩
    intro fuel' out hf'
    have := filter_decompose_string G (decompose map cs) fuel' hf' out
      (by rw [F.decompose_decompose]; omega)
    rwa [F.decompose_decompose] at this
  rcases hop with ⟨rfl, rfl⟩ | ⟨rfl, rfl⟩
  · exact key decResolve goodD factsD hb
  · exact key kdecResolve goodK factsK hb

/-- Instance. -/
example := C28_twice_is_once [0x1E69, 0xFB01] 3 (by decide) compatibilityDecomposition kdecResolve (.inr ⟨rfl, rfl⟩)
  (by decide +kernel)

/-- Non-vacuity: U+1E69 is fully resolved to s + dot below + dot above (its UCD mapping is
1E63 0307); ﬁ U+FB01 only in the compatibility table. -/
example : filter (utf32Iter ([0x1E69, 0xFB01] ++ [0])).input 9 0 2 [] canonicalDecomposition =
      .ok (4, [0x73, 0x323, 0x307, 0xFB01]) ∧
    filter (utf32Iter ([0x1E69, 0xFB01] ++ [0])).input 9 0 2 [] compatibilityDecomposition =
      .ok (5, [0x73, 0x323, 0x307, 0x66, 0x69]) := by decide +kernel

/-- C42: compatibility decomposition after canonical decomposition is compatibility decomposition;
canonical decomposition after compatibility decomposition changes nothing. For every text. -/
theorem C42_refinement (cs : List Int) :
    (cs.flatMap fullD).flatMap fullK = cs.flatMap fullK ∧
    (cs.flatMap fullK).flatMap fullD = cs.flatMap fullK := by
  constructor
  · induction cs with
    | nil => rfl
    | cons c cs ih =>
      rw [List.flatMap_cons, List.flatMap_append, ih, List.flatMap_cons]
      congr 1; exact (fullK_fullD c).symm
  · refine decompose_id (map := decResolve) ?_
    intro x hx
    obtain ⟨c, _, hc⟩ := List.mem_flatMap.mp hx
    exact elemK_fullD hc

/-- C42 as runs of `filter`: the two passes K∘D and D∘K give exactly the one pass K. -/
theorem C42_passes (cs : List Int) (fuel : Nat) (hb : (cs.flatMap fullK).length < 2 ^ 31)
    (hbd : (cs.flatMap fullD).length < 2 ^ 31) (hf : cs.length < fuel)
    (hfd : (cs.flatMap fullD).length < fuel) (hfk : (cs.flatMap fullK).length < fuel) :
    ∃ d k, filter (utf32Iter (cs ++ [0])).input fuel 0 cs.length [] canonicalDecomposition =
        .ok (d.length, d) ∧
      filter (utf32Iter (cs ++ [0])).input fuel 0 cs.length [] compatibilityDecomposition =
        .ok (k.length, k) ∧
      filter (utf32Iter (d ++ [0])).input fuel 0 d.length [] compatibilityDecomposition =
        .ok (k.length, k) ∧
      filter (utf32Iter (k ++ [0])).input fuel 0 k.length [] canonicalDecomposition =
        .ok (k.length, k) := by
  obtain ⟨h1, h2⟩ := C42_refinement cs
  refine ⟨cs.flatMap fullD, cs.flatMap fullK, ?_, ?_, ?_, ?_⟩
  · exact filter_decompose_string goodD cs fuel hf [] (by rw [decompose]; omega)
  · exact filter_decompose_string goodK cs fuel hf [] (by rw [decompose]; omega)
  · have := filter_decompose_string goodK (cs.flatMap fullD) fuel hfd []
      (by rw [decompose, h1]; omega)
    rw [decompose, h1] at this; exact this
  · have := filter_decompose_string goodD (cs.flatMap fullK) fuel hfk []
      (by rw [decompose, h2]; omega)
    rw [decompose, h2] at this; exact this

/-- Instance. -/
example := C42_passes [0x1E9B, 0xFB01] 6 (by decide +kernel) (by decide +kernel) (by decide) (by decide +kernel)
  (by decide +kernel)

/-- Non-vacuity / the two tables really differ: ẛ̣ U+1E9B. -/
example : fullD 0x1E9B = [0x17F, 0x307] ∧ fullK 0x1E9B = [0x73, 0x307] ∧ fullK 0x17F = [0x73] := by
  decide +kernel

/-- C43 (table internal part; the exclusions are in Properties/Generators.lean): whenever a pair
composes, the result is a starter, the first is a starter, the decomposition of the result is the
decomposition of the pair (composition is the inverse of decomposition), the second has no
decomposition, and the result is not itself the second of any pair. -/
theorem C43_composition_inverse (a b c : Int) (h : compResolve a b = some c) :
    cccResolve a = 0 ∧ cccResolve c = 0 ∧ decResolve c ≠ none ∧
      fullD c = fullD a ++ fullD b ∧ fullD b = [b] ∧ (∀ x, compResolve x c = none) ∧
      0 < a ∧ 0 < b ∧ 0 < c := by
  have F := comp_facts h
  have hpos : ∀ x : Int, (∃ d, fullD d = fullD c ∧ x ∈ fullD d) → 0 < x := by
    rintro x ⟨d, hd, hx⟩
    rw [hd] at hx
    cases hm : decResolve c with
    | none => exact absurd hm F.dec3
    | some m =>
      obtain ⟨h', t', he, _, hall, _⟩ := factsD.some_ c m hm
      rw [he] at hx; exact (hall x hx).1
  refine ⟨F.ccc1, F.ccc3, F.dec3, F.full, factsD.none_ F.dec2, comp_result_not_second h, ?_, ?_, F.pos3⟩
  · by_cases ha : a < 0
    · rw [compResolve_neg a b (.inl ha)] at h; simp at h
    · by_cases h0 : a = 0
      · subst h0
        have : (0 : Int) ∈ fullD c := by
          rw [F.full]
          have : decResolve 0 = none := by decide +kernel
          rw [factsD.none_ this]; simp
        exact absurd (hpos 0 ⟨c, rfl, this⟩) (by omega)
      · omega
  · exact hpos b ⟨c, rfl, by rw [F.full, factsD.none_ F.dec2]; simp⟩

/-- Instance: "é". -/
example := C43_composition_inverse 0x65 0x301 0xE9 (by decide +kernel)

example : compResolve 0x65 0x301 = some 0xE9 ∧ compResolve 0xE9 0x301 = none := by decide +kernel

end U5e
