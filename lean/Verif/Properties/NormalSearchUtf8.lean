import Verif.Properties.NormalSlice
import Verif.Properties.Utf8Forms
/-!
# C82 and C83 for UTF-8 strings

`normalize8 F sort fuel cs out` filters the NUL-terminated `utf8_string` that holds the UTF-8 encoding of the codepoints
`cs` through form `F`, appending to the `utf8_string` `out`. `gs` are the graphemes of the text, `ns` those of its form
`ys`, all as lists of codepoints. Where the encoder gets the form right (`Encodable`, C10), the conditions of C59_exact are
met by themselves.
-/
namespace U5e
open Spec

/-- C82 for UTF-8 strings: let the encoder get the normal forms (NFD or NFC) `ys` of a text and `P` of a pattern `p` right.
Then the octets of `k` consecutive graphemes of the normal form, from number `i` on, are the octets of the normal form of
the pattern if and only if filtering the `k` graphemes of the text from number `i` on gives the same string as filtering
the pattern. -/
theorem C82_search_utf8 (F : Form) (hF : F = .D ∨ F = .C) (sort : SortFn) (hs : StableSort sort) (cs p : List Nat)
    (hc : ∀ c ∈ cs, c < 2 ^ 31) (hp : ∀ c ∈ p, c < 2 ^ 31) (fuel : Nat) (hf : cs.length < fuel) (hf' : p.length < fuel)
    (hb : ((cs.map Int.ofNat).flatMap fullD).length < 2 ^ 31)
    (hb' : ((p.map Int.ofNat).flatMap fullD).length < 2 ^ 31) (ys P : List Nat)
    (hy : normalize32 F sort fuel (cs.map Int.ofNat) [] = .ok ((ys.length : Int), ys.map Int.ofNat))
    (hP : normalize32 F sort fuel (p.map Int.ofNat) [] = .ok ((P.length : Int), P.map Int.ofNat))
    (he : ∀ y ∈ ys, Encodable y) (he' : ∀ y ∈ P, Encodable y)
    (gs : List (List Nat)) (hgs : IsSegmentation Breaks (cs.map Int.ofNat) (gs.map (·.map Int.ofNat)))
    (ns : List (List Nat)) (hns : IsSegmentation Breaks (ys.map Int.ofNat) (ns.map (·.map Int.ofNat)))
    (out : List UInt8) (i k : Nat) :
    normalize8 F sort fuel cs out = .ok ((ys.length : Int), out ++ encodeText ys) ∧
    normalize8 F sort fuel p out = .ok ((P.length : Int), out ++ encodeText P) ∧
    (encodeText ((ns.drop i).take k).flatten = encodeText P ↔
      normalize8 F sort fuel ((gs.drop i).take k).flatten out = normalize8 F sort fuel p out) := by
  have hFm : F.map = decResolve := by rcases hF with rfl | rfl <;> rfl
  have hb1 : ((cs.map Int.ofNat).flatMap (full F.map)).length < 2 ^ 31 := by rw [hFm]; exact hb
  have hb2 : ((p.map Int.ofNat).flatMap (full F.map)).length < 2 ^ 31 := by rw [hFm]; exact hb'
  have writes : ∀ (xs zs : List Nat), (∀ c ∈ xs, c < 2 ^ 31) → xs.length < fuel →
      ((xs.map Int.ofNat).flatMap (full F.map)).length < 2 ^ 31 →
      normalize32 F sort fuel (xs.map Int.ofNat) [] = .ok ((zs.length : Int), zs.map Int.ofNat) →
      (∀ y ∈ zs, Encodable y) →
      normalize8 F sort fuel xs out = .ok ((zs.length : Int), out ++ encodeText zs) := by
    intro xs zs hx hxf hxb hz hze
    obtain ⟨ns, h1, h2⟩ := C38_encodings_agree F sort hs.1 xs hx fuel hxf hxb out
    rw [hz] at h1
    simp only [Res.ok.injEq, Prod.mk.injEq] at h1
    have e : ns = zs.map Int.ofNat := h1.2.symm
    subst e
    have := h2 (fun x hx => by
      obtain ⟨n, hn, rfl⟩ := List.mem_map.mp hx
      exact ⟨n, rfl, hze n hn⟩)
    rw [this, List.length_map, List.map_map]
    have : (Int.toNat ∘ Int.ofNat : Nat → Nat) = id := by funext n; rfl
    rw [this, List.map_id]
  refine ⟨writes cs ys hc hf hb1 hy he, writes p P hp hf' hb2 hP he', ?_⟩
  have hy' : F.text sort (cs.map Int.ofNat) = ys.map Int.ofNat := by
    rw [normalize32_eq F hs.1 _ [] fuel (by simpa) hb1] at hy
    simp only [Res.ok.injEq, Prod.mk.injEq, List.nil_append] at hy
    exact hy.2
  obtain ⟨hmod, _⟩ := harmless_of_encodable F hs.1 hy' he
  have hx := (C59_exact F hF sort hs _ _ hgs fuel (by simpa) hb).mp
    (C59_graphemes_of_normal_form F hF sort hs _ (modifiers_of_none hmod) _ hgs fuel (by simpa) hb)
  -- what the run of graphemes is, in naturals
  have emap : ∀ l : List (List Nat), (((l.map (·.map Int.ofNat)).drop i).take k).flatten =
      (((l.drop i).take k).flatten).map Int.ofNat := by
    intro l; rw [← List.map_drop, ← List.map_take, List.map_flatten]
  have hlen := run_length (gs.map (·.map Int.ofNat)) i k (full F.map)
  rw [hgs.concat, emap gs] at hlen
  simp only [List.length_map] at hlen
  have hrun := (C82_search F hF sort hs _ _ hgs fuel (by simpa) hb hx.1 hx.2 (ys.map Int.ofNat) (by simpa using hy) _ hns
    (((gs.map (·.map Int.ofNat)).drop i).take k).flatten
    (F.text sort (((gs.map (·.map Int.ofNat)).drop i).take k).flatten)
    (by
      rw [emap gs, normalize32_eq F hs.1 _ [] fuel (by rw [List.length_map]; omega) (by omega)]
      simp) i k).mpr rfl
  rw [emap gs, emap ns] at hrun
  have hval : normalize32 F sort fuel (((gs.drop i).take k).flatten.map Int.ofNat) [] =
      .ok (((((ns.drop i).take k).flatten).length : Int), ((ns.drop i).take k).flatten.map Int.ofNat) := by
    rw [normalize32_eq F hs.1 _ [] fuel (by rw [List.length_map]; omega) (by omega), ← hrun]
    rw [List.nil_append, List.length_map]
  have hsub : ∀ (l : List (List Nat)) (xs : List Nat), (l.map (·.map Int.ofNat)).flatten = xs.map Int.ofNat →
      ∀ c ∈ ((l.drop i).take k).flatten, c ∈ xs := by
    intro l xs hl c hcm
    obtain ⟨g, hg, hcg⟩ := List.mem_flatten.mp hcm
    have hgm := List.mem_of_mem_drop (List.mem_of_mem_take hg)
    have : Int.ofNat c ∈ xs.map Int.ofNat := by
      rw [← hl]
      exact List.mem_flatten.mpr ⟨g.map Int.ofNat, List.mem_map.mpr ⟨g, hgm, rfl⟩, List.mem_map.mpr ⟨c, hcg, rfl⟩⟩
    obtain ⟨k, hk, hkc⟩ := List.mem_map.mp this
    have : k = c := Int.ofNat.inj hkc
    rw [← this]; exact hk
  have heR : ∀ y ∈ ((ns.drop i).take k).flatten, Encodable y := fun y hm => he y (hsub ns ys hns.concat y hm)
  have h31 : ∀ {l : List Nat}, (∀ y ∈ l, Encodable y) → ∀ y ∈ l, y < 2 ^ 31 := by
    intro l h y hy; have := h y hy; unfold Encodable at this; omega
  rw [encodeText_inj (h31 heR) (h31 he'),
    C74_same_octets F sort hs.1 ((gs.drop i).take k).flatten p (fun c hm => hc c (hsub gs cs hgs.concat c hm)) hp fuel
      (by omega) hf' (by omega) hb2 _ P hval hP heR he' out]

/-- Instance: "é" as one codepoint, in "aéb" with the "é" as two. -/
example := C82_search_utf8 .C (.inr rfl) insSort insSort_stable [0x61, 0x65, 0x301, 0x62] [0xE9] (by decide) (by decide) 9
  (by decide) (by decide) (by decide +kernel) (by decide +kernel) [0x61, 0xE9, 0x62] [0xE9] (by decide +kernel)
  (by decide +kernel) (by decide) (by decide) [[0x61], [0x65, 0x301], [0x62]] (segmentation_of (by decide +kernel))
  [[0x61], [0xE9], [0x62]] (segmentation_of (by decide +kernel)) [0x78] 1 1

/-- C83 for UTF-8 strings: where the encoder gets the normal form right, filtering the part of the text between any two of
its graphemes appends the octets of the part of the normal form between the graphemes of the same numbers, and text and
normal form have the same number of graphemes. -/
theorem C83_utf8 (F : Form) (hF : F = .D ∨ F = .C) (sort : SortFn) (hs : StableSort sort) (cs : List Nat)
    (hc : ∀ c ∈ cs, c < 2 ^ 31) (fuel : Nat) (hf : cs.length < fuel)
    (hb : ((cs.map Int.ofNat).flatMap fullD).length < 2 ^ 31) (ys : List Nat)
    (hy : normalize32 F sort fuel (cs.map Int.ofNat) [] = .ok ((ys.length : Int), ys.map Int.ofNat))
    (he : ∀ y ∈ ys, Encodable y)
    (gs : List (List Nat)) (hgs : IsSegmentation Breaks (cs.map Int.ofNat) (gs.map (·.map Int.ofNat)))
    (ns : List (List Nat)) (hns : IsSegmentation Breaks (ys.map Int.ofNat) (ns.map (·.map Int.ofNat)))
    (out : List UInt8) (j k : Nat) (hjk : j ≤ k) (hk : k ≤ gs.length) :
    normalize8 F sort fuel cs out = .ok ((ys.length : Int), out ++ encodeText ys) ∧ ns.length = gs.length ∧
    normalize8 F sort fuel ((gs.take k).drop j).flatten out =
      .ok ((((ns.take k).drop j).flatten.length : Int), out ++ encodeText ((ns.take k).drop j).flatten) := by
  have hFm : F.map = decResolve := by rcases hF with rfl | rfl <;> rfl
  have hb1 : ((cs.map Int.ofNat).flatMap (full F.map)).length < 2 ^ 31 := by rw [hFm]; exact hb
  have writes : ∀ (xs zs : List Nat), (∀ c ∈ xs, c < 2 ^ 31) → xs.length < fuel →
      ((xs.map Int.ofNat).flatMap (full F.map)).length < 2 ^ 31 →
      normalize32 F sort fuel (xs.map Int.ofNat) [] = .ok ((zs.length : Int), zs.map Int.ofNat) →
      (∀ y ∈ zs, Encodable y) →
      normalize8 F sort fuel xs out = .ok ((zs.length : Int), out ++ encodeText zs) := by
    intro xs zs hx hxf hxb hz hze
    obtain ⟨ns, h1, h2⟩ := C38_encodings_agree F sort hs.1 xs hx fuel hxf hxb out
    rw [hz] at h1
    simp only [Res.ok.injEq, Prod.mk.injEq] at h1
    have e : ns = zs.map Int.ofNat := h1.2.symm
    subst e
    have := h2 (fun x hx => by
      obtain ⟨n, hn, rfl⟩ := List.mem_map.mp hx
      exact ⟨n, rfl, hze n hn⟩)
    rw [this, List.length_map, List.map_map]
    have : (Int.toNat ∘ Int.ofNat : Nat → Nat) = id := by funext n; rfl
    rw [this, List.map_id]
  have hy' : F.text sort (cs.map Int.ofNat) = ys.map Int.ofNat := by
    rw [normalize32_eq F hs.1 _ [] fuel (by simpa) hb1] at hy
    simp only [Res.ok.injEq, Prod.mk.injEq, List.nil_append] at hy
    exact hy.2
  obtain ⟨hmod, _⟩ := harmless_of_encodable F hs.1 hy' he
  have hx := (C59_exact F hF sort hs _ _ hgs fuel (by simpa) hb).mp
    (C59_graphemes_of_normal_form F hF sort hs _ (modifiers_of_none hmod) _ hgs fuel (by simpa) hb)
  have h83 := (C83_exact F hF sort hs _ _ hgs fuel (by simpa) hb (ys.map Int.ofNat) (by simpa using hy) _ hns).mpr hx
  simp only [List.length_map] at h83
  have emap : ∀ l : List (List Nat), (((l.map (·.map Int.ofNat)).take k).drop j).flatten =
      (((l.take k).drop j).flatten).map Int.ofNat := by
    intro l; rw [← List.map_take, ← List.map_drop, List.map_flatten]
  have hval := h83.2 j k hjk hk
  rw [emap gs, emap ns, List.length_map] at hval
  have hlen := run_length (gs.map (·.map Int.ofNat)) j (k - j) (full F.map)
  rw [hgs.concat, ← List.drop_take, emap gs] at hlen
  simp only [List.length_map] at hlen
  have hsub : ∀ (l : List (List Nat)) (xs : List Nat), (l.map (·.map Int.ofNat)).flatten = xs.map Int.ofNat →
      ∀ c ∈ ((l.take k).drop j).flatten, c ∈ xs := by
    intro l xs hl c hcm
    obtain ⟨g, hg, hcg⟩ := List.mem_flatten.mp hcm
    have hgm := List.mem_of_mem_take (List.mem_of_mem_drop hg)
    have : Int.ofNat c ∈ xs.map Int.ofNat := by
      rw [← hl]
      exact List.mem_flatten.mpr ⟨g.map Int.ofNat, List.mem_map.mpr ⟨g, hgm, rfl⟩, List.mem_map.mpr ⟨c, hcg, rfl⟩⟩
    obtain ⟨k, hk, hkc⟩ := List.mem_map.mp this
    have : k = c := Int.ofNat.inj hkc
    rw [← this]; exact hk
  exact ⟨writes cs ys hc hf hb1 hy he, h83.1,
    writes _ _ (fun c hm => hc c (hsub gs cs hgs.concat c hm)) (by omega) (by omega) hval
      (fun y hm => he y (hsub ns ys hns.concat y hm))⟩

/-- Instance: "é" cut out of "aéb". -/
example := C83_utf8 .C (.inr rfl) insSort insSort_stable [0x61, 0x65, 0x301, 0x62] (by decide) 9
  (by decide) (by decide +kernel) [0x61, 0xE9, 0x62] (by decide +kernel)
  (by decide) [[0x61], [0x65, 0x301], [0x62]] (segmentation_of (by decide +kernel))
  [[0x61], [0xE9], [0x62]] (segmentation_of (by decide +kernel)) [0x78] 1 2 (by decide) (by decide)

end U5e
