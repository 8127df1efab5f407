import Verif.Properties.Mixed
import Verif.Properties.NormalizeUtf8
import Verif.Proofs.Order
/-!
# C74: one form after another, from UTF-8 to UTF-8

`normalize8 F sort fuel cs out` filters the NUL-terminated `utf8_string` that holds the UTF-8 encoding of the codepoints
`cs` through form `F`, appending to the `utf8_string` `out`. The traps of C34, C45, C58 and C59 need an emoji modifier or
one of U+0F77, U+0F79, which the encoder cannot write. So if the encoder gets the first result right (`Encodable`, C10),
any second form gives what the English description of the forms promises.
-/
namespace U5e
open Spec

/-- Which form the two filters `F`, then `G` amount to: compatibility if one of them is, composed if the last is. -/
def Spec.formThen (F G : Form) : Form :=
  match F, G with
  | .D, G => G
  | .C, G => G
  | _, .D => .KD
  | _, .KD => .KD
  | _, .C => .KC
  | _, .KC => .KC

theorem emod_rows : Data.gcbTable.all (fun r => !(r.2.2 == GCB.E_MODIFIER) || (Nat.ble 0x1F300 r.1 && Nat.ble r.2.1 0x1F6FF))
    = true := by decide +kernel

/-- The emoji modifiers. -/
theorem emod_range {c : Int} (h : gcbResolve c = .E_MODIFIER) : 0x1F300 ≤ c ∧ c ≤ 0x1F6FF := by
  refine Classical.byContradiction fun hn => ?_
  have := C27_gcb_default c (fun lo hi v hm hc => by
    have e := C27_gcb_range lo hi v hm c hc.1 hc.2
    rw [h] at e
    have hr := List.all_eq_true.mp emod_rows _ hm
    rw [← e] at hr
    simp only [beq_self_eq_true, Bool.not_true, Bool.false_or, Bool.and_eq_true, Nat.ble_eq] at hr
    omega)
  rw [h] at this; simp at this

theorem emoji_in_text (F : Form) {sort : SortFn} (hs : ConformingSort sort) {cs : List Int} {c : Int}
    (he : 0x1F300 ≤ c ∧ c ≤ 0x1F6FF) (hc : c ∈ cs) : c ∈ F.text sort cs := by
  obtain ⟨n, rfl⟩ : ∃ n : Nat, c = n := ⟨c.toNat, by omega⟩
  have hr := List.all_eq_true.mp emoji_unmapped (n - 0x1F300) (List.mem_range.mpr (by omega))
  rw [show 0x1F300 + (n - 0x1F300) = n by omega, Bool.and_eq_true, Option.isNone_iff_eq_none,
    Option.isNone_iff_eq_none] at hr
  have hcomp : ∀ a b d : Int, compResolve a b = some d → a < 0x1F300 ∧ b < 0x1F300 := by
    intro a b d hd
    obtain ⟨i, j, k, rfl, rfl, rfl, hm⟩ := (C27_comp_iff a b d).mp hd
    rw [← compTree_toList] at hm
    have hrow := (Tree.all_iff _ _).mp emoji_not_composed _ hm
    have e1 := List.all_eq_true.mp hrow i (by simp)
    have e2 := List.all_eq_true.mp hrow j (by simp)
    rw [Nat.blt_eq] at e1 e2
    omega
  refine F.text_keeps hs ?_ (fun b => ?_) (fun b => ?_) hc
  · cases F <;> simp only [Form.map]
    all_goals first | (rw [decResolve_nat, hr.1]; rfl) | (rw [kdecResolve_nat, hr.2]; rfl)
  · cases hd : compResolve (n : Int) b with
    | none => rfl
    | some d => have := (hcomp _ _ _ hd).1; omega
  · cases hd : compResolve b (n : Int) with
    | none => rfl
    | some d => have := (hcomp _ _ _ hd).2; omega

theorem tib_not_composed : Data.compTree.all (fun r => match r with
    | [a, b, _] => !(Nat.beq a 0xF77) && (!(Nat.beq a 0xF79) && (!(Nat.beq b 0xF77) && !(Nat.beq b 0xF79)))
    | _ => false) = true := by decide +kernel

/-- The canonical forms leave U+0F77 and U+0F79. -/
theorem tib_in_text (F : Form) (hF : F.base = .D) {sort : SortFn} (hs : ConformingSort sort) {cs : List Int} {c : Int}
    (he : c = 0xF77 ∨ c = 0xF79) (hc : c ∈ cs) : c ∈ F.text sort cs := by
  have hcomp : ∀ a b d : Int, compResolve a b = some d → (a ≠ 0xF77 ∧ a ≠ 0xF79) ∧ b ≠ 0xF77 ∧ b ≠ 0xF79 := by
    intro a b d hd
    obtain ⟨i, j, k, rfl, rfl, rfl, hm⟩ := (C27_comp_iff a b d).mp hd
    rw [← compTree_toList] at hm
    have hrow := (Tree.all_iff _ _).mp tib_not_composed _ hm
    have hne : ∀ x y : Nat, (!(Nat.beq x y)) = true → x ≠ y := by
      intro x y h e; subst e; rw [Nat.beq_refl] at h; simp at h
    simp only [Bool.and_eq_true] at hrow
    have e1 := hne _ _ hrow.1
    have e2 := hne _ _ hrow.2.1
    have e3 := hne _ _ hrow.2.2.1
    have e4 := hne _ _ hrow.2.2.2
    omega
  have hm : F.map c = none := by
    have h1 : decT 0xF77 = none ∧ decT 0xF79 = none := by decide +kernel
    have : F.map = decResolve := by cases F <;> simp_all [Form.base, Form.map]
    rw [this]
    rcases he with rfl | rfl
    · rw [show (0xF77 : Int) = ((0xF77 : Nat) : Int) from rfl, decResolve_nat, h1.1]; rfl
    · rw [show (0xF79 : Int) = ((0xF79 : Nat) : Int) from rfl, decResolve_nat, h1.2]; rfl
  refine F.text_keeps hs hm (fun b => ?_) (fun b => ?_) hc
  · cases hd : compResolve c b with
    | none => rfl
    | some d => have := (hcomp _ _ _ hd).1; omega
  · cases hd : compResolve b c with
    | none => rfl
    | some d => have := (hcomp _ _ _ hd).2; omega

/-- A text whose form can be written has none of the troublesome codepoints. -/
theorem harmless_of_encodable (F : Form) {sort : SortFn} (hs : ConformingSort sort) {cs : List Int} {ys : List Nat}
    (hy : F.text sort cs = ys.map Int.ofNat) (he : ∀ y ∈ ys, Encodable y) :
    (∀ c ∈ cs, gcbResolve c ≠ .E_MODIFIER) ∧ (F.base = .D → ∀ c ∈ cs, c ≠ 0xF77 ∧ c ≠ 0xF79) := by
  have key : ∀ c ∈ F.text sort cs, ∃ n : Nat, c = n ∧ Encodable n := by
    intro c hc
    rw [hy] at hc
    obtain ⟨n, hn, rfl⟩ := List.mem_map.mp hc
    exact ⟨n, rfl, he n hn⟩
  constructor
  · intro c hc hm
    have hr := emod_range hm
    obtain ⟨n, rfl, hn⟩ := key c (emoji_in_text F hs hr hc)
    unfold Encodable at hn; omega
  · intro hF c hc
    have h : ¬ (c = 0xF77 ∨ c = 0xF79) := by
      intro h
      obtain ⟨n, rfl, hn⟩ := key c (tib_in_text F hF hs h hc)
      unfold Encodable at hn; omega
    omega

/-- Any form after any form. -/
theorem text_then (F G : Form) {sort : SortFn} (hs : StableSort sort) {cs : List Int} (hmod : GoodMod cs)
    (htib : F.base = .D → ∀ c ∈ cs, c ≠ 0xF77 ∧ c ≠ 0xF79) :
    G.text sort (F.text sort cs) = (formThen F G).text sort cs := by
  have hset := settled_text F hs hmod
  by_cases hF : F.base = .D
  · have hthen : formThen F G = G := by cases F <;> first | rfl | simp [Form.base] at hF
    rw [hthen]
    by_cases hG : G.base = .D
    · exact (F.renormalize G (by rw [hF, hG]) hs cs).mpr hset
    · have hG : G.base = .KD := by cases G <;> simp_all [Form.base]
      rw [compat_text_iff G hG hs]
      have hd := (kd_of_d_iff hs hmod).mpr (by
        intro g hg
        rw [tibTrap_iff]
        rintro ⟨p, s, q, n, rfl, hts, _⟩
        have := htib hF s (grapheme_mem hg s (by simp))
        rcases hts with rfl | rfl
        · exact this.1 rfl
        · exact this.2 rfl)
      cases F
      · exact hd
      · rw [kd_of_c hs hmod]; exact hd
      · simp [Form.base] at hF
      · simp [Form.base] at hF
  · have hF : F.base = .KD := by cases F <;> simp_all [Form.base]
    have hthen : formThen F G = G.compat := by
      cases F
      · simp [Form.base] at hF
      · simp [Form.base] at hF
      · cases G <;> rfl
      · cases G <;> rfl
    rw [hthen, text_same G sort (same_text F hF hs.1 cs)]
    exact (F.renormalize G.compat (by rw [hF]; cases G <;> rfl) hs cs).mpr hset

theorem full_len_le (F : Form) (cs : List Int) (h : (cs.flatMap fullK).length < 2 ^ 31) :
    (cs.flatMap (full F.map)).length < 2 ^ 31 := by
  cases F
  · exact Nat.lt_of_le_of_lt (decomposeD_length_le _) h
  · exact Nat.lt_of_le_of_lt (decomposeD_length_le _) h
  · exact h
  · exact h

theorem normalize8_text (F : Form) {sort : SortFn} (hs : ConformingSort sort) (cs : List Nat) (h : ∀ c ∈ cs, c < 2 ^ 31)
    (fuel : Nat) (hf : cs.length < fuel) (hb : ((cs.map Int.ofNat).flatMap (full F.map)).length < 2 ^ 31)
    (out : List UInt8) : normalize8 F sort fuel cs out =
      (append8 out (F.text sort (cs.map Int.ofNat)) >>= fun o =>
        .ok (((F.text sort (cs.map Int.ofNat)).length : Int), o)) := by
  obtain ⟨ns, h1, h2⟩ := C38_exact F sort hs cs h fuel hf hb out
  rw [normalize32_eq F hs _ [] fuel (by simpa) hb] at h1
  simp only [Res.ok.injEq, Prod.mk.injEq, List.nil_append] at h1
  rw [h2, h1.2]

/-- C74, any two forms: let `ys` be the form `F` of the text `cs`, and let the encoder get its codepoints right. Then
filtering the UTF-8 string `cs` through `F` appends the UTF-8 encoding of `ys`, and filtering that through any form `G`
gives - octets, returned count and definedness - what filtering `cs` through the one form `formThen F G` gives. -/
theorem C74_any_two_forms (F G : Form) (sort : SortFn) (hs : StableSort sort) (cs : List Nat)
    (hc : ∀ c ∈ cs, c < 2 ^ 31) (fuel : Nat) (hf : cs.length < fuel)
    (hb : ((cs.map Int.ofNat).flatMap fullK).length < 2 ^ 31) (ys : List Nat)
    (hy : normalize32 F sort fuel (cs.map Int.ofNat) [] = .ok ((ys.length : Int), ys.map Int.ofNat))
    (he : ∀ y ∈ ys, Encodable y) (out : List UInt8) :
    normalize8 F sort fuel cs out = .ok ((ys.length : Int), out ++ encodeText ys) ∧
    ∀ fuel', ys.length < fuel' → ∀ out',
      normalize8 G sort fuel' ys out' = normalize8 (formThen F G) sort fuel cs out' := by
  have hb1 := full_len_le F _ hb
  have hy' : F.text sort (cs.map Int.ofNat) = ys.map Int.ofNat := by
    rw [normalize32_eq F hs.1 _ [] fuel (by simpa) hb1] at hy
    simp only [Res.ok.injEq, Prod.mk.injEq, List.nil_append] at hy
    exact hy.2
  obtain ⟨hmod, htib⟩ := harmless_of_encodable F hs.1 hy' he
  constructor
  · obtain ⟨ns, h1, h2⟩ := C38_encodings_agree F sort hs.1 cs hc fuel hf hb1 out
    rw [hy] at h1
    simp only [Res.ok.injEq, Prod.mk.injEq] at h1
    have e : ns = ys.map Int.ofNat := h1.2.symm
    subst e
    have := h2 (fun x hx => by
      obtain ⟨n, hn, rfl⟩ := List.mem_map.mp hx
      exact ⟨n, rfl, he n hn⟩)
    rw [this, List.length_map, List.map_map]
    have : (Int.toNat ∘ Int.ofNat : Nat → Nat) = id := by funext n; rfl
    rw [this, List.map_id]
  · intro fuel' hf' out'
    have hy31 : ∀ y ∈ ys, y < 2 ^ 31 := by
      intro y hy; have := he y hy; unfold Encodable at this; omega
    have hbK : ((ys.map Int.ofNat).flatMap fullK).length < 2 ^ 31 := by
      rw [← hy']
      by_cases hF : F.base = .D
      · have := decomposeK_text_length F hF hs.1 (cs.map Int.ofNat)
        rw [show (F.text sort (cs.map Int.ofNat)).flatMap fullK =
          decompose kdecResolve (F.text sort (cs.map Int.ofNat)) from rfl, this]
        exact hb
      · have hmap : F.map = kdecResolve := by cases F <;> simp_all [Form.base, Form.map]
        have hlen := F.decompose_text_length hs.1 (cs.map Int.ofNat)
        rw [hmap] at hlen
        rw [show (F.text sort (cs.map Int.ofNat)).flatMap fullK =
          decompose kdecResolve (F.text sort (cs.map Int.ofNat)) from rfl, hlen]
        exact hb
    rw [normalize8_text G hs.1 ys hy31 fuel' hf' (full_len_le G _ hbK),
      normalize8_text (formThen F G) hs.1 cs hc fuel hf (full_len_le _ _ hb), ← hy', text_then F G hs (.of_none hmod) htib]

/-- Instance: NFKC after NFD of "ﬁé" with a dot below. -/
example := C74_any_two_forms .D .KC insSort insSort_stable [0xFB01, 0xE9, 0x323] (by decide) 4 (by decide)
  (by decide +kernel) [0xFB01, 0x65, 0x323, 0x301] (by decide +kernel) (by decide) [7]
example : normalize8 .D insSort 4 [0xFB01, 0xE9, 0x323] [] = .ok (4, [0xEF, 0xAC, 0x81, 0x65, 0xCC, 0xA3, 0xCC, 0x81]) ∧
    normalize8 .KD insSort 5 [0xFB01, 0x65, 0x323, 0x301] [] =
      .ok (5, [0x66, 0x69, 0x65, 0xCC, 0xA3, 0xCC, 0x81]) := by decide +kernel

/-- C74, idempotence: filtering the result again through the same form changes nothing. -/
theorem C74_idempotent (F : Form) (sort : SortFn) (hs : StableSort sort) (cs : List Nat)
    (hc : ∀ c ∈ cs, c < 2 ^ 31) (fuel : Nat) (hf : cs.length < fuel)
    (hb : ((cs.map Int.ofNat).flatMap fullK).length < 2 ^ 31) (ys : List Nat)
    (hy : normalize32 F sort fuel (cs.map Int.ofNat) [] = .ok ((ys.length : Int), ys.map Int.ofNat))
    (he : ∀ y ∈ ys, Encodable y) (out : List UInt8) :
    normalize8 F sort fuel cs out = .ok ((ys.length : Int), out ++ encodeText ys) ∧
    ∀ fuel', ys.length < fuel' → normalize8 F sort fuel' ys out = .ok ((ys.length : Int), out ++ encodeText ys) := by
  obtain ⟨h1, h2⟩ := C74_any_two_forms F F sort hs cs hc fuel hf hb ys hy he out
  refine ⟨h1, fun fuel' hf' => ?_⟩
  rw [h2 fuel' hf' out, ← h1]
  cases F <;> rfl

/-- Instance. -/
example := C74_idempotent .C insSort insSort_stable [0x75, 0x308, 0x304] (by decide) 4 (by decide)
  (by decide +kernel) [0x1D6] (by decide +kernel) (by decide) []

/-- C74, graphemes: NFD and NFC keep the graphemes, one for one, and each grapheme of the result is the form of the
grapheme it comes from. `gs` are the graphemes of the text, `ns` those of the result. -/
theorem C74_graphemes (F : Form) (hF : F = .D ∨ F = .C) (sort : SortFn) (hs : StableSort sort) (cs : List Nat)
    (hc : ∀ c ∈ cs, c < 2 ^ 31) (fuel : Nat) (hf : cs.length < fuel)
    (hb : ((cs.map Int.ofNat).flatMap fullD).length < 2 ^ 31) (ys : List Nat)
    (hy : normalize32 F sort fuel (cs.map Int.ofNat) [] = .ok ((ys.length : Int), ys.map Int.ofNat))
    (he : ∀ y ∈ ys, Encodable y) (gs : List (List Nat))
    (hgs : IsSegmentation Breaks (cs.map Int.ofNat) (gs.map (·.map Int.ofNat))) (out : List UInt8) :
    normalize8 F sort fuel cs out = .ok ((ys.length : Int), out ++ encodeText ys) ∧
    ∃ ns : List (List Nat), IsSegmentation Breaks (ys.map Int.ofNat) (ns.map (·.map Int.ofNat)) ∧
      ns.length = gs.length ∧
      ∀ (i : Nat) (g n : List Nat), gs[i]? = some g → ns[i]? = some n →
        normalize8 F sort fuel g out = .ok ((n.length : Int), out ++ encodeText n) := by
  have hFm : F.map = decResolve := by rcases hF with rfl | rfl <;> rfl
  have hb1 : ((cs.map Int.ofNat).flatMap (full F.map)).length < 2 ^ 31 := by rw [hFm]; exact hb
  have hy' : F.text sort (cs.map Int.ofNat) = ys.map Int.ofNat := by
    rw [normalize32_eq F hs.1 _ [] fuel (by simpa) hb1] at hy
    simp only [Res.ok.injEq, Prod.mk.injEq, List.nil_append] at hy
    exact hy.2
  obtain ⟨hmod, _⟩ := harmless_of_encodable F hs.1 hy' he
  have write : ∀ (xs zs : List Nat), (∀ c ∈ xs, c < 2 ^ 31) → xs.length < fuel →
      ((xs.map Int.ofNat).flatMap (full F.map)).length < 2 ^ 31 →
      F.text sort (xs.map Int.ofNat) = zs.map Int.ofNat → (∀ y ∈ zs, Encodable y) →
      normalize8 F sort fuel xs out = .ok ((zs.length : Int), out ++ encodeText zs) := by
    intro xs zs hx hxf hxb hz hze
    obtain ⟨ns, h1, h2⟩ := C38_encodings_agree F sort hs.1 xs hx fuel hxf hxb out
    rw [normalize32_eq F hs.1 _ [] fuel (by simpa) hxb, hz] at h1
    simp only [Res.ok.injEq, Prod.mk.injEq, List.nil_append] at h1
    have e : ns = zs.map Int.ofNat := h1.2.symm
    subst e
    have := h2 (fun x hx => by
      obtain ⟨n, hn, rfl⟩ := List.mem_map.mp hx
      exact ⟨n, rfl, hze n hn⟩)
    rw [this, List.length_map, List.map_map]
    have : (Int.toNat ∘ Int.ofNat : Nat → Nat) = id := by funext n; rfl
    rw [this, List.map_id]
  refine ⟨write cs ys hc hf hb1 hy' he, ?_⟩
  obtain ⟨ys', ns, h1, h2, h3, h4⟩ := C59_graphemes_of_normal_form F hF sort hs _ (modifiers_of_none hmod) _ hgs fuel (by simpa) hb
  rw [hy] at h1
  simp only [Res.ok.injEq, Prod.mk.injEq] at h1
  obtain ⟨_, rfl⟩ := h1
  -- the graphemes of `ys` are lists of naturals
  have hnat : ∀ n ∈ ns, ∀ x ∈ n, x ∈ ys.map Int.ofNat := by
    intro n hn x hx
    have := h2.concat
    rw [← this]
    exact List.mem_flatten.mpr ⟨n, hn, hx⟩
  have hback : ∀ n ∈ ns, (n.map Int.toNat).map Int.ofNat = n := by
    intro n hn
    rw [List.map_map]
    conv => rhs; rw [← List.map_id n]
    refine List.map_congr_left fun x hx => ?_
    obtain ⟨k, _, rfl⟩ := List.mem_map.mp (hnat n hn x hx)
    rfl
  have hback' : (ns.map (·.map Int.toNat)).map (·.map Int.ofNat) = ns := by
    rw [List.map_map]
    conv => rhs; rw [← List.map_id ns]
    exact List.map_congr_left fun n hn => hback n hn
  refine ⟨ns.map (·.map Int.toNat), by rw [hback']; exact h2, by simpa using h3, ?_⟩
  intro i g n hg hn
  rw [List.getElem?_map] at hn
  cases hni : ns[i]? with
  | none => rw [hni] at hn; simp at hn
  | some n' =>
    rw [hni] at hn
    simp only [Option.map_some, Option.some.injEq] at hn
    subst hn
    have hn'm := List.mem_of_getElem? hni
    have hgm := List.mem_of_getElem? hg
    have h5 := h4 i (g.map Int.ofNat) n' (by rw [List.getElem?_map, hg]; rfl) hni
    have hsub : ∀ c ∈ g, c ∈ cs := by
      intro c hcg
      have : Int.ofNat c ∈ cs.map Int.ofNat := by
        rw [← hgs.concat]
        exact List.mem_flatten.mpr ⟨g.map Int.ofNat, List.mem_map.mpr ⟨g, hgm, rfl⟩, List.mem_map.mpr ⟨c, hcg, rfl⟩⟩
      obtain ⟨k, hk, hkc⟩ := List.mem_map.mp this
      have : k = c := Int.ofNat.inj hkc
      rw [← this]; exact hk
    have hlen : g.length ≤ cs.length ∧
        ((g.map Int.ofNat).flatMap (full F.map)).length ≤ ((cs.map Int.ofNat).flatMap (full F.map)).length := by
      obtain ⟨p, q, hpq⟩ := List.append_of_mem hgm
      have e := hgs.concat
      rw [hpq] at e
      constructor
      · have := congrArg List.length e
        simp only [List.map_append, List.map_cons, List.flatten_append, List.flatten_cons, List.length_append,
          List.length_map] at this
        omega
      · rw [← e]
        simp only [List.map_append, List.map_cons, List.flatten_append, List.flatten_cons, List.flatMap_append,
          List.length_append]
        omega
    refine write g (n'.map Int.toNat) (fun c hcg => hc c (hsub c hcg)) (by omega) (by omega) ?_ ?_
    · rw [normalize32_eq F hs.1 _ [] fuel (by rw [List.length_map]; omega) (by omega)] at h5
      simp only [Res.ok.injEq, Prod.mk.injEq, List.nil_append] at h5
      rw [h5.2, hback n' hn'm]
    · intro y hyn
      obtain ⟨x, hx, rfl⟩ := List.mem_map.mp hyn
      obtain ⟨k, hk, rfl⟩ := List.mem_map.mp (hnat n' hn'm x hx)
      exact he k hk

/-- Instance: three graphemes. -/
example := C74_graphemes .C (.inr rfl) insSort insSort_stable [0x61, 0x65, 0x301, 0x62, 0x301] (by decide) 6 (by decide)
  (by decide +kernel) [0x61, 0xE9, 0x62, 0x301] (by decide +kernel) (by decide) [[0x61], [0x65, 0x301], [0x62, 0x301]]
  (segmentation_of (by decide +kernel)) []

/-- C74, comparing octets: where the encoder gets the forms of two texts right, their octets are the same exactly if the
codepoints are. -/
theorem C74_same_octets (F : Form) (sort : SortFn) (hs : ConformingSort sort) (cs ds : List Nat)
    (hc : ∀ c ∈ cs, c < 2 ^ 31) (hd : ∀ c ∈ ds, c < 2 ^ 31) (fuel : Nat) (hf : cs.length < fuel) (hf' : ds.length < fuel)
    (hb : ((cs.map Int.ofNat).flatMap (full F.map)).length < 2 ^ 31)
    (hb' : ((ds.map Int.ofNat).flatMap (full F.map)).length < 2 ^ 31) (ys zs : List Nat)
    (hy : normalize32 F sort fuel (cs.map Int.ofNat) [] = .ok ((ys.length : Int), ys.map Int.ofNat))
    (hz : normalize32 F sort fuel (ds.map Int.ofNat) [] = .ok ((zs.length : Int), zs.map Int.ofNat))
    (he : ∀ y ∈ ys, Encodable y) (he' : ∀ z ∈ zs, Encodable z) (out : List UInt8) :
    normalize8 F sort fuel cs out = normalize8 F sort fuel ds out ↔ ys = zs := by
  have write : ∀ (xs zs : List Nat), (∀ c ∈ xs, c < 2 ^ 31) → xs.length < fuel →
      ((xs.map Int.ofNat).flatMap (full F.map)).length < 2 ^ 31 →
      normalize32 F sort fuel (xs.map Int.ofNat) [] = .ok ((zs.length : Int), zs.map Int.ofNat) →
      (∀ y ∈ zs, Encodable y) →
      normalize8 F sort fuel xs out = .ok ((zs.length : Int), out ++ encodeText zs) := by
    intro xs zs hx hxf hxb hz hze
    obtain ⟨ns, h1, h2⟩ := C38_encodings_agree F sort hs xs hx fuel hxf hxb out
    rw [hz] at h1
    simp only [Res.ok.injEq, Prod.mk.injEq] at h1
    have e : ns = zs.map Int.ofNat := h1.2.symm
    subst e
    have := h2 (fun x hx => by
      obtain ⟨n, hn, rfl⟩ := List.mem_map.mp hx
      exact ⟨n, rfl, hze n hn⟩)
    rw [this, List.length_map, List.map_map]
    have : (Int.toNat ∘ Int.ofNat : Nat → Nat) = id := by funext n; rfl
    rw [this, List.map_id]
  have h31 : ∀ {l : List Nat}, (∀ y ∈ l, Encodable y) → ∀ y ∈ l, y < 2 ^ 31 := by
    intro l h y hy; have := h y hy; unfold Encodable at this; omega
  rw [write cs ys hc hf hb hy he, write ds zs hd hf' hb' hz he']
  constructor
  · intro h
    simp only [Res.ok.injEq, Prod.mk.injEq] at h
    exact (encodeText_inj (h31 he) (h31 he')).mp (List.append_cancel_left h.2)
  · rintro rfl; rfl

/-- Instance: "é" in two spellings. -/
example := C74_same_octets .C insSort insSort_stable.1 [0xE9] [0x65, 0x301] (by decide) (by decide) 3 (by decide) (by decide)
  (by decide +kernel) (by decide +kernel) [0xE9] [0xE9] (by decide +kernel) (by decide +kernel) (by decide) (by decide) []

/-- Where the encoder does not get the first result right this fails: "क" is written as three octets that are no UTF-8
encoding of it, and what these octets are read as is something else again. -/
theorem C74_needs_encodable :
    normalize8 .C insSort 3 [0x915] [] = .ok (1, [0xE4, 0x95, 0x00]) ∧ ¬ Encodable 0x915 ∧
    encodeText [0x915] ≠ [0xE4, 0x95, 0x00] ∧
    normalizeText (Form.C.run insSort append8) (utf8Iter ([0xE4, 0x95, 0x00] ++ [0])) 9 0 3 [] =
      .ok (1, [0xE4, 0x95, 0x80]) := by decide +kernel

end U5e
