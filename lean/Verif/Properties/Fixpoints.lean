import Verif.Properties.Idempotence
/-! # C50: normalizing piecewise; C51: which texts normalization leaves unchanged -/
namespace U5e
open Spec

/-! ## C50 -/

theorem segmentation_append {x y : List Int} {gx gy : List (List Int)}
    (hx : IsSegmentation Breaks x gx) (hy : IsSegmentation Breaks y gy)
    (hj : ∀ a b, x.getLast? = some a → y.head? = some b → Breaks a b) :
    IsSegmentation Breaks (x ++ y) (gx ++ gy) := by
  have hxx := segments_unique hx
  have hyy := segments_unique hy
  have hl : ∀ g ∈ gx, g ≠ [] := hx.nonempty
  constructor
  · rw [List.flatten_append, hx.concat, hy.concat]
  · intro g hg
    rcases List.mem_append.mp hg with h | h
    · exact hx.nonempty g h
    · exact hy.nonempty g h
  · intro g hg
    rcases List.mem_append.mp hg with h | h
    · exact hx.inside g h
    · exact hy.inside g h
  · have hA : Adj (fun g h : List Int => ∀ a b, g.getLast? = some a → h.head? = some b → Breaks a b)
        (gx ++ gy) := by
      rw [adj_append]
      refine ⟨adj_iff.mpr hx.between, adj_iff.mpr hy.between, ?_⟩
      intro g h hg hh a b ha hb
      refine hj a b ?_ ?_
      · obtain ⟨gx', rfl⟩ : ∃ gx', gx = gx' ++ [g] := by
          rcases List.eq_nil_or_concat gx with rfl | ⟨l, z, rfl⟩
          · simp at hg
          · simp at hg; subst hg; exact ⟨l, by simp⟩
        rw [← hx.concat, List.flatten_append, List.getLast?_append]
        simp [ha]
      · cases gy with
        | nil => simp at hh
        | cons z gy =>
          simp at hh; subst hh
          rw [← hy.concat, List.flatten_cons, List.head?_append, hb]; rfl
    exact adj_iff.mp hA

/-- C50. Graphemes of a concatenation: the two segmentations side by side are the segmentation of the
concatenation exactly when there is a break at the junction. -/
theorem C50_segmentation (x y : List Int) (gx gy : List (List Int)) (hx : IsSegmentation Breaks x gx)
    (hy : IsSegmentation Breaks y gy) :
    IsSegmentation Breaks (x ++ y) (gx ++ gy) ↔
      ∀ a b, x.getLast? = some a → y.head? = some b → Breaks a b := by
  refine ⟨fun hxy a b ha hb => ?_, segmentation_append hx hy⟩
  have hgx : ∃ p g, gx = p ++ [g] ∧ g.getLast? = some a := by
    rcases List.eq_nil_or_concat gx with rfl | ⟨p, g, rfl⟩
    · rw [← hx.concat] at ha; simp at ha
    · refine ⟨p, g, by simp, ?_⟩
      have hne := hx.nonempty g (by simp)
      rw [← hx.concat] at ha
      simp only [List.concat_eq_append, List.flatten_append, List.flatten_cons, List.flatten_nil,
        List.append_nil, List.getLast?_append] at ha
      cases hg : g.getLast? with
      | none => exact absurd (List.getLast?_eq_none_iff.mp hg) hne
      | some z => rw [hg] at ha; simpa using ha
  have hgy : ∃ h q, gy = h :: q ∧ h.head? = some b := by
    cases gy with
    | nil => rw [← hy.concat] at hb; simp at hb
    | cons h q =>
      refine ⟨h, q, rfl, ?_⟩
      have hne := hy.nonempty h (by simp)
      rw [← hy.concat] at hb
      cases h with
      | nil => exact absurd rfl hne
      | cons z h => simpa using hb
  obtain ⟨p, g, rfl, hg⟩ := hgx
  obtain ⟨h', q, rfl, hh⟩ := hgy
  exact hxy.between p g h' q (by simp) a b hg hh

/-- Instance: "e\u0301" and "ﬁ" (there is a break between them); "e" and "\u0301" (there is none). -/
example : IsSegmentation Breaks ([0x65, 0x301] ++ [0xFB01]) ([[0x65, 0x301]] ++ [[0xFB01]]) ∧
    ¬ IsSegmentation Breaks ([0x65] ++ [0x301]) ([[0x65]] ++ [[0x301]]) := by
  constructor
  · refine (C50_segmentation [0x65, 0x301] [0xFB01] [[0x65, 0x301]] [[0xFB01]] (segmentation_of (by decide +kernel))
      (segmentation_of (by decide +kernel))).mpr ?_
    rintro a b ⟨⟩ ⟨⟩
    exact breaks_of (by decide +kernel)
  · intro h
    have := (C50_segmentation [0x65] [0x301] [[0x65]] [[0x301]] (segmentation_of (by decide +kernel))
      (segmentation_of (by decide +kernel))).mp h 0x65 0x301 rfl rfl
    rw [Breaks, ← isGraphemeBoundary_iff] at this
    exact absurd this (by decide +kernel)

theorem Form.text_append (F : Form) (sort : SortFn) {x y : List Int}
    (hj : ∀ a b, x.getLast? = some a → y.head? = some b → Breaks a b) :
    F.text sort (x ++ y) = F.text sort x ++ F.text sort y := by
  have := segments_unique (segmentation_append (segments_breaks x) (segments_breaks y) hj)
  rw [Form.text, graphemes, ← this, List.flatMap_append]; rfl

/-- C50. Piecewise normalization (utf32ne, all forms, any conforming sort): if there is a grapheme break
between `x` and `y`, normalizing `x` into a string and then `y` into the same string gives the same text
as normalizing `x ++ y` at once, and the counts add up. -/
theorem C50_piecewise (F : Form) (sort : SortFn) (hs : ConformingSort sort) (x y out : List Int)
    (hj : ∀ a b, x.getLast? = some a → y.head? = some b → Breaks a b) (fuel : Nat)
    (hf : (x ++ y).length < fuel) (hb : ((x ++ y).flatMap (full F.map)).length < 2 ^ 31) :
    ∃ n m out1 out2, normalize32 F sort fuel x out = .ok (n, out1) ∧
      normalize32 F sort fuel y out1 = .ok (m, out2) ∧
      normalize32 F sort fuel (x ++ y) out = .ok (n + m, out2) := by
  rw [List.length_append] at hf
  rw [List.flatMap_append, List.length_append] at hb
  refine ⟨_, _, _, _, normalize32_eq F hs x out fuel (by omega) (by omega),
    normalize32_eq F hs y _ fuel (by omega) (by omega), ?_⟩
  rw [normalize32_eq F hs (x ++ y) out fuel (by simpa using hf)
    (by rw [List.flatMap_append, List.length_append]; exact hb), F.text_append sort hj]
  simp

/-- Instance: NFKC of "e\u0301" and "ﬁ". -/
example := C50_piecewise .KC insSort insSort_stable.1 [0x65, 0x301] [0xFB01] []
  (by rintro a b ⟨⟩ ⟨⟩; exact breaks_of (by decide +kernel)) 4 (by decide) (by decide +kernel)

theorem Form.normalize8_eq (F : Form) {sort : SortFn} (hs : ConformingSort sort) (cs : List Nat)
    (h : ∀ c ∈ cs, c < 2 ^ 31) (fuel : Nat) (hf : cs.length < fuel)
    (hb : ((cs.map Int.ofNat).flatMap (full F.map)).length < 2 ^ 31)
    (henc : ∀ x ∈ F.text sort (cs.map Int.ofNat), ∃ n : Nat, x = (n : Int) ∧ Encodable n)
    (out : List UInt8) :
    normalize8 F sort fuel cs out = .ok (((F.text sort (cs.map Int.ofNat)).length : Int),
      out ++ encodeText ((F.text sort (cs.map Int.ofNat)).map Int.toNat)) := by
  obtain ⟨ns, h1, h2⟩ := C38_encodings_agree F sort hs cs h fuel hf hb out
  rw [normalize32_eq F hs _ [] fuel (by simpa) hb] at h1
  have : ns = F.text sort (cs.map Int.ofNat) := by
    simp only [Res.ok.injEq, Prod.mk.injEq, List.nil_append] at h1; exact h1.2.symm
  subst this
  exact h2 henc

/-- C50 for UTF-8 strings whose normal form the encoder can write (C10). -/
theorem C50_piecewise_utf8 (F : Form) (sort : SortFn) (hs : ConformingSort sort) (x y : List Nat)
    (out : List UInt8) (h : ∀ c ∈ x ++ y, c < 2 ^ 31)
    (hj : ∀ a b : Nat, x.getLast? = some a → y.head? = some b → Breaks a b) (fuel : Nat)
    (hf : (x ++ y).length < fuel)
    (hb : (((x ++ y).map Int.ofNat).flatMap (full F.map)).length < 2 ^ 31)
    (ns : List Int) (hns : normalize32 F sort fuel ((x ++ y).map Int.ofNat) [] = .ok ((ns.length : Int), ns))
    (henc : ∀ c ∈ ns, ∃ n : Nat, c = (n : Int) ∧ Encodable n) :
    ∃ n m out1 out2, normalize8 F sort fuel x out = .ok (n, out1) ∧
      normalize8 F sort fuel y out1 = .ok (m, out2) ∧
      normalize8 F sort fuel (x ++ y) out = .ok (n + m, out2) := by
  have hj' : ∀ a b, (x.map Int.ofNat).getLast? = some a → (y.map Int.ofNat).head? = some b → Breaks a b := by
    intro a b ha hb
    rw [List.getLast?_map] at ha
    rw [List.head?_map] at hb
    cases hx : x.getLast? with
    | none => rw [hx] at ha; simp at ha
    | some u =>
      cases hy : y.head? with
      | none => rw [hy] at hb; simp at hb
      | some v =>
        rw [hx] at ha; rw [hy] at hb
        simp at ha hb; subst ha hb
        exact hj u v hx hy
  have hta := F.text_append sort hj'
  have hns' : ns = F.text sort ((x ++ y).map Int.ofNat) := by
    rw [normalize32_eq F hs _ [] fuel (by simpa using hf) hb] at hns
    simp only [Res.ok.injEq, Prod.mk.injEq, List.nil_append] at hns; exact hns.2.symm
  subst hns'
  rw [← List.map_append] at hta
  have hb2 := hb
  rw [List.map_append, List.flatMap_append, List.length_append] at hb2
  rw [List.length_append] at hf
  have hex : ∀ c ∈ F.text sort (x.map Int.ofNat), ∃ n : Nat, c = (n : Int) ∧ Encodable n :=
    fun c hc => henc c (by rw [hta]; exact List.mem_append_left _ hc)
  have hey : ∀ c ∈ F.text sort (y.map Int.ofNat), ∃ n : Nat, c = (n : Int) ∧ Encodable n :=
    fun c hc => henc c (by rw [hta]; exact List.mem_append_right _ hc)
  refine ⟨_, _, _, _, F.normalize8_eq hs x (fun c hc => h c (List.mem_append_left _ hc)) fuel (by omega)
    (by omega) hex out, F.normalize8_eq hs y (fun c hc => h c (List.mem_append_right _ hc)) fuel (by omega)
    (by omega) hey _, ?_⟩
  rw [F.normalize8_eq hs (x ++ y) h fuel (by simpa using hf) hb henc out, hta]
  simp [encodeText]

/-- Instance: the same in UTF-8. -/
example := C50_piecewise_utf8 .KC insSort insSort_stable.1 [0x65, 0x301] [0xFB01] [0x78] (by decide)
  (by rintro a b ⟨⟩ ⟨⟩; exact breaks_of (by decide +kernel)) 4 (by decide) (by decide +kernel)
  [0xE9, 0x66, 0x69] (by decide +kernel)
  (by
    intro x hx
    simp only [List.mem_cons, List.not_mem_nil, or_false] at hx
    rcases hx with rfl | rfl | rfl
    · exact ⟨0xE9, rfl, by decide⟩
    · exact ⟨0x66, rfl, by decide⟩
    · exact ⟨0x69, rfl, by decide⟩)

/-- Non-vacuity: "e" + acute, then "fi" ligature, at a break. -/
example : Breaks 0x301 0xFB01 := by
  rw [Breaks, ← isGraphemeBoundary_iff]; decide +kernel

example : normalize32 .KC insSort 9 [0x65, 0x301] [] = .ok (1, [0xE9]) ∧
    normalize32 .KC insSort 9 [0xFB01] [0xE9] = .ok (2, [0xE9, 0x66, 0x69]) ∧
    normalize32 .KC insSort 9 [0x65, 0x301, 0xFB01] [] = .ok (3, [0xE9, 0x66, 0x69]) := by decide +kernel

/-- C50: without a break at the junction it fails: "e" and U+0301 one by one. -/
theorem C50_break_needed :
    normalize32 .C insSort 9 [0x65] [] = .ok (1, [0x65]) ∧
    normalize32 .C insSort 9 [0x301] [0x65] = .ok (1, [0x65, 0x301]) ∧
    normalize32 .C insSort 9 [0x65, 0x301] [] = .ok (1, [0xE9]) := by decide +kernel

/-! ## C51 -/

theorem composeFrom_split (a : Int) (l : List Int) {c : Int} {r : List Int}
    (h : composeFrom compResolve a l = c :: r) :
    ∃ l1 l2, l = l1 ++ l2 ∧ composeFrom compResolve a l1 = [c] ∧
      ((l2 = [] ∧ r = []) ∨ ∃ b l3, l2 = b :: l3 ∧ compResolve c b = none ∧
        composeFrom compResolve b l3 = r) := by
  induction l generalizing a with
  | nil =>
    simp only [composeFrom, List.cons.injEq] at h
    exact ⟨[], [], rfl, by simp [composeFrom, h.1], .inl ⟨rfl, h.2.symm⟩⟩
  | cons b l ih =>
    simp only [composeFrom] at h
    cases hc : compResolve a b with
    | none =>
      rw [hc] at h
      simp only [List.cons.injEq] at h
      obtain ⟨rfl, h⟩ := h
      exact ⟨[], b :: l, rfl, rfl, .inr ⟨b, l, rfl, hc, h⟩⟩
    | some d =>
      rw [hc] at h
      obtain ⟨l1, l2, rfl, h1, h2⟩ := ih d h
      exact ⟨b :: l1, l2, rfl, by simp only [composeFrom, hc, h1], h2⟩

theorem Form.recomposes_iff (F : Form) (cs : List Int) :
    compose compResolve (decompose F.map cs) = cs ↔
      (∀ c ∈ cs, compose compResolve (full F.map c) = [c]) ∧
        Adj (fun a b => compResolve a (F.hd b) = none) cs := by
  constructor
  · intro h
    induction cs with
    | nil => exact ⟨by simp, trivial⟩
    | cons c r ih =>
      cases hf : full F.map c with
      | nil => exact absurd hf (F.facts.ne_nil c)
      | cons a t =>
        have hd : decompose F.map (c :: r) = a :: (t ++ decompose F.map r) := by
          simp [decompose, hf]
        rw [hd, compose] at h
        obtain ⟨l1, l2, hl, h1, h2⟩ := composeFrom_split a _ h
        -- the first block is the decomposition of `c`
        have hdc := decompose_composeFrom (map := F.map) (fun a b c h => F.comp_full h) a l1
        rw [h1] at hdc
        have hfull : ∀ x ∈ a :: (t ++ decompose F.map r), full F.map x = [x] := by
          intro x hx
          rw [← hd] at hx
          obtain ⟨y, _, hy⟩ := List.mem_flatMap.mp hx
          exact F.facts.elem_full hy
        have hid : decompose F.map (a :: l1) = a :: l1 :=
          decompose_id fun x hx => hfull x (by rw [hl, ← List.cons_append]; exact List.mem_append_left _ hx)
        rw [hid, show decompose F.map [c] = full F.map c by simp [decompose], hf] at hdc
        obtain rfl := (List.cons.inj hdc).2
        have hl2 := List.append_cancel_left hl
        have hr : compose compResolve (decompose F.map r) = r := by
          rcases h2 with ⟨h3, h4⟩ | ⟨b, l3, h3, _, h4⟩
          · rw [h4]; rfl
          · rw [hl2, h3]; exact h4
        obtain ⟨i1, i2⟩ := ih hr
        refine ⟨?_, adj_cons.mpr ⟨?_, i2⟩⟩
        · intro x hx
          rcases List.mem_cons.mp hx with rfl | hx
          · rw [hf]; exact h1
          · exact i1 x hx
        · intro b hb
          rcases h2 with ⟨h3, h4⟩ | ⟨b', l3, h3, h5, _⟩
          · rw [h4] at hb; simp at hb
          · cases r with
            | nil => simp at hb
            | cons b0 r =>
              simp at hb; subst hb
              have : (decompose F.map (b0 :: r)).head? = some (F.hd b0) := by
                simp only [decompose, List.flatMap_cons, List.head?_append, F.head_full]; rfl
              rw [hl2, h3] at this
              simp at this; rw [← this]; exact h5
  · rintro ⟨h1, h2⟩
    have := compose_flatten (cs.map (full F.map))
      (by intro w hw; obtain ⟨c, _, rfl⟩ := List.mem_map.mp hw; exact F.facts.ne_nil c) ?_
    · rw [decompose, List.flatMap_def, this, List.flatMap_map]
      clear this h2
      induction cs with
      | nil => rfl
      | cons c cs ih =>
        rw [List.flatMap_cons, h1 c (by simp), ih (fun x hx => h1 x (by simp [hx]))]; rfl
    · induction cs with
      | nil => trivial
      | cons c cs ih =>
        rw [List.map_cons, adj_cons]
        obtain ⟨h3, h4⟩ := adj_cons.mp h2
        refine ⟨?_, ih (fun x hx => h1 x (by simp [hx])) h4⟩
        intro v hv x b hx hb
        rw [h1 c (by simp)] at hx
        simp at hx; subst hx
        cases cs with
        | nil => simp at hv
        | cons d cs =>
          simp at hv; subst hv
          rw [F.head_full] at hb
          simp at hb; subst hb
          exact h3 d rfl

theorem Form.composed_iff (F : Form) (hF : F = .C ∨ F = .KC) {sort : SortFn} (hs : StableSort sort)
    (cs : List Int) :
    F.text sort cs = cs ↔ F.Settled cs ∧ compose compResolve (decompose F.map cs) = cs := by
  have ht : F.text sort cs = compose compResolve (F.base.text sort cs) := by
    rw [F.text_eq hs]; rcases hF with rfl | rfl <;> rfl
  constructor
  · intro h
    have hd := F.decompose_text hs.1 cs
    rw [h] at hd
    refine ⟨(F.base_text_iff hs cs).mp hd.symm, ?_⟩
    rw [hd, ← ht, h]
  · rintro ⟨h1, h2⟩
    rw [ht, (F.base_text_iff hs cs).mpr h1, h2]

theorem Form.decomposed_iff (F : Form) (hF : F = .D ∨ F = .KD) {sort : SortFn} (hs : StableSort sort)
    (cs : List Int) :
    F.text sort cs = cs ↔ F.Settled cs ∧ ∀ c ∈ cs, full F.map c = [c] := by
  have ht : F.text sort cs = F.base.text sort cs := by rcases hF with rfl | rfl <;> rfl
  constructor
  · intro h
    have hd := F.decompose_text hs.1 cs
    rw [h] at hd
    refine ⟨(F.base_text_iff hs cs).mp hd.symm, ?_⟩
    rw [← ht, h] at hd
    intro c hc
    rw [← hd] at hc
    obtain ⟨y, _, hy⟩ := List.mem_flatMap.mp hc
    exact F.facts.elem_full hy
  · rintro ⟨h1, h2⟩
    rw [ht, (F.base_text_iff hs cs).mpr h1, decompose_id h2]

theorem normalize32_fixed (F : Form) {sort : SortFn} (hs : ConformingSort sort) (cs : List Int)
    (fuel : Nat) (hf : cs.length < fuel) (hb : (cs.flatMap (full F.map)).length < 2 ^ 31) :
    normalize32 F sort fuel cs [] = .ok ((cs.length : Int), cs) ↔ F.text sort cs = cs := by
  rw [normalize32_eq F hs cs [] fuel hf hb]
  simp only [List.nil_append, Res.ok.injEq, Prod.mk.injEq]
  exact ⟨fun h => h.2, fun h => ⟨by rw [h], h⟩⟩

/-- C51 for NFD and NFKD, exact, every text: normalization leaves the text unchanged if and only if no
codepoint of it decomposes further and every grapheme is ordered by combining class. -/
theorem C51_unchanged_decomposed (F : Form) (hF : F = .D ∨ F = .KD) (sort : SortFn) (hs : StableSort sort)
    (cs : List Int) (gs : List (List Int)) (hgs : IsSegmentation Breaks cs gs) (fuel : Nat)
    (hf : cs.length < fuel) (hb : (cs.flatMap (full F.map)).length < 2 ^ 31) :
    normalize32 F sort fuel cs [] = .ok ((cs.length : Int), cs) ↔
      (∀ c ∈ cs, full F.map c = [c]) ∧ ∀ g ∈ gs, CccSorted cccResolve g := by
  obtain rfl := segments_unique hgs
  rw [normalize32_fixed F hs.1 cs fuel hf hb, F.decomposed_iff hF hs, F.settled_iff, and_comm]
  apply and_congr_right
  intro h
  apply forall_congr'
  intro g
  apply forall_congr'
  intro hg
  rw [decompose_id]
  intro x hx
  refine h x ?_
  rw [← segments_flatten isGraphemeBoundary cs]
  exact List.mem_flatten.mpr ⟨g, hg, hx⟩

/-- Instance: NFD of "e\u0301ﬁ". -/
example := C51_unchanged_decomposed .D (.inl rfl) insSort insSort_stable [0x65, 0x301, 0xFB01]
  [[0x65, 0x301], [0xFB01]] (segmentation_of (by decide +kernel)) 4 (by decide) (by decide +kernel)

/-- C51 for NFC and NFKC, exact, every text: normalization leaves the text unchanged if and only if every
codepoint is recomposed from its own decomposition, the decomposition of every grapheme is ordered by
combining class, and no codepoint composes with the first codepoint of the decomposition of the next
one. -/
theorem C51_unchanged_composed (F : Form) (hF : F = .C ∨ F = .KC) (sort : SortFn) (hs : StableSort sort)
    (cs : List Int) (gs : List (List Int)) (hgs : IsSegmentation Breaks cs gs) (fuel : Nat)
    (hf : cs.length < fuel) (hb : (cs.flatMap (full F.map)).length < 2 ^ 31) :
    normalize32 F sort fuel cs [] = .ok ((cs.length : Int), cs) ↔
      (∀ c ∈ cs, compose compResolve (full F.map c) = [c]) ∧
      (∀ g ∈ gs, CccSorted cccResolve (g.flatMap (full F.map))) ∧
      ∀ p a b q h, cs = p ++ a :: b :: q → (full F.map b).head? = some h → compResolve a h = none := by
  obtain rfl := segments_unique hgs
  rw [normalize32_fixed F hs.1 cs fuel hf hb, F.composed_iff hF hs, F.settled_iff, F.recomposes_iff,
    and_left_comm]
  apply and_congr_right
  intro _
  apply and_congr Iff.rfl
  rw [adj_iff]
  constructor
  · intro h p a b q x he hx
    rw [F.head_full] at hx
    simp at hx; subst hx
    exact h p a b q he
  · intro h p a b q he
    exact h p a b q _ he (F.head_full b)

/-- Instance: NFKC of "é\u0302a". -/
example := C51_unchanged_composed .KC (.inr rfl) insSort insSort_stable [0xE9, 0x302, 0x61]
  [[0xE9, 0x302], [0x61]] (segmentation_of (by decide +kernel)) 4 (by decide) (by decide +kernel)

/-- Non-vacuity: "éa" is in NFC but not in NFD; "क़" (U+0958) decomposes and is not recomposed; "e" +
acute is in NFD but not in NFC; marks out of order. -/
example : normalize32 .C insSort 3 [0xE9, 0x61] [] = .ok (2, [0xE9, 0x61]) ∧
    normalize32 .D insSort 3 [0xE9, 0x61] [] ≠ .ok (2, [0xE9, 0x61]) ∧
    normalize32 .C insSort 3 [0x958] [] ≠ .ok (1, [0x958]) ∧
    normalize32 .D insSort 3 [0x65, 0x301] [] = .ok (2, [0x65, 0x301]) ∧
    normalize32 .C insSort 3 [0x65, 0x301] [] ≠ .ok (2, [0x65, 0x301]) ∧
    normalize32 .C insSort 4 [0x71, 0x301, 0x323] [] ≠ .ok (3, [0x71, 0x301, 0x323]) := by decide +kernel

/-! ### Low codepoints -/

/-- Left fold of pair compositions. -/
noncomputable def foldComp (a : Nat) : List Nat → Option Nat
  | [] => some a
  | b :: l => match compT a b with
    | some c => foldComp c l
    | none => none

theorem foldComp_spec (a : Nat) (l : List Nat) {c : Nat} (h : foldComp a l = some c) :
    composeFrom compResolve (a : Int) (l.map Int.ofNat) = [(c : Int)] := by
  induction l generalizing a with
  | nil => simp [foldComp] at h; simp [composeFrom, h]
  | cons b l ih =>
    simp only [foldComp] at h
    cases hc : compT a b with
    | none => rw [hc] at h; simp at h
    | some d =>
      rw [hc] at h
      rw [List.map_cons, composeFrom, show compResolve (a : Int) (Int.ofNat b) = some (d : Int) by
        rw [show Int.ofNat b = (b : Int) from rfl, compResolve_nat, hc]; rfl]
      exact ih d h

/-- A codepoint below U+0300 is recomposed from its canonical decomposition, whose first codepoint is
below U+0300; it is Other or a control. -/
noncomputable def latinOK (c : Nat) : Bool :=
  (match fullT decT c with
  | [] => false
  | a :: l => (match foldComp a l with | some d => Nat.beq d c | none => false) && Nat.blt a 0x300) &&
  (match gcbT c with | .OTHER => true | .CR => true | .LF => true | .CONTROL => true | _ => false)

theorem latin_rows : (List.range 0x300).all latinOK = true := by decide +kernel

noncomputable def asciiOK (c : Nat) : Bool := (decT c).isNone && (kdecT c).isNone

theorem ascii_rows : (List.range 0x80).all asciiOK = true := by decide +kernel

def compHigh (row : List Nat) : Bool := match row with
  | _ :: b :: _ => Nat.ble 0x300 b
  | _ => false

theorem compHigh_rows : Data.compTree.all compHigh = true := by decide +kernel

theorem comp_high {a b c : Int} (h : compResolve a b = some c) : 0x300 ≤ b := by
  obtain ⟨i, j, k, rfl, rfl, rfl, hm⟩ := (C27_comp_iff a b c).mp h
  rw [← compTree_toList] at hm
  have hrow := (Tree.all_iff _ _).mp compHigh_rows _ hm
  simp only [compHigh, Nat.ble_eq] at hrow
  omega

structure LatinFacts (c : Int) : Prop where
  again : compose compResolve (full decResolve c) = [c]
  low : (full decResolve c).headD 0 < 0x300
  cls : isCtl (gcbResolve c) = true ∨ gcbResolve c = .OTHER

theorem latin_facts {c : Int} (h0 : 0 ≤ c) (h : c < 0x300) : LatinFacts c := by
  obtain ⟨n, rfl⟩ : ∃ n : Nat, c = n := ⟨c.toNat, by omega⟩
  have hr := List.all_eq_true.mp latin_rows n (List.mem_range.mpr (by omega))
  rw [latinOK, Bool.and_eq_true] at hr
  obtain ⟨h1, h2⟩ := hr
  have hf : full decResolve (n : Int) = (fullT decT n).map Int.ofNat := full_nat decResolve_nat n
  rw [← gcbResolve_nat] at h2
  cases hd : fullT decT n with
  | nil => rw [hd] at h1; simp at h1
  | cons a l =>
    rw [hd] at h1 hf
    simp only [Bool.and_eq_true, Nat.blt_eq] at h1
    refine ⟨?_, ?_, ?_⟩
    · rw [hf, List.map_cons, compose]
      cases hc : foldComp a l with
      | none => rw [hc] at h1; simp at h1
      | some d =>
        rw [hc] at h1
        have : d = n := by simpa using h1.1
        subst this
        exact foldComp_spec a l hc
    · rw [hf]; show (a : Int) < 0x300; omega
    · revert h2
      cases gcbResolve (n : Int) <;> simp [isCtl]

theorem latin_settled (F : Form) {cs : List Int} (h : ∀ c ∈ cs, 0 ≤ c ∧ c < 0x300) : F.Settled cs := by
  rw [Form.Settled, adj_iff]
  intro p a b q he hb
  have ha := (latin_facts (h a (by simp [he])).1 (h a (by simp [he])).2).cls
  have hbb := (latin_facts (h b (by simp [he])).1 (h b (by simp [he])).2).cls
  have hctl : isCtl (gcbResolve a) = true := by
    rcases hbb with hbb | hbb
    · exact noBreak_ctl_right hb hbb
    · rcases ha with ha | ha
      · exact ha
      · exfalso; revert hb
        rw [isGraphemeBoundary, ha, hbb]; decide
  have : F.ls a = a := by rw [Form.ls, F.facts.ctl hctl]; rfl
  rw [Form.Ordered, this, ctl_ccc hctl]
  exact ccc_nonneg _

/-- C51: NFC leaves every text of codepoints below U+0300 (ASCII, Latin-1, Latin Extended, IPA)
unchanged. -/
theorem C51_latin (sort : SortFn) (hs : StableSort sort) (cs : List Int)
    (h : ∀ c ∈ cs, 0 ≤ c ∧ c < 0x300) (fuel : Nat) (hf : cs.length < fuel)
    (hb : (cs.flatMap fullD).length < 2 ^ 31) :
    normalize32 .C sort fuel cs [] = .ok ((cs.length : Int), cs) := by
  rw [normalize32_fixed .C hs.1 cs fuel hf hb, Form.composed_iff .C (.inl rfl) hs, Form.recomposes_iff]
  refine ⟨latin_settled _ h, fun c hc => (latin_facts (h c hc).1 (h c hc).2).again, ?_⟩
  rw [adj_iff]
  intro p a b q he
  have := (latin_facts (h b (by simp [he])).1 (h b (by simp [he])).2).low
  cases hc : compResolve a (Form.C.hd b) with
  | none => rfl
  | some c =>
    have h1 := comp_high hc
    have h2 : Form.C.hd b < 0x300 := this
    omega

/-- Instance: "éǕ". -/
example : normalize32 .C insSort 3 [0xE9, 0x1D5] [] = .ok (2, [0xE9, 0x1D5]) :=
  C51_latin insSort insSort_stable [0xE9, 0x1D5] (by decide) 3 (by decide) (by decide +kernel)

theorem ascii_text (F : Form) {sort : SortFn} (hs : StableSort sort) (cs : List Int)
    (h : ∀ c ∈ cs, 0 ≤ c ∧ c < 0x80) : F.text sort cs = cs := by
  have hfull : ∀ c ∈ cs, full F.map c = [c] := by
    intro c hc
    obtain ⟨n, rfl⟩ : ∃ n : Nat, c = n := ⟨c.toNat, by have := h c hc; omega⟩
    have hr := List.all_eq_true.mp ascii_rows n (List.mem_range.mpr (by have := h _ hc; omega))
    rw [asciiOK, Bool.and_eq_true, Option.isNone_iff_eq_none, Option.isNone_iff_eq_none] at hr
    apply F.facts.none_
    cases F <;> simp only [Form.map]
    all_goals first | (rw [decResolve_nat, hr.1]; rfl) | (rw [kdecResolve_nat, hr.2]; rfl)
  have hset : F.Settled cs := latin_settled F fun c hc => ⟨(h c hc).1, by have := (h c hc).2; omega⟩
  have hcomp : compose compResolve (decompose F.map cs) = cs := by
    rw [decompose_id hfull]
    refine compose_id ?_
    rw [Uncomposable, adj_iff]
    intro p a b q he
    cases hc : compResolve a b with
    | none => rfl
    | some c =>
      have h1 := comp_high hc
      have h2 := h b (by simp [he])
      omega
  cases hF : F
  · exact (Form.decomposed_iff .D (.inl rfl) hs cs).mpr (hF ▸ ⟨hset, hfull⟩)
  · exact (Form.composed_iff .C (.inl rfl) hs cs).mpr (hF ▸ ⟨hset, hcomp⟩)
  · exact (Form.decomposed_iff .KD (.inr rfl) hs cs).mpr (hF ▸ ⟨hset, hfull⟩)
  · exact (Form.composed_iff .KC (.inr rfl) hs cs).mpr (hF ▸ ⟨hset, hcomp⟩)

/-- C51: all four forms leave 7-bit text unchanged, in both encodings: exactly the input octets are
appended to the output, and the count is their number. (Encoding U+0000 is undefined behaviour,
C11, so NUL is excluded there.) -/
theorem C51_ascii (F : Form) (sort : SortFn) (hs : StableSort sort) (cs : List Nat)
    (h : ∀ c ∈ cs, c < 0x80) (hlen : cs.length < 2 ^ 31) (fuel : Nat) (hf : cs.length < fuel)
    (out : List UInt8) (out' : List Int) :
    ((∀ c ∈ cs, c ≠ 0) →
      normalize8 F sort fuel cs out = .ok ((cs.length : Int), out ++ cs.map UInt8.ofNat)) ∧
    normalize32 F sort fuel (cs.map Int.ofNat) out' = .ok ((cs.length : Int), out' ++ cs.map Int.ofNat) := by
  have ht := ascii_text F hs (cs.map Int.ofNat) (by
    intro c hc; obtain ⟨n, hn, rfl⟩ := List.mem_map.mp hc
    have := h n hn; constructor <;> simp <;> omega)
  have hb : ((cs.map Int.ofNat).flatMap (full F.map)).length < 2 ^ 31 := by
    have h1 := F.decompose_text_length hs.1 (cs.map Int.ofNat)
    have h2 : ∀ c ∈ cs.map Int.ofNat, full F.map c = [c] := by
      intro c hc; obtain ⟨n, hn, rfl⟩ := List.mem_map.mp hc
      have hr := List.all_eq_true.mp ascii_rows n (List.mem_range.mpr (h n hn))
      rw [asciiOK, Bool.and_eq_true, Option.isNone_iff_eq_none, Option.isNone_iff_eq_none] at hr
      apply F.facts.none_
      rw [show Int.ofNat n = (n : Int) from rfl]
      cases F <;> simp only [Form.map]
      all_goals first | (rw [decResolve_nat, hr.1]; rfl) | (rw [kdecResolve_nat, hr.2]; rfl)
    have := decompose_id h2
    rw [decompose] at this
    rw [this]; simpa
  constructor
  · intro hnz
    rw [F.normalize8_eq hs.1 cs (fun c hc => by have := h c hc; omega) fuel hf hb ?_ out, ht]
    · congr 2
      · simp
      · rw [List.map_map, show (Int.toNat ∘ Int.ofNat) = id from rfl, List.map_id, encodeText]
        congr 1
        clear ht hb hf hlen hnz
        induction cs with
        | nil => rfl
        | cons a l ih =>
          rw [List.flatMap_cons, ih (fun c hc => h c (by simp [hc])), encode, if_pos (h a (by simp))]; rfl
    · rw [ht]
      intro x hx
      obtain ⟨n, hn, rfl⟩ := List.mem_map.mp hx
      exact ⟨n, rfl, by have := h n hn; have := hnz n hn; simp only [Encodable]; omega⟩
  · rw [normalize32_eq F hs.1 _ out' fuel (by simpa) hb, ht]; simp

/-- Instance: "Hi\r\n" to UTF-8, after "x". -/
example : normalize8 .KC insSort 5 [0x48, 0x69, 0x0D, 0x0A] [0x78] =
    .ok (4, [0x78] ++ [0x48, 0x69, 0x0D, 0x0A]) :=
  (C51_ascii .KC insSort insSort_stable [0x48, 0x69, 0x0D, 0x0A] (by decide) (by decide) 5 (by decide)
    [0x78] []).1 (by decide)

/-- Non-vacuity. -/
example : normalize8 .KC insSort 5 [0x48, 0x69, 0x0D, 0x0A] [] = .ok (4, [0x48, 0x69, 0x0D, 0x0A]) ∧
    normalize32 .C insSort 4 [0xE9, 0x1D5, 0x2AF] [] = .ok (3, [0xE9, 0x1D5, 0x2AF]) := by decide +kernel

end U5e
