import Verif.Properties.Fixpoints
import Verif.Properties.Append
import Verif.Properties.StdSort
import Verif.Properties.Idempotence
/-!
# C77: being normalized is a matter of neighbours

`Unchanged F sort cs`: filtering the utf32ne string `cs` through the form `F` writes `cs`.
-/
namespace U5e
open Spec

/-- Filtering the string through the form gives the string (and its length). -/
def Unchanged (F : Form) (sort : SortFn) (cs : List Int) : Prop :=
  ∀ fuel, cs.length < fuel → normalize32 F sort fuel cs [] = .ok ((cs.length : Int), cs)

theorem unchanged_iff (F : Form) {sort : SortFn} (hs : ConformingSort sort) (cs : List Int)
    (hb : (cs.flatMap (full F.map)).length < 2 ^ 31) : Unchanged F sort cs ↔ F.text sort cs = cs :=
  ⟨fun h => (normalize32_fixed F hs cs (cs.length + 1) (by omega) hb).mp (h _ (by omega)),
   fun h fuel hf => (normalize32_fixed F hs cs fuel hf hb).mpr h⟩

/-- A condition on codepoints and one on neighbours. -/
theorem Form.fixed_local (F : Form) {sort : SortFn} (hs : StableSort sort) :
    ∃ (P : Int → Prop) (R : Int → Int → Prop), ∀ cs, F.text sort cs = cs ↔ (∀ c ∈ cs, P c) ∧ Adj R cs := by
  by_cases hF : F = .D ∨ F = .KD
  · exact ⟨_, _, fun cs => (F.decomposed_iff hF hs cs).trans and_comm⟩
  · have hF : F = .C ∨ F = .KC := by cases F <;> simp_all
    refine ⟨fun c => compose compResolve (full F.map c) = [c],
      fun a b => (isGraphemeBoundary a b = false → F.Ordered a b) ∧ compResolve a (F.hd b) = none, fun cs => ?_⟩
    rw [F.composed_iff hF hs cs, F.recomposes_iff, Form.Settled, adj_iff, adj_iff, adj_iff]
    constructor
    · rintro ⟨h1, h2, h3⟩; exact ⟨h2, fun p a b q e => ⟨h1 p a b q e, h3 p a b q e⟩⟩
    · rintro ⟨h2, h3⟩
      exact ⟨fun p a b q e => (h3 p a b q e).1, h2, fun p a b q e => (h3 p a b q e).2⟩

theorem full_infix_le (map) (p m q : List Int) :
    (m.flatMap (full map)).length ≤ ((p ++ m ++ q).flatMap (full map)).length := by
  simp only [List.flatMap_append, List.length_append]; omega

theorem Form.fixed_pairs (F : Form) {sort : SortFn} (hs : StableSort sort) (cs : List Int) :
    F.text sort cs = cs ↔ (∀ c ∈ cs, F.text sort [c] = [c]) ∧
      ∀ p a b q, cs = p ++ a :: b :: q → F.text sort [a, b] = [a, b] := by
  obtain ⟨P, R, h⟩ := F.fixed_local hs
  simp only [h, adj_iff (l := cs), Adj, List.mem_cons, List.not_mem_nil, or_false, forall_eq, forall_eq_or_imp, and_true]
  constructor
  · rintro ⟨h1, h2⟩
    refine ⟨h1, fun p a b q e => ⟨⟨h1 a (by simp [e]), h1 b (by simp [e])⟩, h2 p a b q e⟩⟩
  · rintro ⟨h1, h2⟩
    exact ⟨h1, fun p a b q e => (h2 p a b q e).2⟩

theorem Form.fixed_infix (F : Form) {sort : SortFn} (hs : StableSort sort) (p m q : List Int)
    (h : F.text sort (p ++ m ++ q) = p ++ m ++ q) : F.text sort m = m := by
  obtain ⟨P, R, hl⟩ := F.fixed_local hs
  rw [hl] at h ⊢
  rw [adj_append, adj_append] at h
  exact ⟨fun c hc => h.1 c (by simp [hc]), h.2.1.2.1⟩

theorem Form.fixed_join (F : Form) {sort : SortFn} (hs : StableSort sort) (x y : List Int) :
    F.text sort (x ++ y) = x ++ y ↔ F.text sort x = x ∧ F.text sort y = y ∧
      ∀ a b, x.getLast? = some a → y.head? = some b → F.text sort [a, b] = [a, b] := by
  obtain ⟨P, R, hl⟩ := F.fixed_local hs
  simp only [hl, adj_append, Adj, List.mem_append, List.mem_cons, List.not_mem_nil, or_false, forall_eq_or_imp, forall_eq,
    and_true]
  constructor
  · rintro ⟨h1, h2, h3, h4⟩
    refine ⟨⟨fun c hc => h1 c (.inl hc), h2⟩, ⟨fun c hc => h1 c (.inr hc), h3⟩, fun a b ha hb =>
      ⟨⟨h1 a (.inl (List.mem_of_getLast? ha)), h1 b (.inr (List.mem_of_mem_head? hb))⟩, h4 a b ha hb⟩⟩
  · rintro ⟨⟨h1, h2⟩, ⟨h3, h4⟩, h5⟩
    exact ⟨fun c hc => hc.elim (h1 c) (h3 c), h2, h4, fun a b ha hb => (h5 a b ha hb).2⟩

/-- C77: a text is left alone by a form exactly if each of its codepoints, and each two neighbours in it, are left
alone. With a stable sort. -/
theorem C77_neighbours (F : Form) (sort : SortFn) (hs : StableSort sort) (cs : List Int)
    (hb : (cs.flatMap (full F.map)).length < 2 ^ 31) :
    Unchanged F sort cs ↔ (∀ c ∈ cs, Unchanged F sort [c]) ∧
      ∀ p a b q, cs = p ++ a :: b :: q → Unchanged F sort [a, b] := by
  rw [unchanged_iff F hs.1 cs hb, F.fixed_pairs hs]
  refine and_congr (forall_congr' fun c => forall_congr' fun hc => ?_) (forall_congr' fun p => forall_congr' fun a =>
    forall_congr' fun b => forall_congr' fun q => forall_congr' fun e => ?_)
  · obtain ⟨p, q, rfl⟩ := List.append_of_mem hc
    have := full_infix_le F.map p [c] q
    rw [List.append_assoc] at this
    rw [unchanged_iff F hs.1 [c] (Nat.lt_of_le_of_lt this hb)]
  · have := full_infix_le F.map p [a, b] q
    rw [List.append_assoc] at this
    rw [unchanged_iff F hs.1 [a, b] (Nat.lt_of_le_of_lt (by rw [e]; exact this) hb)]

/-- C77: any contiguous piece of a normalized text is normalized, wherever it is cut out, even inside a grapheme. -/
theorem C77_pieces (F : Form) (sort : SortFn) (hs : StableSort sort) (p m q : List Int)
    (hb : ((p ++ m ++ q).flatMap (full F.map)).length < 2 ^ 31) (h : Unchanged F sort (p ++ m ++ q)) :
    Unchanged F sort m := by
  rw [unchanged_iff F hs.1 _ hb] at h
  rw [unchanged_iff F hs.1 _ (Nat.lt_of_le_of_lt (full_infix_le F.map p m q) hb)]
  exact F.fixed_infix hs p m q h

/-- C77: two normalized texts may be joined exactly if the two codepoints at the seam may be neighbours. -/
theorem C77_join (F : Form) (sort : SortFn) (hs : StableSort sort) (x y : List Int)
    (hb : ((x ++ y).flatMap (full F.map)).length < 2 ^ 31) :
    Unchanged F sort (x ++ y) ↔ Unchanged F sort x ∧ Unchanged F sort y ∧
      ∀ a b, x.getLast? = some a → y.head? = some b → Unchanged F sort [a, b] := by
  have h1 : (x.flatMap (full F.map)).length < 2 ^ 31 :=
    Nat.lt_of_le_of_lt (by simp) hb
  have h2 : (y.flatMap (full F.map)).length < 2 ^ 31 :=
    Nat.lt_of_le_of_lt (by simp) hb
  rw [unchanged_iff F hs.1 _ hb, F.fixed_join hs, unchanged_iff F hs.1 x h1, unchanged_iff F hs.1 y h2]
  refine and_congr Iff.rfl (and_congr Iff.rfl (forall_congr' fun a => forall_congr' fun b => forall_congr' fun ha =>
    forall_congr' fun hbb => ?_))
  rw [unchanged_iff F hs.1 [a, b]]
  obtain ⟨p, rfl⟩ : ∃ p, x = p ++ [a] := by
    rcases List.eq_nil_or_concat x with rfl | ⟨p, g, rfl⟩
    · simp at ha
    · simp at ha; exact ⟨p, by simp [ha]⟩
  obtain ⟨q, rfl⟩ : ∃ q, y = b :: q := by
    cases y with
    | nil => simp at hbb
    | cons c q => simp at hbb; exact ⟨q, by rw [hbb]⟩
  refine Nat.lt_of_le_of_lt ?_ hb
  simpa using full_infix_le F.map p [a, b] q

/-- C77: in particular where there is a grapheme break between them, for any sort. -/
theorem C77_join_at_break (F : Form) (sort : SortFn) (hs : ConformingSort sort) (x y : List Int)
    (hb : ((x ++ y).flatMap (full F.map)).length < 2 ^ 31)
    (hj : ∀ a b, x.getLast? = some a → y.head? = some b → Breaks a b)
    (hx : Unchanged F sort x) (hy : Unchanged F sort y) : Unchanged F sort (x ++ y) := by
  have h1 : (x.flatMap (full F.map)).length < 2 ^ 31 :=
    Nat.lt_of_le_of_lt (by simp) hb
  have h2 : (y.flatMap (full F.map)).length < 2 ^ 31 :=
    Nat.lt_of_le_of_lt (by simp) hb
  rw [unchanged_iff F hs _ h1] at hx
  rw [unchanged_iff F hs _ h2] at hy
  rw [unchanged_iff F hs _ hb, F.text_append sort hj, hx, hy]

/-- Instances: "né" in NFC, its neighbours and its pieces; "é€" cut at "€". -/
theorem piecesSample : Unchanged .C insSort [0x6E, 0xE9, 0x20AC] :=
  (unchanged_iff .C insSort_stable.1 _ (by decide +kernel)).mpr (by decide +kernel)
example := (C77_neighbours .C insSort insSort_stable [0x6E, 0xE9, 0x20AC] (by decide +kernel)).mp piecesSample
example := C77_pieces .C insSort insSort_stable [0x6E] [0xE9] [0x20AC] (by decide +kernel) piecesSample
example := (C77_join .C insSort insSort_stable [0x6E] [0xE9, 0x20AC] (by decide +kernel)).mp piecesSample
example := C77_join_at_break .C insSort insSort_stable.1 [0x6E, 0xE9] [0x20AC] (by decide +kernel)
  (by rintro a b ⟨⟩ ⟨⟩; exact breaks_of (by decide +kernel))
  (C77_pieces .C insSort insSort_stable [] [0x6E, 0xE9] [0x20AC] (by decide +kernel) piecesSample)
  (C77_pieces .C insSort insSort_stable [0x6E, 0xE9] [0x20AC] [] (by decide +kernel) piecesSample)
/-- Inside a grapheme: "q" with two marks in order. -/
example := C77_pieces .KD insSort insSort_stable [0x71] [0x323] [0x301] (by decide +kernel)
  ((unchanged_iff .KD insSort_stable.1 [0x71, 0x323, 0x301] (by decide +kernel)).mpr (by decide +kernel))

/-- C77: the condition on the seam is needed: "e" and U+0301 are both in NFC, together they are not. And for NFD:
U+0301 and U+0323 are both in NFD, together they are not. -/
theorem C77_seam_needed :
    Unchanged .C insSort [0x65] ∧ Unchanged .C insSort [0x301] ∧ ¬ Unchanged .C insSort [0x65, 0x301] ∧
    Unchanged .D insSort [0x301] ∧ Unchanged .D insSort [0x323] ∧ ¬ Unchanged .D insSort [0x301, 0x323] := by
  have h (F : Form) (cs : List Int) (hb : (cs.flatMap (full F.map)).length < 2 ^ 31) := unchanged_iff F insSort_stable.1 cs hb
  rw [h .C _ (by decide +kernel), h .C _ (by decide +kernel), h .C _ (by decide +kernel), h .D _ (by decide +kernel),
    h .D _ (by decide +kernel), h .D _ (by decide +kernel)]
  decide +kernel

/-- C77: so is the stability of the sort, and the linked `std::sort` does not have it for 17 codepoints or more: each
codepoint and each two neighbours of "q" with the marks U+0300 to U+030F are left alone, the text is not (C73). -/
theorem C77_stable_needed :
    let x : List Int := [0x71, 0x300, 0x301, 0x302, 0x303, 0x304, 0x305, 0x306, 0x307, 0x308, 0x309, 0x30A, 0x30B, 0x30C, 0x30D, 0x30E, 0x30F]
    ∀ F, (∀ c ∈ x, Unchanged F libSort [c]) ∧ (∀ p a b q, x = p ++ a :: b :: q → Unchanged F libSort [a, b]) ∧
      ¬ Unchanged F libSort x := by
  intro x F
  have hx : F.text libSort x ≠ x := by cases F <;> decide +kernel
  have hb : (x.flatMap (full F.map)).length < 2 ^ 31 := by cases F <;> decide +kernel
  have h1 : ∀ c ∈ x, (([c] : List Int).flatMap (full F.map)).length < 2 ^ 31 ∧ F.text libSort [c] = [c] := by
    cases F <;> decide +kernel
  have h2 : ∀ ab ∈ x.zip x.tail, (([ab.1, ab.2] : List Int).flatMap (full F.map)).length < 2 ^ 31 ∧
      F.text libSort [ab.1, ab.2] = [ab.1, ab.2] := by cases F <;> decide +kernel
  refine ⟨fun c hc => (unchanged_iff F C73_conforming _ (h1 c hc).1).mpr (h1 c hc).2, fun p a b q e => ?_,
    fun h => hx ((unchanged_iff F C73_conforming _ hb).mp h)⟩
  have hm : (a, b) ∈ x.zip x.tail := by
    rw [e]; clear e
    cases p with
    | nil => simp
    | cons c p =>
      rw [List.cons_append, List.tail_cons]
      have : (c :: (p ++ a :: b :: q)).zip (p ++ a :: b :: q) =
          ((c :: p).zip (p ++ [a])) ++ (a :: b :: q).zip (b :: q) := by
        rw [show c :: (p ++ a :: b :: q) = (c :: p) ++ (a :: b :: q) by rfl,
          show p ++ a :: b :: q = (p ++ [a]) ++ (b :: q) by simp, List.zip_append (by simp)]
      rw [this]; simp
  exact (unchanged_iff F C73_conforming _ (h2 _ hm).1).mpr (h2 _ hm).2

/-- C77 in UTF-8: what is cut out of a normalized string with the appending constructor, from any octet to any other,
also in the middle of a character or of a grapheme, is a normalized string again. -/
theorem C77_truncate_utf8 (F : Form) (sort : SortFn) (hs : StableSort sort) (cs : List Nat) (he : ∀ c ∈ cs, Encodable c)
    (hb : ((cs.map Int.ofNat).flatMap (full F.map)).length < 2 ^ 31) (x y : Nat) (hxy : x ≤ y)
    (hy : y ≤ (encodeText cs).length)
    (hn : Unchanged F sort (cs.map Int.ofNat)) :
    ∃ ds : List Nat, ds <:+: cs ∧ appendRange [] (encodeText cs ++ [0]) x y = .ok (encodeText ds) ∧
      ∀ fuel out, ds.length < fuel → normalize8 F sort fuel ds out = .ok ((ds.length : Int), out ++ encodeText ds) := by
  have h31 : ∀ c ∈ cs, c < 2 ^ 31 := fun c hc => by have := he c hc; simp only [Encodable] at this; omega
  have e0 := C18_append_codepoints [] [] [] 0 (by decide) cs h31 x y hxy hy
  simp only [List.nil_append, List.length_nil, Nat.zero_add] at e0
  generalize hd : (cs.take (unitIndex (cs.map encode) y)).drop (unitIndex (cs.map encode) x) = ds at e0
  have hinf : ds <:+: cs := by
    rw [← hd]; exact (List.drop_suffix _ _).isInfix.trans (List.take_prefix _ _).isInfix
  refine ⟨ds, hinf, e0, fun fuel out hf => ?_⟩
  have hdse : ∀ c ∈ ds, Encodable c := fun c hc => he c (hinf.mem hc)
  obtain ⟨p, q, rfl⟩ := hinf
  simp only [List.map_append] at hb
  have hbd := Nat.lt_of_le_of_lt (full_infix_le F.map (p.map Int.ofNat) (ds.map Int.ofNat) (q.map Int.ofNat)) hb
  have hfix : F.text sort (ds.map Int.ofNat) = ds.map Int.ofNat := by
    refine F.fixed_infix hs (p.map Int.ofNat) _ (q.map Int.ofNat) ?_
    have := (unchanged_iff F hs.1 _ (by simpa using hb)).mp hn
    simpa using this
  have := F.normalize8_eq hs.1 ds (fun c hc => h31 c (by simp [hc])) fuel hf hbd (by
    rw [hfix]; intro x hx
    obtain ⟨n, hn, rfl⟩ := List.mem_map.mp hx
    exact ⟨n, rfl, hdse n hn⟩) out
  have e : (Int.toNat ∘ Int.ofNat : Nat → Nat) = id := by funext n; rfl
  rw [this, hfix, List.length_map, List.map_map, e, List.map_id]

/-- Instance: "né€" cut from inside "é" to inside "€". -/
example := C77_truncate_utf8 .C insSort insSort_stable [0x6E, 0xE9, 0x20AC] (by decide) (by decide +kernel) 2 5 (by decide)
  (by decide) piecesSample
example : appendRange [] (encodeText [0x6E, 0xE9, 0x20AC] ++ [0]) 2 5 = .ok (encodeText [0xE9]) := by decide

/-- The four forms of a text with a Latin, a Greek and a Hangul grapheme, and of a piece of it. -/
example : ∀ F : Form, Unchanged F insSort [0x71, 0x323, 0x301, 0x3B1, 0x1100] := fun F =>
  (unchanged_iff F insSort_stable.1 _ (by cases F <;> decide +kernel)).mpr (by cases F <;> decide +kernel)

/-- C77: any piece of what a form wrote for a text with emoji modifiers only directly after emoji bases (C34) is normalized in that form. -/
theorem C77_pieces_of_result (F : Form) (sort : SortFn) (hs : StableSort sort) (cs : List Int)
    (hmod : ModifiersFollowBases cs) (hb : (cs.flatMap (full F.map)).length < 2 ^ 31) (fuel : Nat)
    (hf : cs.length < fuel) (p m q : List Int) (n : Int) (h : normalize32 F sort fuel cs [] = .ok (n, p ++ m ++ q)) :
    Unchanged F sort m := by
  have hl := F.decompose_text_length hs.1 cs
  obtain ⟨ys, h1, h2⟩ := C34_idempotent F sort hs cs hmod fuel hf hb
  have e := normalize32_eq F hs.1 cs [] fuel hf hb
  rw [h] at h1 e
  simp only [Res.ok.injEq, Prod.mk.injEq, List.nil_append] at h1 e
  rw [← e.2] at hl
  refine C77_pieces F sort hs p m q (Nat.lt_of_le_of_lt (Nat.le_of_eq hl) hb) fun fuel' hf' => ?_
  rw [h1.2] at hf' ⊢
  exact h2 fuel' hf'

/-- Instance: "e", U+0301, "fi" ligature under NFKC, and the piece "éf" of the result. -/
example := C77_pieces_of_result .KC insSort insSort_stable [0x65, 0x301, 0xFB01]
  (modifiers_of (by decide +kernel)) (by decide +kernel) 4
  (by decide) [] [0xE9, 0x66] [0x69] 3 (by decide +kernel)

end U5e
