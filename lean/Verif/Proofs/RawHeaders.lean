import Verif.Data.RawCccHdr
import Verif.Data.RawDecHdr
import Verif.Data.RawKdecHdr
import Verif.Data.RawCompHdr
import Verif.Data.RawGcbHdr
import Verif.Data.RawGcb
import Verif.Data.RawExcl
import Verif.Data.Ccc
import Verif.Data.Dec
import Verif.Data.Kdec
import Verif.Data.Comp
import Verif.Data.Gcb
import Verif.Data.GcbFile
import Verif.Data.CompExcl
import Verif.Proofs.Raw
import Verif.Proofs.ScriptGcb
set_option maxRecDepth 100000
/-! # The recorded octets of the headers, of GraphemeBreakProperty.txt and of CompositionExclusions.txt, checked by
kernel evaluation -/
namespace U5e
open Spec

/-! ## Printing in front of a recorded text -/

/-- `s` in front of `rest`. -/
def strPre : Str → Nat → Nat
  | [], rest => rest
  | c :: s, rest => Nat.add (Nat.mul (strPre s rest) 256) c

theorem strPre_spec {s : Str} (h : ∀ c ∈ s, 0 < c ∧ c < 256) (rest : Nat) : octets (strPre s rest) = s ++ octets rest := by
  induction s with
  | nil => rfl
  | cons c s ih =>
    have hc := h c (by simp)
    have := octets_cons (strPre s rest) hc.1 hc.2
    rw [show strPre (c :: s) rest = strPre s rest * 256 + c from rfl, this, ih fun c hc => h c (by simp [hc])]
    rfl

/-- The numbers of a row, separated by a comma and a space, in front of `rest`. -/
def numsPre : List Nat → Nat → Nat
  | [], rest => rest
  | x :: l, rest =>
    match l with
    | [] => decPre (x + 1) x rest
    | _ :: _ => decPre (x + 1) x ((numsPre l rest * 256 + 32) * 256 + 44)

theorem numsPre_spec (l : List Nat) (rest : Nat) :
    octets (numsPre l rest) = join [44, 32] (l.map dec) ++ octets rest := by
  induction l with
  | nil => rfl
  | cons x l ih =>
    cases l with
    | nil => rw [numsPre, decPre_spec]; rfl
    | cons y l =>
      rw [numsPre, decPre_spec, octets_cons _ (by omega) (by omega), octets_cons _ (by omega) (by omega), ih]
      simp [join]

/-- A row in front of `rest`. -/
def rowPre (row : List Nat) (rest : Nat) : Nat := (numsPre row ((rest * 256 + 125) * 256 + 32) * 256 + 32) * 256 + 123

theorem rowPre_spec (row : List Nat) (rest : Nat) : octets (rowPre row rest) = rowText row ++ octets rest := by
  rw [rowPre, octets_cons _ (by omega) (by omega), octets_cons _ (by omega) (by omega), numsPre_spec,
    octets_cons _ (by omega) (by omega), octets_cons _ (by omega) (by omega)]
  simp [rowText]

/-! ## Headers of numbers -/

/-- The recorded lines `raw` are the rows, the last one without a comma. -/
def chkHeader : List (List Nat) → List Nat → Bool
  | [], raw => raw.isEmpty
  | _ :: _, [] => false
  | r :: rows, n :: raw =>
    match rows with
    | [] => and (Nat.beq n (rowPre r 0)) raw.isEmpty
    | _ :: _ => and (Nat.beq n (rowPre r 44)) (chkHeader rows raw)

theorem chkHeader_spec {rows : List (List Nat)} {raw : List Nat} (h : chkHeader rows raw = true) :
    headerText rows = textOfOpen raw := by
  induction rows generalizing raw with
  | nil =>
    have : raw = [] := by simpa [chkHeader] using h
    subst this; rfl
  | cons r rows ih =>
    cases raw with
    | nil => simp [chkHeader] at h
    | cons n raw =>
      cases rows with
      | nil =>
        rw [chkHeader, Bool.and_eq_true] at h
        have h2 : raw = [] := by simpa using h.2
        subst h2
        rw [Nat.eq_of_beq_eq_true h.1]
        rw [show textOfOpen [rowPre r 0] = octets (rowPre r 0) from rfl, rowPre_spec, octets_zero, List.append_nil]
        rfl
      | cons r' rows =>
        rw [chkHeader, Bool.and_eq_true] at h
        have := ih h.2
        cases raw with
        | nil => simp [chkHeader] at h
        | cons n' raw =>
          rw [headerText, List.map_cons, List.map_cons, join, ← List.map_cons, ← headerText, this,
            Nat.eq_of_beq_eq_true h.1]
          rw [show ∀ x, textOfOpen (x :: n' :: raw) = octets x ++ [10] ++ textOfOpen (n' :: raw) from fun _ => rfl, rowPre_spec,
            show octets 44 = [44] by rw [octets_pos (by decide), show 44 / 256 = 0 from rfl, octets_zero]]
          simp

/-! ## grapheme_cluster_break_data.hpp -/

/-- A row of the grapheme cluster break header. -/
def gcbRowPre (r : Nat × Nat × GCB) : Nat :=
  strPre [123, 32] (decPre (r.1 + 1) r.1 (strPre [44, 32] (decPre (r.2.1 + 1) r.2.1 (strPre [44, 32]
    (strPre enumPrefix (strPre (gcbEnumerator r.2.2) (strPre [32, 125, 44] 0)))))))

theorem enumerator_octets (v : GCB) : ∀ c ∈ gcbEnumerator v, 0 < c ∧ c < 256 := by cases v <;> decide
theorem valueName_octets (v : GCB) : ∀ c ∈ gcbValueName v, 0 < c ∧ c < 256 := by cases v <;> decide

theorem gcbRowPre_spec (r : Nat × Nat × GCB) : octets (gcbRowPre r) = gcbRowText r := by
  rw [gcbRowPre, strPre_spec (by decide), decPre_spec, strPre_spec (by decide), decPre_spec, strPre_spec (by decide),
    strPre_spec (by decide), strPre_spec (enumerator_octets _), strPre_spec (by decide), octets_zero]
  simp [gcbRowText, enumPrefix]

/-- The recorded lines are the rows. -/
def chkGcbHeader : List (Nat × Nat × GCB) → List Nat → Bool
  | [], raw => raw.isEmpty
  | _ :: _, [] => false
  | r :: rows, n :: raw => and (Nat.beq n (gcbRowPre r)) (chkGcbHeader rows raw)

theorem chkGcbHeader_spec {rows : List (Nat × Nat × GCB)} {raw : List Nat} (h : chkGcbHeader rows raw = true) :
    gcbHeaderText rows = textOf raw := by
  induction rows generalizing raw with
  | nil =>
    have : raw = [] := by simpa [chkGcbHeader] using h
    subst this; rfl
  | cons r rows ih =>
    cases raw with
    | nil => simp [chkGcbHeader] at h
    | cons n raw =>
      rw [chkGcbHeader, Bool.and_eq_true] at h
      have := ih h.2
      rw [gcbHeaderText] at this
      rw [textOf] at this
      rw [Nat.eq_of_beq_eq_true h.1, gcbHeaderText, textOf, List.flatMap_cons, List.flatMap_cons, this, gcbRowPre_spec]

/-! ## Lines without a newline -/

/-- `n` has at most `f` octets, none of them a newline. -/
def noNewline (f : Nat) : Nat → Bool :=
  Nat.rec (fun n => Nat.beq n 0) (fun _ ih n => and (!Nat.beq (n % 256) 10) (ih (n / 256))) f

theorem noNewline_spec {f n : Nat} (h : noNewline f n = true) : 10 ∉ octets n := by
  induction f generalizing n with
  | zero =>
    have : n = 0 := Nat.eq_of_beq_eq_true h
    subst this; rw [octets_zero]; simp
  | succ f ih =>
    have h : and (!Nat.beq (n % 256) 10) (noNewline f (n / 256)) = true := h
    rw [Bool.and_eq_true] at h
    have h1 : n % 256 ≠ 10 := Nat.ne_of_beq_eq_false (by simpa using h.1)
    by_cases hn : n = 0
    · subst hn; rw [octets_zero]; simp
    · rw [octets_pos hn]
      simp [Ne.symm h1, ih h.2]

/-- No newline in `n`, quickly if there is no control character at all. -/
def oneLine (n : Nat) : Bool := or (and (printable n) (Nat.ble n maxLine)) (noNewline 256 n)

theorem oneLine_spec {n : Nat} (h : oneLine n = true) : 10 ∉ octets n := by
  rcases Bool.or_eq_true_iff.mp h with h | h
  · rw [Bool.and_eq_true] at h
    exact printable_spec h.1 (Nat.lt_of_le_of_lt (Nat.le_of_ble_eq_true h.2) (by decide +kernel))
  · exact noNewline_spec h

/-- What follows the blanks at the start of `n` (at most `f` of them). -/
def skipBlanks (f : Nat) : Nat → Nat :=
  Nat.rec (fun n => n) (fun _ ih n => cond (Nat.beq (n % 256) 32) (ih (n / 256)) n) f

theorem skipBlanks_spec (f n : Nat) : ∃ k, octets n = List.replicate k 32 ++ octets (skipBlanks f n) := by
  induction f generalizing n with
  | zero => exact ⟨0, rfl⟩
  | succ f ih =>
    have e : skipBlanks (f + 1) n = cond (Nat.beq (n % 256) 32) (skipBlanks f (n / 256)) n := rfl
    rw [e]
    cases hb : Nat.beq (n % 256) 32 with
    | true =>
      have hb := Nat.eq_of_beq_eq_true hb
      have hn : n ≠ 0 := by rintro rfl; simp at hb
      obtain ⟨k, hk⟩ := ih (n / 256)
      exact ⟨k + 1, by rw [octets_pos hn, hb, hk]; simp [List.replicate_succ]⟩
    | false => exact ⟨0, rfl⟩

/-! ## GraphemeBreakProperty.txt -/

/-- `s` is what `n` starts with. -/
def startsWith (s : Str) (n : Nat) : Bool := Nat.beq n (strPre s (n / 256 ^ s.length))

/-- `z` is blanks, `; `, the name of `v`, a space and more. -/
def valueOk (v : GCB) (z : Nat) : Bool := startsWith (59 :: 32 :: (gcbValueName v ++ [32])) (skipBlanks 32 z)

theorem valueOk_spec {v : GCB} {z : Nat} (h : valueOk v z = true) :
    ∃ k rest, octets z = List.replicate k 32 ++ [59, 32] ++ gcbValueName v ++ [32] ++ rest := by
  obtain ⟨k, hk⟩ := skipBlanks_spec 32 z
  have h := Nat.eq_of_beq_eq_true h
  have hs : ∀ c ∈ (59 :: 32 :: (gcbValueName v ++ [32])), 0 < c ∧ c < 256 := by
    intro c hc
    simp only [List.mem_cons, List.mem_append, List.not_mem_nil, or_false] at hc
    rcases hc with rfl | rfl | hc | rfl
    · omega
    · omega
    · exact valueName_octets v c hc
    · omega
  refine ⟨k, octets (skipBlanks 32 z / 256 ^ (59 :: 32 :: (gcbValueName v ++ [32])).length), ?_⟩
  generalize (59 :: 32 :: (gcbValueName v ++ [32])).length = m at h ⊢
  rw [hk]
  have := congrArg octets h
  rw [strPre_spec hs] at this
  rw [this]
  simp

/-- `n` is the entry for the single codepoint `a`; `z` follows the first space. -/
def gcbSingleOk (n a : Nat) (v : GCB) (z : Nat) : Bool :=
  and (Nat.beq n (hex4Pre a (z * 256 + 32))) (and (Nat.beq (z % 256) 32) (valueOk v (z / 256)))

/-- `n` is the entry for the range `a..b`; `z` follows the first space. -/
def gcbRangeOk (n a b : Nat) (v : GCB) (z : Nat) : Bool :=
  and (Nat.beq n (hex4Pre a (strPre [46, 46] (hex4Pre b (z * 256 + 32))))) (valueOk v z)

/-- `n` is the entry `r`. -/
def gcbEntryOk (n : Nat) (r : Nat × Nat × GCB) : Bool :=
  and (oneLine n)
    (cond (Nat.beq r.1 r.2.1) (gcbSingleOk n r.1 r.2.2 (skipTo 32 16 n)) (gcbRangeOk n r.1 r.2.1 r.2.2 (skipTo 32 32 n)))

theorem gcbEntryOk_spec {n : Nat} {r : Nat × Nat × GCB} (h : gcbEntryOk n r = true) : GcbEntry (octets n) r ∧ 10 ∉ octets n := by
  obtain ⟨a, b, v⟩ := r
  rw [gcbEntryOk, Bool.and_eq_true] at h
  refine ⟨?_, oneLine_spec h.1⟩
  have h := h.2
  cases hb : Nat.beq a b with
  | true =>
    rw [hb, cond_true, gcbSingleOk, Bool.and_eq_true, Bool.and_eq_true] at h
    generalize skipTo 32 16 n = z at h
    obtain ⟨h1, h2, h3⟩ := h
    have h1 := Nat.eq_of_beq_eq_true h1
    have h2 := Nat.eq_of_beq_eq_true h2
    have hab := Nat.eq_of_beq_eq_true hb
    subst hab
    obtain ⟨k, rest, hk⟩ := valueOk_spec h3
    have hz : z ≠ 0 := by rintro rfl; simp at h2
    have : octets n = hex4 a ++ List.replicate (k + 2) 32 ++ [59, 32] ++ gcbValueName v ++ [32] ++ rest := by
      rw [h1, hex4Pre_spec, octets_cons _ (by omega) (by omega), octets_pos hz, h2, hk]
      simp [List.replicate_succ]
    rw [this]
    exact .single (by omega)
  | false =>
    rw [hb, cond_false, gcbRangeOk, Bool.and_eq_true] at h
    generalize skipTo 32 32 n = z at h
    obtain ⟨h1, h3⟩ := h
    have h1 := Nat.eq_of_beq_eq_true h1
    obtain ⟨k, rest, hk⟩ := valueOk_spec h3
    have : octets n = hex4 a ++ [46, 46] ++ hex4 b ++ List.replicate (k + 1) 32 ++ [59, 32] ++ gcbValueName v ++ [32] ++ rest := by
      rw [h1, hex4Pre_spec, strPre_spec (by decide), hex4Pre_spec, octets_cons _ (by omega) (by omega), hk]
      simp [List.replicate_succ]
    rw [this]
    exact .range (by omega)

/-- The lines `raw` are empty, comments or, in order, the entries `rows`. -/
def chkGcb : List Nat → List (Nat × Nat × GCB) → Bool
  | [], rows => rows.isEmpty
  | n :: raw, rows =>
    cond (Nat.beq n 0) (chkGcb raw rows)
      (cond (Nat.beq (n % 256) 35) (and (oneLine n) (chkGcb raw rows))
        (match rows with
        | [] => false
        | r :: rows => and (gcbEntryOk n r) (chkGcb raw rows)))

theorem chkGcb_spec {raw : List Nat} {rows : List (Nat × Nat × GCB)} (h : chkGcb raw rows = true) :
    GcbFile (textOf raw) rows := by
  induction raw generalizing rows with
  | nil =>
    have : rows = [] := by simpa [chkGcb] using h
    subst this; exact .nil
  | cons n raw ih =>
    rw [chkGcb.eq_def] at h
    dsimp only at h
    rw [textOf, List.flatMap_cons, ← textOf]
    cases h0 : Nat.beq n 0 with
    | true =>
      rw [h0, cond_true] at h
      have := Nat.eq_of_beq_eq_true h0
      subst this
      rw [octets_zero]
      exact .blank (ih h)
    | false =>
      rw [h0, cond_false] at h
      cases hc : Nat.beq (n % 256) 35 with
      | true =>
        rw [hc, cond_true, Bool.and_eq_true] at h
        have hn := oneLine_spec h.1
        rw [octets_pos (Nat.ne_of_beq_eq_false h0), Nat.eq_of_beq_eq_true hc] at hn ⊢
        exact .comment (by intro hm; exact hn (by simp [hm])) (ih h.2)
      | false =>
        rw [hc, cond_false] at h
        cases rows with
        | nil => simp at h
        | cons r rows =>
          simp only [Bool.and_eq_true] at h
          obtain ⟨h1, h2⟩ := gcbEntryOk_spec h.1
          exact .entry h1 h2 (ih h.2)

/-! ## CompositionExclusions.txt -/

/-- `n` is the entry `x`: the codepoint, two or more blanks, a comment. -/
def exclOk (n x : Nat) : Bool :=
  let z := skipTo 32 16 n
  and (oneLine n) (and (Nat.beq n (hex4Pre x (z * 256 + 32)))
    (and (Nat.beq (z % 256) 32) (Nat.beq (skipBlanks 32 (z / 256) % 256) 35)))

/-- The lines `raw` are empty, comments or, in order, the entries `excl`. -/
def chkExcl : List Nat → List Nat → Bool
  | [], excl => excl.isEmpty
  | n :: raw, excl =>
    cond (Nat.beq n 0) (chkExcl raw excl)
      (cond (Nat.beq (n % 256) 35) (and (oneLine n) (chkExcl raw excl))
        (match excl with
        | [] => false
        | x :: excl => and (exclOk n x) (chkExcl raw excl)))

theorem chkExcl_spec {raw excl : List Nat} (h : chkExcl raw excl = true) : ExclFile (textOf raw) excl := by
  induction raw generalizing excl with
  | nil =>
    have : excl = [] := by simpa [chkExcl] using h
    subst this; exact .nil
  | cons n raw ih =>
    rw [chkExcl.eq_def] at h
    dsimp only at h
    rw [textOf, List.flatMap_cons, ← textOf]
    cases h0 : Nat.beq n 0 with
    | true =>
      rw [h0, cond_true] at h
      have := Nat.eq_of_beq_eq_true h0
      subst this
      rw [octets_zero]
      exact .blank (ih h)
    | false =>
      rw [h0, cond_false] at h
      cases hc : Nat.beq (n % 256) 35 with
      | true =>
        rw [hc, cond_true, Bool.and_eq_true] at h
        have hn := oneLine_spec h.1
        rw [octets_pos (Nat.ne_of_beq_eq_false h0), Nat.eq_of_beq_eq_true hc] at hn ⊢
        exact .comment (by intro hm; exact hn (by simp [hm])) (ih h.2)
      | false =>
        rw [hc, cond_false] at h
        cases excl with
        | nil => simp at h
        | cons x excl =>
          simp only [Bool.and_eq_true, exclOk] at h
          generalize skipTo 32 16 n = z at h
          obtain ⟨⟨h1, h2, h3, h4⟩, h5⟩ := h
          have h2 := Nat.eq_of_beq_eq_true h2
          have h3 := Nat.eq_of_beq_eq_true h3
          have h4 := Nat.eq_of_beq_eq_true h4
          obtain ⟨k, hk⟩ := skipBlanks_spec 32 (z / 256)
          generalize skipBlanks 32 (z / 256) = w at h4 hk
          have hz : z ≠ 0 := by rintro rfl; simp at h3
          have hw : w ≠ 0 := by rintro rfl; simp at h4
          have e : octets n = hex4 x ++ List.replicate (k + 2) 32 ++ 35 :: octets (w / 256) := by
            rw [h2, hex4Pre_spec, octets_cons _ (by omega) (by omega), octets_pos hz, h3, hk, octets_pos hw, h4]
            simp [List.replicate_succ]
          have hn := oneLine_spec h1
          rw [e] at hn ⊢
          refine .entry (by omega) (fun hm => hn (List.mem_append_right _ hm)) (.inr rfl) (ih h5)

namespace Data

theorem ccc_header : headerText cccTable = textOfOpen cccHeaderRaw :=
  chkHeader_spec (by unfold cccTable cccHeaderRaw; decide +kernel)
theorem dec_header : headerText decTable = textOfOpen decHeaderRaw :=
  chkHeader_spec (by unfold decTable decHeaderRaw; decide +kernel)
theorem kdec_header : headerText kdecTable = textOfOpen kdecHeaderRaw :=
  chkHeader_spec (by unfold kdecTable kdecHeaderRaw; decide +kernel)
theorem comp_header : headerText compTable = textOfOpen compHeaderRaw :=
  chkHeader_spec (by unfold compTable compHeaderRaw; decide +kernel)
theorem gcb_header : gcbHeaderText gcbTable = textOf gcbHeaderRaw :=
  chkGcbHeader_spec (by unfold gcbTable gcbHeaderRaw; decide +kernel)
theorem gcb_file_text : GcbFile (textOf graphemeBreakPropertyRaw) gcbFileRows :=
  chkGcb_spec (by unfold graphemeBreakPropertyRaw gcbFileRows; decide +kernel)
theorem excl_file_text : ExclFile (textOf compositionExclusionsRaw) exclRows :=
  chkExcl_spec (by unfold compositionExclusionsRaw exclRows; decide +kernel)

end Data
end U5e
