import Verif.Spec.UcdText
import Verif.Proofs.ScriptSim
/-! # The grapheme cluster break script and the exclusion list, on text -/
namespace U5e
open Spec

theorem takeWhile_append_stop {α : Type} {p : α → Bool} {s : List α} (hs : ∀ c ∈ s, p c = true) {c : α} (hc : p c = false)
    (t : List α) : (s ++ c :: t).takeWhile p = s ∧ (s ++ c :: t).dropWhile p = c :: t := by
  induction s with
  | nil => simp [hc]
  | cons x s ih =>
    have hx := hs x (by simp)
    have := ih (fun c hc => hs c (by simp [hc]))
    simp [hx, this.1, this.2]

theorem hexPad_isUpperHex (k n : Nat) : ∀ c ∈ hexPad k n, isUpperHex c = true := by
  have hd : ∀ d < 16, isUpperHex (hexChar d) = true := by decide
  fun_induction hexPad k n with
  | case1 k n h => intro c hc; simp only [List.mem_singleton] at hc; subst hc; exact hd _ h.1
  | case2 k n h ih =>
    intro c hc
    rcases List.mem_append.mp hc with hc | hc
    · exact ih c hc
    · simp only [List.mem_singleton] at hc; subst hc; exact hd _ (by omega)

theorem hex4_isUpperHex (n : Nat) : ∀ c ∈ hex4 n, isUpperHex c = true := hexPad_isUpperHex 4 n

theorem valueName_facts (v : GCB) : gcbValueName v ≠ [] ∧ (∀ c ∈ gcbValueName v, isSpace c = false) ∧
    upcase (gcbValueName v) = gcbEnumerator v := by
  cases v <;> decide

/-- What the second substitution does with a range entry. -/
theorem rangeParts_entry (a b : Nat) (v : GCB) (n : Nat) (hn : 1 ≤ n) (rest : Str) :
    rangeParts (hex4 a ++ [46, 46] ++ hex4 b ++ List.replicate n 32 ++ [59, 32] ++ gcbValueName v ++ [32] ++ rest) =
      some (a, b, gcbValueName v) := by
  obtain ⟨k, rfl⟩ : ∃ k, n = k + 1 := ⟨n - 1, by omega⟩
  obtain ⟨hv0, hv1, hv2⟩ := valueName_facts v
  have e1 := takeWhile_append_stop (hex4_isUpperHex a) (c := 46) (by decide)
    (46 :: (hex4 b ++ 32 :: (List.replicate k 32 ++ 59 :: 32 :: (gcbValueName v ++ 32 :: rest))))
  have e2 := takeWhile_append_stop (hex4_isUpperHex b) (c := 32) (by decide)
    (List.replicate k 32 ++ 59 :: 32 :: (gcbValueName v ++ 32 :: rest))
  have e3 := takeWhile_append_stop (p := isSpace) (s := List.replicate (k + 1) 32)
    (by intro c hc; rw [(List.mem_replicate.mp hc).2]; decide) (c := 59) (by decide) (32 :: (gcbValueName v ++ 32 :: rest))
  have e4 := takeWhile_append_stop (p := fun c => !isSpace c) (s := gcbValueName v) (by simpa using hv1) (c := 32) (by decide) rest
  rw [show hex4 a ++ [46, 46] ++ hex4 b ++ List.replicate (k + 1) 32 ++ [59, 32] ++ gcbValueName v ++ [32] ++ rest =
    hex4 a ++ 46 :: (46 :: (hex4 b ++ 32 :: (List.replicate k 32 ++ 59 :: 32 :: (gcbValueName v ++ 32 :: rest)))) by
    simp [List.replicate_succ]]
  rw [rangeParts, e1.1, e1.2]
  simp only []
  rw [e2.1, e2.2]
  rw [show (32 :: (List.replicate k 32 ++ 59 :: 32 :: (gcbValueName v ++ 32 :: rest))) =
    List.replicate (k + 1) 32 ++ 59 :: 32 :: (gcbValueName v ++ 32 :: rest) by simp [List.replicate_succ]]
  rw [e3.2]
  simp only []
  rw [e4.1, e4.2, hex_hex4, hex_hex4]
  have hh : isSpace ((List.replicate (k + 1) 32 ++ 59 :: 32 :: (gcbValueName v ++ 32 :: rest)).headD 0) = true := by
    rw [List.replicate_succ]; rfl
  rw [hh]
  simp [hex4_ne_nil, hv0, show isSpace 32 = true from rfl]

theorem singleToRange_range (a : Nat) (t : Str) : singleToRange (hex4 a ++ 46 :: t) = hex4 a ++ 46 :: t := by
  have e1 := takeWhile_append_stop (hex4_isUpperHex a) (c := 46) (by decide) t
  rw [singleToRange, e1.1, e1.2]
  cases h : hex4 a with
  | nil => exact absurd h (hex4_ne_nil a)
  | cons d ds => simp [show isSpace 46 = false from rfl]

theorem singleToRange_single (a : Nat) (t : Str) : singleToRange (hex4 a ++ 32 :: t) = hex4 a ++ [46, 46] ++ hex4 a ++ t := by
  have e1 := takeWhile_append_stop (hex4_isUpperHex a) (c := 32) (by decide) t
  rw [singleToRange, e1.1, e1.2]
  cases h : hex4 a with
  | nil => exact absurd h (hex4_ne_nil a)
  | cons d ds => simp [show isSpace 32 = true from rfl]

theorem rangeToRow_some {s : Str} {a b : Nat} {v : GCB} (h : rangeParts s = some (a, b, gcbValueName v)) :
    rangeToRow s = gcbRowText (a, b, v) := by
  rw [rangeToRow, h]
  simp [gcbRowText, (valueName_facts v).2.2, openBrace, join, commaSpace, closeBrace, enumPrefix]

theorem gcbEntry_row {l : Str} {r : Nat × Nat × GCB} (h : GcbEntry l r) :
    rangeToRow (singleToRange l) = gcbRowText r ∧ isUpperHex (l.headD 0) = true := by
  have hd : ∀ (a : Nat) (t : Str), isUpperHex ((hex4 a ++ t).headD 0) = true := by
    intro a t
    cases h : hex4 a with
    | nil => exact absurd h (hex4_ne_nil a)
    | cons d ds => exact hex4_isUpperHex a d (by rw [h]; simp)
  cases h with
  | @range a b v n rest hn =>
    constructor
    · have := rangeParts_entry a b v n hn rest
      rw [show hex4 a ++ [46, 46] ++ hex4 b ++ List.replicate n 32 ++ [59, 32] ++ gcbValueName v ++ [32] ++ rest =
        hex4 a ++ 46 :: (46 :: (hex4 b ++ List.replicate n 32 ++ [59, 32] ++ gcbValueName v ++ [32] ++ rest)) by simp] at this ⊢
      rw [singleToRange_range]
      exact rangeToRow_some this
    · simp only [List.append_assoc]; exact hd _ _
  | @single a v n rest hn =>
    obtain ⟨k, rfl⟩ : ∃ k, n = k + 1 := ⟨n - 1, by omega⟩
    constructor
    · have := rangeParts_entry a a v k (by omega) rest
      rw [show hex4 a ++ List.replicate (k + 1) 32 ++ [59, 32] ++ gcbValueName v ++ [32] ++ rest =
        hex4 a ++ 32 :: (List.replicate k 32 ++ [59, 32] ++ gcbValueName v ++ [32] ++ rest) by simp [List.replicate_succ]]
      rw [singleToRange_single]
      apply rangeToRow_some
      rw [← this]; simp
    · simp only [List.append_assoc]; exact hd _ _

theorem sortKey_row (r : Nat × Nat × GCB) : sortKey (gcbRowText r) = r.1 := by
  have hd : ∀ c ∈ dec r.1, isSpace c = false := by
    intro c hc
    have := dec_digit r.1 c hc
    simp [isSpace]; omega
  have e : ∃ t, gcbRowText r = 123 :: 32 :: (dec r.1 ++ 44 :: t) := by
    refine ⟨32 :: (dec r.2.1 ++ [44, 32] ++ enumPrefix ++ gcbEnumerator r.2.2 ++ [32, 125, 44]), ?_⟩
    simp [gcbRowText, enumPrefix]
  obtain ⟨t, ht⟩ := e
  have hh : (dec r.1 ++ 44 :: t).dropWhile isSpace = dec r.1 ++ 44 :: t := by
    cases h : dec r.1 with
    | nil => exact absurd h (dec_ne_nil _)
    | cons d ds =>
      have := hd d (by rw [h]; simp)
      simp [this]
  rw [ht, sortKey]
  rw [show List.dropWhile (fun c => !isSpace c) (123 :: 32 :: (dec r.1 ++ 44 :: t)) = 32 :: (dec r.1 ++ 44 :: t) from rfl]
  rw [show List.dropWhile isSpace (32 :: (dec r.1 ++ 44 :: t)) = List.dropWhile isSpace (dec r.1 ++ 44 :: t) from rfl]
  rw [hh, num, numFrom_append _ _ (dec_digit _)]
  have := num_dec r.1
  rw [num] at this
  rw [this]
  rfl

theorem lines_blank (s : Str) : lines ([10] ++ s) = [] :: lines s := by
  simpa using lines_cons (l := []) (by simp) s

theorem gcbLines {file : Str} {rows : List (Nat × Nat × GCB)} (h : GcbFile file rows) :
    ((lines file).filter (fun l => isUpperHex (l.headD 0))).map (fun l => rangeToRow (singleToRange l)) =
      rows.map gcbRowText := by
  induction h with
  | nil => rfl
  | blank _ ih => rw [lines_blank]; exact ih
  | @comment t s rows ht _ ih =>
    rw [show [35] ++ t ++ [10] ++ s = (35 :: t) ++ 10 :: s by simp, lines_cons (by simp [ht])]
    exact ih
  | @entry l r s rows he hl _ ih =>
    obtain ⟨h1, h2⟩ := gcbEntry_row he
    rw [show l ++ [10] ++ s = l ++ 10 :: s by simp, lines_cons hl, List.filter_cons, h2, if_pos rfl, List.map_cons,
      List.map_cons, h1, ih]

theorem gcbScript_eq {file : Str} {rows : List (Nat × Nat × GCB)} (h : GcbFile file rows) :
    gcbScript file = gcbHeaderText (genGcb rows) := by
  rw [gcbScript, gcbLines h, ← List.map_mergeSort (r := fun a b : Nat × Nat × GCB => decide (a.1 ≤ b.1))]
  · rw [gcbHeaderText, genGcb, List.flatMap_map]
  · intro a _ b _
    rw [sortKey_row, sortKey_row]

/-! ## CompositionExclusions.txt -/

theorem cutSpace_noSpace {s : Str} (h : ∀ c ∈ s, isSpace c = false) (t : Str) : cutSpace (s ++ t) = s ++ cutSpace t := by
  induction s with
  | nil => rfl
  | cons c s ih =>
    rw [List.cons_append, cutSpace, h c (by simp), ih (fun c hc => h c (by simp [hc]))]
    rfl

theorem exclEntry (x n : Nat) (t : Str) (hn : n ≠ 1) (ht : t = [] ∨ t.head? = some 35) :
    cutSpace ((hex4 x ++ List.replicate n 32 ++ t).takeWhile (· != 35)) = hex4 x := by
  have hx : ∀ c ∈ hex4 x ++ List.replicate n 32, (c != 35) = true := by
    intro c hc
    rcases List.mem_append.mp hc with hc | hc
    · have := hex4_isHex x c hc
      simp only [bne_iff_ne, ne_eq]; rintro rfl; simp [isHex, hexDigit?] at this
    · rw [(List.mem_replicate.mp hc).2]; rfl
  have htake : (hex4 x ++ List.replicate n 32 ++ t).takeWhile (· != 35) = hex4 x ++ List.replicate n 32 := by
    cases t with
    | nil => 
      rw [List.append_nil]
      have := List.takeWhile_append_of_pos (l₂ := []) hx
      simpa using this
    | cons c t =>
      have : c = 35 := by simpa using ht
      subst this
      exact (takeWhile_append_stop hx (by decide) t).1
  rw [htake, cutSpace_noSpace fun c hc => isSpace_of_isHex (hex4_isHex x c hc)]
  match n, hn with
  | 0, _ => rw [List.replicate_zero]; simp [cutSpace]
  | n + 2, _ => simp [List.replicate_succ, cutSpace, show isSpace 32 = true from rfl]

theorem exclReadT_eq {file : Str} {excl : List Nat} (h : ExclFile file excl) : exclReadT file = excl.map hex4 := by
  induction h with
  | nil => rfl
  | blank _ ih => rw [exclReadT, lines_blank]; exact ih
  | @comment t s excl ht _ ih =>
    rw [exclReadT, show [35] ++ t ++ [10] ++ s = (35 :: t) ++ 10 :: s by simp, lines_cons (by simp [ht])]
    exact ih
  | @entry x n t s excl hn ht ht' _ ih =>
    have h10 : 10 ∉ hex4 x ++ List.replicate n 32 ++ t := by
      intro h
      rcases List.mem_append.mp h with h | h
      · rcases List.mem_append.mp h with h | h
        · exact not_isHex_mem (by decide) x h
        · have := (List.mem_replicate.mp h).2; omega
      · exact ht h
    rw [exclReadT, show hex4 x ++ List.replicate n 32 ++ t ++ [10] ++ s = (hex4 x ++ List.replicate n 32 ++ t) ++ 10 :: s by simp,
      lines_cons h10, List.map_cons, exclEntry x n t hn ht', List.filter_cons]
    have hp : perlTrue (hex4 x) = true := by
      have := hex4_length x
      rw [perlTrue]
      have h1 : hex4 x ≠ [] := hex4_ne_nil x
      have h2 : hex4 x ≠ [48] := by intro h; rw [h] at this; simp at this
      simp [h1, h2]
    rw [hp, if_pos rfl, List.map_cons]
    congr 1

/-- With exactly one blank between the codepoint and the comment, the entry does not take effect. -/
theorem exclEntry_oneBlank (x : Nat) (t : Str) :
    cutSpace ((hex4 x ++ [32] ++ 35 :: t).takeWhile (· != 35)) = hex4 x ++ [32] := by
  have hx : ∀ c ∈ hex4 x ++ [32], (c != 35) = true := by
    intro c hc
    rcases List.mem_append.mp hc with hc | hc
    · have := hex4_isHex x c hc
      simp only [bne_iff_ne, ne_eq]; rintro rfl; simp [isHex, hexDigit?] at this
    · rw [List.mem_singleton.mp hc]; rfl
  rw [(takeWhile_append_stop hx (by decide) t).1, cutSpace_noSpace fun c hc => isSpace_of_isHex (hex4_isHex x c hc)]
  rfl

end U5e
