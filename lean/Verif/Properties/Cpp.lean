import Verif.Properties.Script
import Verif.Spec.CppText
/-!
# C41: the tables of the model are what a C++ compiler reads in the headers
-/
namespace U5e
open Spec Data

theorem lex_word (a : Text) (ha : ∀ c ∈ a, isWord c = true) (w s : Text) : lex w (a ++ s) = lex (w ++ a) s := by
  induction a generalizing w with
  | nil => simp
  | cons c a ih =>
    rw [List.cons_append, lex, if_pos (ha c (by simp)), ih (fun x hx => ha x (by simp [hx]))]
    simp

theorem lex_punct (w : Text) (c : Nat) (s : Text) (h : isWord c = false) :
    lex w (c :: s) = flush w ++ punct c ++ lex [] s := by rw [lex, h]; simp

theorem dec_word (n : Nat) : ∀ c ∈ dec n, isWord c = true := by
  intro c hc
  have := dec_digit n c hc
  simp [isWord, this]

theorem dec_foldl (n : Nat) : (dec n).foldl (fun n c => n * 10 + (c - 48)) 0 = n := by
  induction n using dec.induct with
  | case1 n h => rw [dec, if_pos h]; simp
  | case2 n h ih =>
    rw [dec, if_neg h, List.foldl_append, ih]
    simp; omega

theorem dec_head (n : Nat) : (dec n).head? = some 48 → n = 0 := by
  induction n using dec.induct with
  | case1 n h => rw [dec, if_pos h]; simp
  | case2 n h ih =>
    rw [dec, if_neg h, List.head?_append]
    obtain ⟨a, l, hal⟩ := List.exists_cons_of_ne_nil (dec_ne_nil (n / 10))
    rw [hal] at ih ⊢
    simp only [List.head?_cons, Option.some_or]
    intro h'
    have := ih h'
    omega

theorem intLiteral_dec (n : Nat) : intLiteral (dec n) = some n := by
  rw [intLiteral, dec_foldl, if_neg]
  rintro (h | h | ⟨h, hl⟩)
  · exact dec_ne_nil n h
  · obtain ⟨c, hc, h⟩ := List.any_eq_true.mp h
    have := dec_digit n c hc
    simp at h; omega
  · have := dec_head n h
    subst this
    exact hl (by rw [dec]; rfl)

theorem flush_ne {w : Text} (h : w ≠ []) : flush w = [.word w] := by rw [flush, if_neg h]

/-- The tokens of the numbers of a row. -/
def rowToks : List Nat → List Tok
  | [] => []
  | [n] => [.word (dec n)]
  | n :: m :: ns => .word (dec n) :: .comma :: rowToks (m :: ns)

theorem lex_numbers (ns : List Nat) (s : Text) :
    lex [] (join [44, 32] (ns.map dec) ++ 32 :: s) = rowToks ns ++ lex [] s := by
  induction ns with
  | nil => simp [join, rowToks, lex_punct _ 32 _ (by decide), flush, punct]
  | cons n ns ih =>
    cases ns with
    | nil =>
      rw [List.map_cons, List.map_nil, join, lex_word _ (dec_word n), List.nil_append, lex_punct _ _ _ (by decide),
        flush_ne (dec_ne_nil n)]
      simp [rowToks, punct]
    | cons m ns =>
      rw [List.map_cons, List.map_cons, join, List.append_assoc, List.append_assoc, lex_word _ (dec_word n), List.nil_append]
      rw [List.cons_append, lex_punct _ 44 _ (by decide), flush_ne (dec_ne_nil n)]
      rw [show [32] ++ (join [44, 32] (dec m :: ns.map dec) ++ 32 :: s) = 32 :: (join [44, 32] (dec m :: ns.map dec) ++ 32 :: s)
        from rfl, lex_punct _ 32 _ (by decide), ← List.map_cons, ih]
      simp [rowToks, punct, flush]

theorem lex_row (ns : List Nat) (s : Text) :
    lex [] (rowText ns ++ s) = .open_ :: rowToks ns ++ .close :: lex [] s := by
  have e : rowText ns ++ s = 123 :: 32 :: (join [44, 32] (ns.map dec) ++ 32 :: (125 :: s)) := by
    simp [rowText]
  rw [e, lex_punct _ _ _ (by decide), lex_punct _ 32 _ (by decide), lex_numbers, lex_punct _ 125 _ (by decide)]
  simp [flush, punct]

theorem read_numbers (ns : List Nat) (rows : List (List Expr)) (es : List Expr) (ts : List Tok) :
    readRows rows (.inside es false) (rowToks ns ++ .close :: ts) =
      readRows (rows ++ [es ++ ns.map fun n => [dec n]]) (.outside true) ts := by
  induction ns generalizing es with
  | nil => simp [rowToks, readRows]
  | cons n ns ih =>
    cases ns with
    | nil => simp [rowToks, readRows]
    | cons m ns =>
      rw [rowToks, List.cons_append, List.cons_append, readRows, readRows, ih]
      simp

theorem read_row (ns : List Nat) (rows : List (List Expr)) (s : Text) :
    readRows rows (.outside false) (lex [] (rowText ns ++ s)) =
      readRows (rows ++ [ns.map fun n => [dec n]]) (.outside true) (lex [] s) := by
  rw [lex_row, List.cons_append, readRows, read_numbers]; simp

theorem read_header (rows : List (List Nat)) (done : List (List Expr)) :
    readRows done (.outside false) (lex [] (headerText rows)) =
      some (done ++ rows.map fun ns => ns.map fun n => [dec n]) := by
  induction rows generalizing done with
  | nil => simp [headerText, join, lex, flush, readRows]
  | cons r rows ih =>
    cases rows with
    | nil =>
      rw [headerText, List.map_cons, List.map_nil, join]
      have := read_row r done []
      rw [List.append_nil] at this
      rw [this]; simp [lex, flush, readRows]
    | cons r' rows =>
      rw [headerText, List.map_cons, List.map_cons, join, List.append_assoc, read_row]
      rw [List.cons_append, lex_punct _ 44 _ (by decide), List.singleton_append, lex_punct _ 10 _ (by decide)]
      have := ih (done ++ [r.map fun n => [dec n]])
      rw [headerText, List.map_cons] at this
      rw [show flush [] ++ punct 44 ++ (flush [] ++ punct 10 ++ lex [] (join [44, 10] (rowText r' :: List.map rowText rows)))
        = .comma :: lex [] (join [44, 10] (rowText r' :: List.map rowText rows)) from rfl, readRows, this]
      simp

theorem mapM_map_some {α β γ : Type} (f : α → β) (g : β → Option γ) (h : α → γ) (l : List α)
    (hfg : ∀ a ∈ l, g (f a) = some (h a)) : (l.map f).mapM g = some (l.map h) := by
  induction l with
  | nil => rfl
  | cons a l ih =>
    rw [List.map_cons, List.mapM_cons, hfg a (by simp), ih (fun b hb => hfg b (by simp [hb]))]
    rfl

/-- C41: what C++ reads in a generated header is the table the generator wrote, whatever the table. -/
theorem C41_reader_inverts_generator (rows : List (List Nat)) : cppInts (headerText rows) = some rows := by
  rw [cppInts, read_header]
  simp only [List.nil_append, Option.bind_eq_bind, Option.bind_some]
  rw [mapM_map_some _ _ id rows]
  · simp
  · intro r _
    rw [mapM_map_some (fun n => [dec n]) intOf id r (fun n _ => intLiteral_dec n)]
    simp

theorem enum_word (v : GCB) : ∀ c ∈ gcbEnumerator v, isWord c = true := by cases v <;> decide
theorem enum_ne (v : GCB) : gcbEnumerator v ≠ [] := by cases v <;> decide
theorem enum_lookup (v : GCB) : enumerators.lookup (gcbEnumerator v) = some v := by cases v <;> decide +kernel

/-- The expressions of a row of the array `ranges`. -/
def rangeExprs (r : Nat × Nat × GCB) : List Expr :=
  [[dec r.1], [dec r.2.1], [ascii "grapheme_cluster_break", ascii "prop_value_type", gcbEnumerator r.2.2]]

theorem lex_range (r : Nat × Nat × GCB) (s : Text) : lex [] (gcbRowText r ++ [10] ++ s) =
    [.open_, .word (dec r.1), .comma, .word (dec r.2.1), .comma, .word (ascii "grapheme_cluster_break"), .colon, .colon,
      .word (ascii "prop_value_type"), .colon, .colon, .word (gcbEnumerator r.2.2), .close, .comma] ++ lex [] s := by
  have e : gcbRowText r ++ [10] ++ s = 123 :: 32 :: (dec r.1 ++ 44 :: 32 :: (dec r.2.1 ++ 44 :: 32 ::
      (ascii "grapheme_cluster_break" ++ 58 :: 58 :: (ascii "prop_value_type" ++ 58 :: 58 ::
        (gcbEnumerator r.2.2 ++ 32 :: 125 :: 44 :: 10 :: s))))) := by
    have h1 : ascii "grapheme_cluster_break" = [103, 114, 97, 112, 104, 101, 109, 101, 95, 99, 108, 117, 115, 116, 101, 114, 95, 98, 114, 101, 97, 107] := by decide +kernel
    have h2 : ascii "prop_value_type" = [112, 114, 111, 112, 95, 118, 97, 108, 117, 101, 95, 116, 121, 112, 101] := by decide +kernel
    rw [h1, h2]
    simp [gcbRowText]
  have hw1 : ∀ c ∈ ascii "grapheme_cluster_break", isWord c = true := by decide +kernel
  have hw2 : ∀ c ∈ ascii "prop_value_type", isWord c = true := by decide +kernel
  have hn1 : ascii "grapheme_cluster_break" ≠ [] := by decide +kernel
  have hn2 : ascii "prop_value_type" ≠ [] := by decide +kernel
  rw [e]
  rw [lex_punct _ 123 _ (by decide), lex_punct _ 32 _ (by decide), lex_word _ (dec_word _), List.nil_append,
    lex_punct _ 44 _ (by decide), flush_ne (dec_ne_nil _), lex_punct _ 32 _ (by decide), lex_word _ (dec_word _), List.nil_append,
    lex_punct _ 44 _ (by decide), flush_ne (dec_ne_nil _), lex_punct _ 32 _ (by decide), lex_word _ hw1, List.nil_append,
    lex_punct _ 58 _ (by decide), flush_ne hn1, lex_punct _ 58 _ (by decide), lex_word _ hw2, List.nil_append,
    lex_punct _ 58 _ (by decide), flush_ne hn2, lex_punct _ 58 _ (by decide), lex_word _ (enum_word _), List.nil_append,
    lex_punct _ 32 _ (by decide), flush_ne (enum_ne _), lex_punct _ 125 _ (by decide), lex_punct _ 44 _ (by decide),
    lex_punct _ 10 _ (by decide)]
  simp [flush, punct]

theorem read_ranges (rows : List (Nat × Nat × GCB)) (done : List (List Expr)) :
    readRows done (.outside false) (lex [] (gcbHeaderText rows)) = some (done ++ rows.map rangeExprs) := by
  induction rows generalizing done with
  | nil => simp [gcbHeaderText, lex, flush, readRows]
  | cons r rows ih =>
    rw [gcbHeaderText, List.flatMap_cons, lex_range]
    simp only [List.cons_append, List.nil_append, readRows]
    have := ih (done ++ [rangeExprs r])
    rw [gcbHeaderText] at this
    simp only [continue_, List.nil_append, List.cons_append, List.dropLast_cons_cons, List.dropLast_singleton,
      List.getLastD_cons, List.getLastD_nil]
    rw [show [[dec r.1], [dec r.2.1], [ascii "grapheme_cluster_break", ascii "prop_value_type", gcbEnumerator r.2.2]] =
      rangeExprs r from rfl, this]
    simp

/-- C41: what C++ reads in a generated grapheme_cluster_break_data.hpp. -/
theorem C41_reader_inverts_generator_ranges (rows : List (Nat × Nat × GCB)) :
    cppRanges (gcbHeaderText rows) = some rows := by
  rw [cppRanges, read_ranges]
  simp only [List.nil_append, Option.bind_eq_bind, Option.bind_some]
  rw [mapM_map_some _ _ id rows]
  · simp
  · intro r _
    simp only [rangeExprs, rangeOf, intOf, intLiteral_dec, enumOf, enum_lookup]
    rfl

/-- C41: a C++ compiler reads the tables of the model in the checked-in headers. -/
theorem C41_compiler_reads_tables : cppInts combiningClassHpp = some cccTable ∧
    cppInts canonicalDecompositionHpp = some decTable ∧ cppInts compatibilityDecompositionHpp = some kdecTable ∧
    cppInts compositionHpp = some compTable ∧ cppRanges graphemeClusterBreakHpp = some gcbTable := by
  obtain ⟨h1, h2, h3, h4, h5⟩ := C41_headers_are_tables
  rw [h1, h2, h3, h4, h5]
  exact ⟨C41_reader_inverts_generator _, C41_reader_inverts_generator _, C41_reader_inverts_generator _,
    C41_reader_inverts_generator _, C41_reader_inverts_generator_ranges _⟩

/-- The reader accepts other layouts and refuses what C++ would read differently. -/
example : cppInts (ascii "{1,2,},\n\t{ 30 , 0 } ,") = some [[1, 2], [30, 0]] ∧ cppInts (ascii "{ 010 }") = none ∧
    cppInts (ascii "{ 1 } { 2 }") = none ∧ cppInts (ascii "{ 1 2 }") = none ∧ cppInts (ascii "{ 1, , 2 }") = none ∧
    cppRanges (ascii "{ 1, 2, grapheme_cluster_break::prop_value_type::LV },") = some [(1, 2, .LV)] ∧
    cppRanges (ascii "{ 1, 2, grapheme_cluster_break::prop_value_type::LVX },") = none := by decide +kernel

end U5e
