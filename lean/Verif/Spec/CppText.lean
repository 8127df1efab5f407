import Verif.Model.GcbEnum
/-!
# Specification: how C++ reads a braced list

Lexical elements and the grammar of a (nested) braced initializer list, as far as the `*_data.hpp` files use
them: words, braces, commas and `::`, white space without meaning, trailing commas allowed. A number that starts with
`0` and goes on is octal in C++; this reader refuses it.
-/
namespace U5e.Spec

/-- Text as character codes. -/
abbrev Text := List Nat

/-- ASCII text. -/
def ascii (s : String) : Text := s.toList.map Char.toNat

/-- The tokens. -/
inductive Tok where
  | word (w : Text)
  | open_ | close | comma | colon
  /-- A character none of the files has. -/
  | bad
  deriving DecidableEq, Repr

/-- Letters, digits and the underscore. -/
def isWord (c : Nat) : Bool :=
  (48 ≤ c && c ≤ 57) || (65 ≤ c && c ≤ 90) || c == 95 || (97 ≤ c && c ≤ 122)

/-- A finished word. -/
def flush (w : Text) : List Tok := if w = [] then [] else [.word w]

/-- A character that is not part of a word. -/
def punct (c : Nat) : List Tok :=
  if c = 123 then [.open_] else if c = 125 then [.close] else if c = 44 then [.comma] else if c = 58 then [.colon]
  else if c = 32 ∨ c = 9 ∨ c = 10 ∨ c = 13 then [] else [.bad]

/-- The tokens of a text; `w` is the word being read. -/
def lex (w : Text) : Text → List Tok
  | [] => flush w
  | c :: s => if isWord c then lex (w ++ [c]) s else flush w ++ punct c ++ lex [] s

/-- An expression in the list: words separated by `::`. -/
abbrev Expr := List Text

/-- Where the reader is. -/
inductive Place where
  /-- Between rows; `true`: a row has just ended, so a comma has to come before the next. -/
  | outside (after : Bool)
  /-- In a row with the complete expressions `es`; `true`: the last one may be over, a comma or `::` may follow. -/
  | inside (es : List Expr) (after : Bool)
  /-- After one (`false`) or two (`true`) colons that continue the last expression. -/
  | scope (es : List Expr) (two : Bool)

/-- The last expression continued by a word. -/
def continue_ (es : List Expr) (w : Text) : List Expr := es.dropLast ++ [es.getLastD [] ++ [w]]

/-- Reads the rest of a list of rows, having read `rows`. -/
def readRows (rows : List (List Expr)) : Place → List Tok → Option (List (List Expr))
  | .outside _, [] => some rows
  | .outside false, .open_ :: ts => readRows rows (.inside [] false) ts
  | .outside true, .comma :: ts => readRows rows (.outside false) ts
  | .inside es false, .word w :: ts => readRows rows (.inside (es ++ [[w]]) true) ts
  | .inside es true, .comma :: ts => readRows rows (.inside es false) ts
  | .inside es _, .close :: ts => readRows (rows ++ [es]) (.outside true) ts
  | .inside es true, .colon :: ts => readRows rows (.scope es false) ts
  | .scope es false, .colon :: ts => readRows rows (.scope es true) ts
  | .scope es true, .word w :: ts => readRows rows (.inside (continue_ es w) true) ts
  | _, _ => none

/-- A decimal literal: `0`, or digits of which the first is not `0`. -/
def intLiteral (w : Text) : Option Nat :=
  if w = [] ∨ w.any (fun c => c < 48 || 57 < c) ∨ (w.head? = some 48 ∧ w.length ≠ 1) then none
  else some (w.foldl (fun n c => n * 10 + (c - 48)) 0)

/-- An expression that is an `int`. -/
def intOf : Expr → Option Nat
  | [w] => intLiteral w
  | _ => none

/-- What `std::initializer_list<std::initializer_list<int>> data = { text };` contains. -/
def cppInts (text : Text) : Option (List (List Nat)) := do
  let rows ← readRows [] (.outside false) (lex [] text)
  rows.mapM fun r => r.mapM intOf

/-- The enumerators of include/u5e/props/grapheme_cluster_break.hpp:20-39 by name. -/
def enumerators : List (Text × GCB) :=
  [(ascii "OTHER", .OTHER), (ascii "PREPEND", .PREPEND), (ascii "CR", .CR), (ascii "LF", .LF),
   (ascii "CONTROL", .CONTROL), (ascii "EXTEND", .EXTEND), (ascii "REGIONAL_INDICATOR", .REGIONAL_INDICATOR),
   (ascii "SPACINGMARK", .SPACINGMARK), (ascii "L", .L), (ascii "V", .V), (ascii "T", .T), (ascii "LV", .LV),
   (ascii "LVT", .LVT), (ascii "E_BASE", .E_BASE), (ascii "E_MODIFIER", .E_MODIFIER), (ascii "ZWJ", .ZWJ),
   (ascii "GLUE_AFTER_ZWJ", .GLUE_AFTER_ZWJ), (ascii "E_BASE_GAZ", .E_BASE_GAZ)]

/-- An expression that names an enumerator of `grapheme_cluster_break::prop_value_type`. -/
def enumOf : Expr → Option GCB
  | [a, b, c] => if a = ascii "grapheme_cluster_break" ∧ b = ascii "prop_value_type" then enumerators.lookup c else none
  | _ => none

/-- A row of the array `ranges` (src/u5e/props/grapheme_cluster_break.cpp:7-11). -/
def rangeOf : List Expr → Option (Nat × Nat × GCB)
  | [a, b, c] => do
    let x ← intOf a
    let y ← intOf b
    let v ← enumOf c
    pure (x, y, v)
  | _ => none

/-- What `range_data ranges[] = { text };` contains. -/
def cppRanges (text : Text) : Option (List (Nat × Nat × GCB)) := do
  let rows ← readRows [] (.outside false) (lex [] text)
  rows.mapM rangeOf

end U5e.Spec
