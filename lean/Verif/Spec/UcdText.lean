import Verif.Model.Script
/-!
# Specification: the text format of the UCD files and of the generated headers

How a line of UnicodeData.txt shows its fields, and how a row of a table is written in a `*_data.hpp` file.
-/
namespace U5e.Spec
open U5e

/-- Hexadecimal digit, upper case. -/
def hexChar (d : Nat) : Nat := if d < 10 then 48 + d else 55 + d

/-- `n` in hexadecimal with at least `k` digits (at least one). -/
def hexPad (k n : Nat) : Str :=
  if n < 16 ∧ k ≤ 1 then [hexChar n] else hexPad (k - 1) (n / 16) ++ [hexChar (n % 16)]
termination_by n + k
decreasing_by omega

/-- How the UCD writes a codepoint: upper-case hexadecimal, at least four digits (`printf "%04X"`). -/
def hex4 (n : Nat) : Str := hexPad 4 n

/-- The entries of a decomposition field: codepoints separated by single spaces. -/
def entriesText (l : List Nat) : Str := join [32] (l.map hex4)

/-- Field 5 of UnicodeData.txt: the entries, after `<compat> ` (tag 1) or another `<tag> ` (tag 2). -/
inductive DecompText : UcdRow → Str → Prop
  | canonical {r} : r.tag = 0 → DecompText r (entriesText r.decomp)
  | compat {r} : r.tag = 1 → r.decomp ≠ [] → DecompText r (compatPrefix ++ entriesText r.decomp)
  | other {r t} : r.tag = 2 → r.decomp ≠ [] → 62 ∉ t → t ≠ [99, 111, 109, 112, 97, 116] →
      DecompText r ([60] ++ t ++ [62, 32] ++ entriesText r.decomp)

/-- `line` is a line of UnicodeData.txt with the content `r`: fields separated by semicolons, field 0 the
codepoint, field 3 the combining class in decimal, field 5 the decomposition; anything in the others. -/
def RowText (line : Str) (r : UcdRow) : Prop :=
  ∃ name category bidi decomp rest, 59 ∉ name ∧ 59 ∉ category ∧ 59 ∉ bidi ∧ 59 ∉ decomp ∧ DecompText r decomp ∧
    line = hex4 r.cp ++ [59] ++ name ++ [59] ++ category ++ [59] ++ dec r.ccc ++ [59] ++ bidi ++ [59] ++ decomp ++
      [59] ++ rest

/-- `file` is the text of a file with the lines `rs`, each ended by a newline. -/
inductive FileText : Str → List UcdRow → Prop
  | nil : FileText [] []
  | cons {l r s rs} : RowText l r → 10 ∉ l → FileText s rs → FileText (l ++ [10] ++ s) (r :: rs)

/-- A row of numbers as C++ text: `{ 192, 65, 768, 0 }`. -/
def rowText (row : List Nat) : Str := [123, 32] ++ join [44, 32] (row.map dec) ++ [32, 125]

/-- A generated header: the rows separated by a comma and a newline. -/
def headerText (rows : List (List Nat)) : Str := join [44, 10] (rows.map rowText)

/-! ## GraphemeBreakProperty.txt -/

/-- The name of a Grapheme_Cluster_Break value in GraphemeBreakProperty.txt. -/
def gcbValueName : GCB → Str
  | .OTHER => [79, 116, 104, 101, 114] -- Other
  | .PREPEND => [80, 114, 101, 112, 101, 110, 100] -- Prepend
  | .CR => [67, 82] -- CR
  | .LF => [76, 70] -- LF
  | .CONTROL => [67, 111, 110, 116, 114, 111, 108] -- Control
  | .EXTEND => [69, 120, 116, 101, 110, 100] -- Extend
  | .REGIONAL_INDICATOR => [82, 101, 103, 105, 111, 110, 97, 108, 95, 73, 110, 100, 105, 99, 97, 116, 111, 114] -- Regional_Indicator
  | .SPACINGMARK => [83, 112, 97, 99, 105, 110, 103, 77, 97, 114, 107] -- SpacingMark
  | .L => [76] -- L
  | .V => [86] -- V
  | .T => [84] -- T
  | .LV => [76, 86] -- LV
  | .LVT => [76, 86, 84] -- LVT
  | .E_BASE => [69, 95, 66, 97, 115, 101] -- E_Base
  | .E_MODIFIER => [69, 95, 77, 111, 100, 105, 102, 105, 101, 114] -- E_Modifier
  | .ZWJ => [90, 87, 74] -- ZWJ
  | .GLUE_AFTER_ZWJ => [71, 108, 117, 101, 95, 65, 102, 116, 101, 114, 95, 90, 119, 106] -- Glue_After_Zwj
  | .E_BASE_GAZ => [69, 95, 66, 97, 115, 101, 95, 71, 65, 90] -- E_Base_GAZ

/-- The name of the enumerator of include/u5e/props/grapheme_cluster_break.hpp:20-39. -/
def gcbEnumerator : GCB → Str
  | .OTHER => [79, 84, 72, 69, 82] -- OTHER
  | .PREPEND => [80, 82, 69, 80, 69, 78, 68] -- PREPEND
  | .CR => [67, 82] -- CR
  | .LF => [76, 70] -- LF
  | .CONTROL => [67, 79, 78, 84, 82, 79, 76] -- CONTROL
  | .EXTEND => [69, 88, 84, 69, 78, 68] -- EXTEND
  | .REGIONAL_INDICATOR => [82, 69, 71, 73, 79, 78, 65, 76, 95, 73, 78, 68, 73, 67, 65, 84, 79, 82] -- REGIONAL_INDICATOR
  | .SPACINGMARK => [83, 80, 65, 67, 73, 78, 71, 77, 65, 82, 75] -- SPACINGMARK
  | .L => [76] -- L
  | .V => [86] -- V
  | .T => [84] -- T
  | .LV => [76, 86] -- LV
  | .LVT => [76, 86, 84] -- LVT
  | .E_BASE => [69, 95, 66, 65, 83, 69] -- E_BASE
  | .E_MODIFIER => [69, 95, 77, 79, 68, 73, 70, 73, 69, 82] -- E_MODIFIER
  | .ZWJ => [90, 87, 74] -- ZWJ
  | .GLUE_AFTER_ZWJ => [71, 76, 85, 69, 95, 65, 70, 84, 69, 82, 95, 90, 87, 74] -- GLUE_AFTER_ZWJ
  | .E_BASE_GAZ => [69, 95, 66, 65, 83, 69, 95, 71, 65, 90] -- E_BASE_GAZ

/-- `line` is an entry of GraphemeBreakProperty.txt: `0600..0605    ; Prepend # …` or, for a single codepoint,
`06DD          ; Prepend # …`. -/
inductive GcbEntry : Str → Nat × Nat × GCB → Prop
  | range {a b v n rest} : 1 ≤ n →
      GcbEntry (hex4 a ++ [46, 46] ++ hex4 b ++ List.replicate n 32 ++ [59, 32] ++ gcbValueName v ++ [32] ++ rest)
        (a, b, v)
  | single {a v n rest} : 2 ≤ n →
      GcbEntry (hex4 a ++ List.replicate n 32 ++ [59, 32] ++ gcbValueName v ++ [32] ++ rest) (a, a, v)

/-- `file` is the text of a GraphemeBreakProperty.txt with the entries `rows`; the other lines are empty or
start with `#`. -/
inductive GcbFile : Str → List (Nat × Nat × GCB) → Prop
  | nil : GcbFile [] []
  | blank {s rows} : GcbFile s rows → GcbFile ([10] ++ s) rows
  | comment {t s rows} : 10 ∉ t → GcbFile s rows → GcbFile ([35] ++ t ++ [10] ++ s) rows
  | entry {l r s rows} : GcbEntry l r → 10 ∉ l → GcbFile s rows → GcbFile (l ++ [10] ++ s) (r :: rows)

/-- A row of the header: `{ 1536, 1541, grapheme_cluster_break::prop_value_type::PREPEND },`. -/
def gcbRowText (r : Nat × Nat × GCB) : Str :=
  [123, 32] ++ dec r.1 ++ [44, 32] ++ dec r.2.1 ++ [44, 32] ++ [103, 114, 97, 112, 104, 101, 109, 101, 95, 99, 108, 117, 115, 116, 101, 114, 95, 98, 114, 101, 97, 107, 58, 58,
    112, 114, 111, 112, 95, 118, 97, 108, 117, 101, 95, 116, 121, 112, 101, 58, 58] ++
    gcbEnumerator r.2.2 ++ [32, 125, 44]

/-- grapheme_cluster_break_data.hpp: the rows, each on a line. -/
def gcbHeaderText (rows : List (Nat × Nat × GCB)) : Str := rows.flatMap (fun r => gcbRowText r ++ [10])

/-! ## CompositionExclusions.txt -/

/-- `file` is the text of a CompositionExclusions.txt that lists the codepoints `excl`: every line is empty, starts
with `#`, or is a codepoint, blanks (none, or two or more) and possibly a comment. -/
inductive ExclFile : Str → List Nat → Prop
  | nil : ExclFile [] []
  | blank {s excl} : ExclFile s excl → ExclFile ([10] ++ s) excl
  | comment {t s excl} : 10 ∉ t → ExclFile s excl → ExclFile ([35] ++ t ++ [10] ++ s) excl
  | entry {x n t s excl} : n ≠ 1 → 10 ∉ t → (t = [] ∨ t.head? = some 35) → ExclFile s excl →
      ExclFile (hex4 x ++ List.replicate n 32 ++ t ++ [10] ++ s) (x :: excl)

end U5e.Spec
