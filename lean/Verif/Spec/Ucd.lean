import Verif.Model.Ucd
import Verif.Data.Ucd
import Verif.Data.CompExcl
import Verif.Spec.Expand
import Verif.Spec.Uax15
/-! # Specification: what UnicodeData.txt says -/
namespace U5e.Spec
open U5e Data

/-- `file` is UnicodeData.txt as far as Data/Ucd.lean records it: one line per codepoint, and the lines with
a combining class or a decomposition are those of Data/Ucd.lean. (The other 24060 lines may be anything:
the generators ignore them, and the theorems hold whatever they are.) -/
structure IsUnicodeData (file : List UcdRow) : Prop where
  distinct : (file.map UcdRow.cp).Nodup
  relevant : file.filter (fun r => decide (r.ccc ≠ 0 ∨ r.decomp ≠ [])) = ucdRows

/-- The Decomposition_Mapping of UnicodeData.txt restricted to lines whose tag satisfies `tags`
(0 no tag = canonical, 1 `<compat>`, 2 any other tag such as `<font>`, `<noBreak>`, `<circle>`). -/
def mapping (tags : Nat → Bool) (k : Nat) : Option (List Nat) :=
  (ucdRows.find? (fun r => decide (r.cp = k) && (!r.decomp.isEmpty && tags r.tag))).map UcdRow.decomp

/-- Canonical mappings: lines without a tag. -/
def canonicalTag (t : Nat) : Bool := t == 0
/-- Canonical and `<compat>` mappings: what the compatibility table is generated from. -/
def compatTag (t : Nat) : Bool := t == 0 || t == 1
/-- Canonical and all compatibility mappings: what UAX #15 uses for NFKD and NFKC (D65). -/
def anyTag (_ : Nat) : Bool := true

/-- Canonical_Combining_Class of UnicodeData.txt (0 if there is no line). -/
def classOf (k : Nat) : Nat := ((ucdRows.find? (fun r => decide (r.cp = k))).map UcdRow.ccc).getD 0

/-- A codepoint whose line carries a compatibility tag other than `<compat>`: `<font>`, `<noBreak>`,
`<initial>`, `<medial>`, `<final>`, `<isolated>`, `<circle>`, `<super>`, `<sub>`, `<vertical>`, `<wide>`,
`<narrow>`, `<small>`, `<square>`, `<fraction>`. -/
def OtherTag (c : Int) : Prop := ∃ r ∈ ucdRows, c = r.cp ∧ 1 < r.tag

/-! ### The normalization forms, from UnicodeData.txt and CompositionExclusions.txt alone -/

/-- Canonical_Combining_Class of any `int`. -/
def ucdClass (c : Int) : Int := if 0 ≤ c then classOf c.toNat else 0

/-- `l` is the full decomposition of `c` (D65 with all tags, D68 with canonical mappings only), Hangul
syllables included. -/
def UcdFull (tags : Nat → Bool) (c : Int) (l : List Int) : Prop :=
  if IsHangulSyllable c then l = hangulDecomposition c
  else if c < 0 then l = [c]
  else ∃ m, Expands (mapping tags) [c.toNat] m ∧ l = m.map Int.ofNat

/-- Primary composites other than Hangul syllables (D114): `c` is a starter with the canonical mapping
`a b`, `a` is a starter, and `c` is not in CompositionExclusions.txt. -/
def primaryComposite (a b : Int) : Option Int :=
  if a < 0 ∨ b < 0 then none
  else (ucdRows.find? (fun r => decide (r.tag = 0 ∧ r.decomp = [a.toNat, b.toNat] ∧ r.ccc = 0 ∧
    classOf a.toNat = 0 ∧ r.cp ∉ exclRows))).map (fun r => Int.ofNat r.cp)

/-- The full decomposition of a text: the full decompositions of its codepoints one after the other. -/
inductive UcdDecomposition (tags : Nat → Bool) : List Int → List Int → Prop
  | nil : UcdDecomposition tags [] []
  | cons {c cs l l'} : UcdFull tags c l → UcdDecomposition tags cs l' → UcdDecomposition tags (c :: cs) (l ++ l')

/-- `d` is the Normalization Form D (`canonicalTag`) or KD (`anyTag`) of `cs`. -/
def IsUcdD (tags : Nat → Bool) (cs d : List Int) : Prop :=
  ∃ l, UcdDecomposition tags cs l ∧ IsCanonicalOrder ucdClass l d

/-- `n` is the Normalization Form C (`canonicalTag`) or KC (`anyTag`) of `cs`. -/
def IsUcdC (tags : Nat → Bool) (cs n : List Int) : Prop :=
  ∃ d, IsUcdD tags cs d ∧ n = uaxCompose ucdClass (uaxComp primaryComposite) d

end U5e.Spec
