import Verif.Model.History
import Verif.Spec.Grapheme
import Verif.Spec.Normal
import Verif.Spec.Encoder
import Verif.Spec.Utf8
/-!
# What a program over strings should do

Strings are plain sequences of codepoints (`List Nat`). Nothing here mentions iterators, and octets only count in
`Allowed` (a codepoint is overwritten by one of the same size); only the names of the operations (`Op`) and of the
observations (`Obs`) are those of the model.
-/
namespace U5e.Spec

/-- No pair of neighbours of these classes may be kept together: a break. The class look-up is a parameter. -/
def BreaksBy (gcb : Int → GCB) (a b : Int) : Prop := ¬ NoBreakPair (gcb a) (gcb b)

/-- Unicode data and the sort a program works with: break classes, the two decomposition mappings, the
composition of pairs and the order of marks. -/
structure Ucd where
  gcb : Int → GCB
  canonical : Int → Option (List Int)
  compatibility : Int → Option (List Int)
  composition : Int → Int → Option Int
  sortMarks : List Int → List Int

/-- One grapheme in a normalization form: fully decomposed, marks sorted, and for C and KC composed again. -/
def Ucd.normal (U : Ucd) : Form → List Int → List Int
  | .D, g => U.sortMarks (decompose U.canonical g)
  | .KD, g => U.sortMarks (decompose U.compatibility g)
  | .C, g => compose U.composition (U.sortMarks (decompose U.canonical g))
  | .KC, g => compose U.composition (U.sortMarks (decompose U.compatibility g))

/-- A sequence of codepoints as the integers programs see. -/
abbrev ints (cs : List Nat) : List Int := cs.map Int.ofNat

/-- The graphemes of a sequence of codepoints. -/
def Ucd.Graphemes (U : Ucd) (cs : List Nat) (gs : List (List Nat)) : Prop :=
  IsSegmentation (BreaksBy U.gcb) (ints cs) (gs.map ints)

/-- The strings `σ` with string number `d` replaced. -/
def put (σ : Nat → List Nat) (d : Nat) (cs : List Nat) : Nat → List Nat := fun k => if k = d then cs else σ k

/-- `σ` becomes `σ'` and `o` is observed. -/
def Ucd.Ideal (U : Ucd) (σ : Nat → List Nat) : Op → (Nat → List Nat) → Obs → Prop
  | .copy d s, σ', o => σ' = put σ d (σ s) ∧ o = .none
  | .clear d, σ', o => σ' = put σ d [] ∧ o = .none
  | .appendRange d s i j, σ', o => σ' = put σ d (σ d ++ ((σ s).take j).drop i) ∧ o = .none
  | .appendCps d v, σ', o => (∃ cs, v = ints cs ∧ σ' = put σ d (σ d ++ cs)) ∧ o = .none
  | .appendGraphemes d s i j, σ', o =>
    (∃ gs, U.Graphemes (σ s) gs ∧ σ' = put σ d (σ d ++ ((gs.take j).drop i).flatten)) ∧ o = .none
  | .normalize F d s, σ', o =>
    ∃ gs ns, U.Graphemes (σ s) gs ∧ ints ns = gs.flatMap (fun g => U.normal F (ints g)) ∧
      σ' = put σ d (σ d ++ ns) ∧ o = .number ns.length
  | .write s i c, σ', o => (∃ n : Nat, c = n ∧ σ' = put σ s ((σ s).set i n)) ∧ o = .none
  | .transform s f, σ', o => (∃ cs, ints cs = (ints (σ s)).map f ∧ σ' = put σ s cs) ∧ o = .none
  | .read s, σ', o => σ' = σ ∧ o = .codepoints (ints (σ s))
  | .readBack s, σ', o => σ' = σ ∧ o = .codepoints (ints (σ s)).reverse
  | .readGraphemes s, σ', o => σ' = σ ∧ ∃ gs, U.Graphemes (σ s) gs ∧ o = .graphemes (gs.map ints)
  | .equal s t, σ', o => σ' = σ ∧ o = .bool (decide (σ s = σ t))
  | .less s t, σ', o => σ' = σ ∧ o = .bool (decide (σ s < σ t))
  | .countIf s pred, σ', o => σ' = σ ∧ o = .number ((σ s).countP fun c => pred (Int.ofNat c))

/-- The operations a program may use. The restrictions: a string is not normalized into itself; ranges
inside the string; codepoints are overwritten by codepoints of the same encoded size; only codepoints the UTF-8 encoder gets right are written
(`Encodable`, C10); only 7-bit text is copied by graphemes (C39); counts fit an `int`. -/
def Ucd.Allowed (U : Ucd) (σ : Nat → List Nat) : Op → Prop
  | .copy _ _ | .clear _ | .read _ | .readBack _ | .equal _ _ | .less _ _ => True
  | .appendRange _ s i j => i ≤ j ∧ j ≤ (σ s).length
  | .appendCps _ v => ∃ cs, v = ints cs ∧ ∀ c ∈ cs, Encodable c
  | .appendGraphemes _ s i j => ∃ gs, U.Graphemes (σ s) gs ∧ i ≤ j ∧ j ≤ gs.length ∧
      ∀ g ∈ (gs.take j).drop i, ∀ c ∈ g, c < 0x80
  | .normalize F d s => d ≠ s ∧
      (match F with
        | .D | .C => (decompose U.canonical (ints (σ s))).length < 2 ^ 31
        | .KD | .KC => (decompose U.compatibility (ints (σ s))).length < 2 ^ 31) ∧
      ∀ gs, U.Graphemes (σ s) gs → ∀ g ∈ gs, ∀ x ∈ U.normal F (ints g), ∃ n : Nat, x = n ∧ Encodable n
  | .write s i c => ∃ n old : Nat, c = n ∧ (σ s)[i]? = some old ∧ Encodable n ∧ (encode n).length = (encode old).length
  | .transform s f => ∀ c ∈ σ s, ∃ n : Nat, f c = n ∧ Encodable n ∧ (encode n).length = (encode c).length
  | .readGraphemes s => (σ s).length < 2 ^ 31
  | .countIf s _ => (σ s).length < 2 ^ 31

/-- The ideal run of a program. -/
inductive Ucd.IdealRun (U : Ucd) : (Nat → List Nat) → List Op → (Nat → List Nat) → List Obs → Prop
  | nil (σ) : IdealRun U σ [] σ []
  | cons (σ σ1 σ2 op ops o os) : U.Ideal σ op σ1 o → IdealRun U σ1 ops σ2 os →
      IdealRun U σ (op :: ops) σ2 (o :: os)

/-- Every operation of the program is allowed where the ideal run gets to it. -/
def Ucd.AllowedRun (U : Ucd) : (Nat → List Nat) → List Op → Prop
  | _, [] => True
  | σ, op :: ops => U.Allowed σ op ∧ ∀ σ1 o, U.Ideal σ op σ1 o → AllowedRun U σ1 ops

end U5e.Spec
