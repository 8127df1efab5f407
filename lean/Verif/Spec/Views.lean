import Verif.Model.Views
import Verif.Spec.History
/-!
# What a program over strings of both encodings and views should do

Strings are plain sequences of codepoints. `Ideal` does not know which encoding a string has; only `Permitted`, the
conditions on the program, does.
-/
namespace U5e.Spec

/-- The encoding of a string. -/
inductive Kind where
  | utf8
  | utf32
  deriving DecidableEq, Repr

/-- What can be written into a string of this encoding: the codepoints the UTF-8 encoder gets right, and any
non-negative `int`. -/
def Kind.Holds : Kind → Nat → Prop
  | .utf8, n => Encodable n
  | .utf32, n => n < 2 ^ 31

/-- The text a statement reads. -/
def text (σ : Nat → List Nat) : Src → List Nat
  | .whole s => σ s
  | .view s i j => ((σ s).take j).drop i

/-- A view lies inside its string. -/
def Inside (σ : Nat → List Nat) : Src → Prop
  | .whole _ => True
  | .view s i j => i ≤ j ∧ j ≤ (σ s).length

/-- What follows the text in memory: the next codepoint of the string, or the terminator. -/
def after (σ : Nat → List Nat) : Src → Nat
  | .whole _ => 0
  | .view s _ j => (σ s)[j]?.getD 0

/-- The text ends where its string has a grapheme boundary (C25). -/
def Ucd.Delimited (U : Ucd) (σ : Nat → List Nat) (src : Src) : Prop :=
  ∀ a, (text σ src).getLast? = some a → BreaksBy U.gcb a (after σ src)

/-- `σ` becomes `σ'` and `o` is observed. -/
def Ucd.IdealV (U : Ucd) (σ : Nat → List Nat) : VOp → (Nat → List Nat) → Obs → Prop
  | .copy d s, σ', o => σ' = put σ d (σ s) ∧ o = .none
  | .clear d, σ', o => σ' = put σ d [] ∧ o = .none
  | .append d src, σ', o => σ' = put σ d (σ d ++ text σ src) ∧ o = .none
  | .convert d src, σ', o => σ' = put σ d (σ d ++ text σ src) ∧ o = .none
  | .appendCps d v, σ', o => (∃ cs, v = ints cs ∧ σ' = put σ d (σ d ++ cs)) ∧ o = .none
  | .appendGraphemes d src i j, σ', o =>
    (∃ gs, U.Graphemes (text σ src) gs ∧ σ' = put σ d (σ d ++ ((gs.take j).drop i).flatten)) ∧ o = .none
  | .normalize F d src, σ', o =>
    ∃ gs ns, U.Graphemes (text σ src) gs ∧ ints ns = gs.flatMap (fun g => U.normal F (ints g)) ∧
      σ' = put σ d (σ d ++ ns) ∧ o = .number ns.length
  | .write s i c, σ', o => (∃ n : Nat, c = n ∧ σ' = put σ s ((σ s).set i n)) ∧ o = .none
  | .transform s f, σ', o => (∃ cs, ints cs = (ints (σ s)).map f ∧ σ' = put σ s cs) ∧ o = .none
  | .read src, σ', o => σ' = σ ∧ o = .codepoints (ints (text σ src))
  | .readBack src, σ', o => σ' = σ ∧ o = .codepoints (ints (text σ src)).reverse
  | .readGraphemes src, σ', o => σ' = σ ∧ ∃ gs, U.Graphemes (text σ src) gs ∧ o = .graphemes (gs.map ints)
  | .equal a b, σ', o => σ' = σ ∧ o = .bool (decide (text σ a = text σ b))
  | .less a b, σ', o => σ' = σ ∧ o = .bool (decide (text σ a < text σ b))
  | .countIf src pred, σ', o => σ' = σ ∧ o = .number ((text σ src).countP fun c => pred (Int.ofNat c))

/-- When a statement may be used, `τ` being the encodings of the strings. Copies and appends without conversion need
equal encodings; views lie inside their strings; what is written can be written; UTF-8 codepoints are overwritten by
codepoints of the same size; only 7-bit text is copied by graphemes into UTF-8 (C39); a view that is read by graphemes
ends at a grapheme boundary of its string (C25); a string is not converted or normalized into itself; counts fit an
`int`. -/
def Ucd.Permitted (U : Ucd) (τ : Nat → Kind) (σ : Nat → List Nat) : VOp → Prop
  | .copy d s => τ d = τ s
  | .clear _ => True
  | .append d src => τ d = τ src.string ∧ Inside σ src
  | .convert d src => d ≠ src.string ∧ Inside σ src ∧ ∀ c ∈ text σ src, (τ d).Holds c
  | .appendCps d v => ∃ cs, v = ints cs ∧ ∀ c ∈ cs, (τ d).Holds c
  | .appendGraphemes d src i j => τ d = τ src.string ∧ Inside σ src ∧ ∃ gs, U.Graphemes (text σ src) gs ∧ i ≤ j ∧
      j ≤ gs.length ∧ (τ d = .utf8 → ∀ g ∈ (gs.take j).drop i, ∀ c ∈ g, c < 0x80)
  | .normalize F d src => d ≠ src.string ∧ Inside σ src ∧ U.Delimited σ src ∧
      (match F with
        | .D | .C => (decompose U.canonical (ints (text σ src))).length < 2 ^ 31
        | .KD | .KC => (decompose U.compatibility (ints (text σ src))).length < 2 ^ 31) ∧
      ∀ gs, U.Graphemes (text σ src) gs → ∀ g ∈ gs, ∀ x ∈ U.normal F (ints g), ∃ n : Nat, x = n ∧ (τ d).Holds n
  | .write s i c => ∃ n old : Nat, c = n ∧ (σ s)[i]? = some old ∧ (τ s).Holds n ∧
      (τ s = .utf8 → (encode n).length = (encode old).length)
  | .transform s f => ∀ c ∈ σ s, ∃ n : Nat, f c = n ∧ (τ s).Holds n ∧
      (τ s = .utf8 → (encode n).length = (encode c).length)
  | .read src | .readBack src => Inside σ src
  | .readGraphemes src => Inside σ src ∧ U.Delimited σ src ∧ (text σ src).length < 2 ^ 31
  | .equal a b | .less a b => Inside σ a ∧ Inside σ b
  | .countIf src _ => Inside σ src ∧ (text σ src).length < 2 ^ 31

/-- The ideal run of a program. -/
inductive Ucd.IdealRunV (U : Ucd) : (Nat → List Nat) → List VOp → (Nat → List Nat) → List Obs → Prop
  | nil (σ) : IdealRunV U σ [] σ []
  | cons (σ σ1 σ2 op ops o os) : U.IdealV σ op σ1 o → IdealRunV U σ1 ops σ2 os →
      IdealRunV U σ (op :: ops) σ2 (o :: os)

/-- Every statement is permitted where the ideal run gets to it. -/
def Ucd.PermittedRun (U : Ucd) (τ : Nat → Kind) : (Nat → List Nat) → List VOp → Prop
  | _, [] => True
  | σ, op :: ops => U.Permitted τ σ op ∧ ∀ σ1 o, U.IdealV σ op σ1 o → PermittedRun U τ σ1 ops

/-- The string that holds these codepoints in this encoding. -/
def stored : Kind → List Nat → Text
  | .utf8, cs => .utf8 (encodeText cs)
  | .utf32, cs => .utf32 (ints cs)

end U5e.Spec
