import Verif.Proofs.Forms
/-!
# Specification: how much longer or shorter a text may get by normalization (C70)

The factors are fractions, given as pairs. Each is the value of the Unicode data (the longest mapping, the worst
combination of mappings and compositions), not of the algorithm.
-/
namespace U5e.Spec
open U5e

/-- The output has at most this many codepoints per codepoint of the input. -/
def growCodepoints : Form → Nat
  | .D | .C => 4
  | .KD | .KC => 7

/-- The input has at most this many codepoints per codepoint of the output. -/
def shrinkCodepoints : Form → Nat
  | .D | .KD => 1
  | .C | .KC => 4

/-- In UTF-8, the output has at most this many thirds of an octet per octet of the input: 3, or 17/3. -/
def growOctetThirds : Form → Nat
  | .D | .C => 9
  | .KD | .KC => 17

/-- In UTF-8, the input has at most this many halves of an octet per octet of the output: 3, or 3.5. -/
def shrinkOctetHalves : Form → Nat
  | .D | .KD => 6
  | .C | .KC => 7

end U5e.Spec
