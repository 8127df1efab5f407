import Verif.Spec.Text
import Verif.Spec.Bounds
/-!
# Which old contents of a buffer can be overwritten
-/
namespace U5e
open Spec

/-- The octets at the places where the codepoints `cs` are about to be written (after the text `ps`, over `buf`) do
not stop the library: an octet that begins a codepoint claims no octets after the memory and is not 0xFF; a
continuation octet has text before it. -/
def Spec.Overwritable (ps : List Nat) (buf : List UInt8) (cs : List Nat) : Prop :=
  ∀ as c bs, cs = as ++ c :: bs → ∃ o, buf[(encodeText as).length]? = some o ∧
    if IsContinuation o then ps ++ as ≠ [] else o ≠ 0xFF ∧ (encodeText as).length + claimed o ≤ buf.length

end U5e
