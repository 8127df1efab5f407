import Verif.Model.GcbEnum
/-!
# Specification of grapheme cluster segmentation (UAX #29 revision 29, Unicode 9)

Uses only the enumeration of property values. Nothing here refers to the modelled C++.
-/
namespace U5e.Spec

/-- CR, LF and Control: always surrounded by breaks (GB4, GB5), except CR LF. -/
def Ctl (x : GCB) : Prop := x = .CR ∨ x = .LF ∨ x = .CONTROL

/-- The pairs of adjacent property values between which u5e documents that there is no break.
GB10 and GB12/13 are the pairwise readings given in the comments of the code. -/
inductive NoBreakPair : GCB → GCB → Prop
  | gb3 : NoBreakPair .CR .LF
  | gb6 (b) : b = .L ∨ b = .V ∨ b = .LV ∨ b = .LVT → NoBreakPair .L b
  | gb7 (a b) : a = .LV ∨ a = .V → b = .V ∨ b = .T → NoBreakPair a b
  | gb8 (a) : a = .LVT ∨ a = .T → NoBreakPair a .T
  | gb9 (a b) : ¬ Ctl a → b = .EXTEND ∨ b = .ZWJ → NoBreakPair a b
  | gb9a (a) : ¬ Ctl a → NoBreakPair a .SPACINGMARK
  | gb9b (b) : ¬ Ctl b → NoBreakPair .PREPEND b
  | gb10 (a) : a = .E_BASE ∨ a = .E_BASE_GAZ ∨ a = .EXTEND → NoBreakPair a .E_MODIFIER
  | gb11 (b) : b = .GLUE_AFTER_ZWJ ∨ b = .E_BASE_GAZ → NoBreakPair .ZWJ b
  | gb12 : NoBreakPair .REGIONAL_INDICATOR .REGIONAL_INDICATOR

/-- An emoji base followed by `Extend*`, read backwards (left context of GB10). -/
inductive EmojiBaseExtend : List GCB → Prop
  | base (a rest) : a = .E_BASE ∨ a = .E_BASE_GAZ → EmojiBaseExtend (a :: rest)
  | extend (rest) : EmojiBaseExtend rest → EmojiBaseExtend (.EXTEND :: rest)

/-- Number of regional indicators at the head of a list (the run just before the position). -/
def riRun : List GCB → Nat
  | .REGIONAL_INDICATOR :: rest => riRun rest + 1
  | _ => 0

/-- UAX #29 revision 29: no break is allowed at a position, where `left` lists the property values
before the position from the nearest to the farthest (non-empty), and `b` is the value after. -/
inductive UaxNoBreak : List GCB → GCB → Prop
  | gb3 (r) : UaxNoBreak (.CR :: r) .LF
  | gb6 (r b) : b = .L ∨ b = .V ∨ b = .LV ∨ b = .LVT → UaxNoBreak (.L :: r) b
  | gb7 (a r b) : a = .LV ∨ a = .V → b = .V ∨ b = .T → UaxNoBreak (a :: r) b
  | gb8 (a r) : a = .LVT ∨ a = .T → UaxNoBreak (a :: r) .T
  | gb9 (a r b) : ¬ Ctl a → b = .EXTEND ∨ b = .ZWJ → UaxNoBreak (a :: r) b
  | gb9a (a r) : ¬ Ctl a → UaxNoBreak (a :: r) .SPACINGMARK
  | gb9b (r b) : ¬ Ctl b → UaxNoBreak (.PREPEND :: r) b
  | gb10 (l) : EmojiBaseExtend l → UaxNoBreak l .E_MODIFIER
  | gb11 (r b) : b = .GLUE_AFTER_ZWJ ∨ b = .E_BASE_GAZ → UaxNoBreak (.ZWJ :: r) b
  | gb12 (l) : riRun l % 2 = 1 → UaxNoBreak l .REGIONAL_INDICATOR

/-- `gs` is the segmentation of `cs` into maximal runs without breaks: it concatenates to `cs`, no
part is empty, there is no break between neighbours inside a part, and there is a break between
consecutive parts. `brk a b` says there is a break between adjacent elements `a`, `b`. -/
structure IsSegmentation (brk : Int → Int → Prop) (cs : List Int) (gs : List (List Int)) : Prop where
  concat : gs.flatten = cs
  nonempty : ∀ g ∈ gs, g ≠ []
  inside : ∀ g ∈ gs, ∀ pre a b post, g = pre ++ a :: b :: post → ¬ brk a b
  between : ∀ p g h q, gs = p ++ g :: h :: q → ∀ a b, g.getLast? = some a → h.head? = some b → brk a b

/-- The parts `gs` have a boundary between the prefix `l` and the rest of the text. -/
def BoundaryAfter (gs : List (List Int)) (l : List Int) : Prop :=
  ∃ p q, gs = p ++ q ∧ p.flatten = l

/-- `gs` is the segmentation of `cs` into extended grapheme clusters by UAX #29 revision 29, `cls`
being the Grapheme_Cluster_Break property: the boundaries inside the text are exactly the positions
where the rules do not forbid a break. -/
structure IsUaxSegmentation (cls : Int → GCB) (cs : List Int) (gs : List (List Int)) : Prop where
  concat : gs.flatten = cs
  nonempty : ∀ g ∈ gs, g ≠ []
  boundary : ∀ l b r, cs = l ++ b :: r → l ≠ [] →
    (BoundaryAfter gs l ↔ ¬ UaxNoBreak (l.reverse.map cls) (cls b))

/-- Every emoji modifier directly follows an emoji base, as in the emoji modifier sequences of UTS #51; `gcb` gives the
property values. -/
def ModifiersFollowBasesBy (gcb : Int → GCB) (cs : List Int) : Prop :=
  ∀ p m q, cs = p ++ m :: q → gcb m = .E_MODIFIER → ∃ p' b, p = p' ++ [b] ∧ (gcb b = .E_BASE ∨ gcb b = .E_BASE_GAZ)

end U5e.Spec
