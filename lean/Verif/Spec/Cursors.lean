import Verif.Model.Cursors
import Verif.Spec.History
/-!
# What a program with iterator variables should do

Strings are sequences of codepoints and an iterator is the number of a string and the index of a codepoint in it
(the length at the end). Only the names of the statements and observations are those of the model.
-/
namespace U5e.Spec

/-- A codepoint iterator: before codepoint number `index` of a string. `written`: its codepoint has been assigned
through it, and it has not been moved since. -/
structure Cursor where
  string : Nat
  index : Nat
  written : Bool

/-- A grapheme iterator: it denotes the codepoints from `first` up to but not including `last`. -/
structure Span where
  string : Nat
  first : Nat
  last : Nat

/-- The strings and the variables; `none` for a variable that has no valid value. -/
structure World where
  strings : Nat → List Nat
  its : Kind → Nat → Option Cursor
  gits : Nat → Option Span

/-- Before the first statement. -/
def World.start (σ : Nat → List Nat) : World := ⟨σ, fun _ _ => none, fun _ => none⟩

def World.setIt (w : World) (k : Kind) (i : Nat) (x : Cursor) : World :=
  { w with its := fun k' i' => if k' = k ∧ i' = i then some x else w.its k' i' }

def World.setGit (w : World) (g : Nat) (x : Span) : World :=
  { w with gits := fun g' => if g' = g then some x else w.gits g' }

/-- All iterators into string `d` lose their value. -/
def World.invalidate (w : World) (d : Nat) : World where
  strings := w.strings
  its k i := (w.its k i).filter fun x => x.string ≠ d
  gits g := (w.gits g).filter fun x => x.string ≠ d

/-- The string a statement stores into other than through iterators: its iterators lose their value. -/
def storesInto : Op → Option Nat
  | .copy d _ => some d
  | .clear d => some d
  | .appendRange d _ _ _ => some d
  | .appendCps d _ => some d
  | .appendGraphemes d _ _ _ => some d
  | .normalize _ d _ => some d
  | .write _ _ _ => none
  | .transform _ _ => none
  | .read _ => none
  | .readBack _ => none
  | .readGraphemes _ => none
  | .equal _ _ => none
  | .less _ _ => none
  | .countIf _ _ => none

/-- The world after the strings have become `σ` by a statement storing into `d`. -/
def World.stored (w : World) (σ : Nat → List Nat) : Option Nat → World
  | none => { w with strings := σ }
  | some d => ({ w with strings := σ } : World).invalidate d

/-- The number of codepoints of the grapheme starting at codepoint `i`: the first one of the rest of the text. -/
def Ucd.FirstGrapheme (U : Ucd) (cs : List Nat) (i n : Nat) : Prop :=
  ∃ gs, U.Graphemes (cs.drop i) gs ∧ n = (gs.headD []).length

/-- Two grapheme iterators compare equal: both at the end, or they have a codepoint in common. -/
def Span.Same (x y : Span) (len : Nat) : Prop :=
  (x.first = len ∧ y.first = len) ∨ ∃ i, (x.first ≤ i ∧ i < x.last) ∧ (y.first ≤ i ∧ i < y.last)

/-- `w` becomes `w'` and `o` is printed. -/
def Ucd.Does (U : Ucd) (w : World) : Stmt → World → Obs → Prop
  | .plain op, w', o => ∃ σ, U.Ideal w.strings op σ o ∧ w' = w.stored σ (storesInto op)
  | .begin k i s, w', o => w' = w.setIt k i ⟨s, 0, false⟩ ∧ o = .none
  | .end k i s, w', o => w' = w.setIt k i ⟨s, (w.strings s).length, false⟩ ∧ o = .none
  | .assign k i j, w', o => ∃ x, w.its k j = some x ∧ w' = w.setIt k i x ∧ o = .none
  | .next k i, w', o => ∃ x, w.its k i = some x ∧ w' = w.setIt k i ⟨x.string, x.index + 1, false⟩ ∧ o = .none
  | .prev k i, w', o => ∃ x, w.its k i = some x ∧ w' = w.setIt k i ⟨x.string, x.index - 1, false⟩ ∧ o = .none
  | .get k i, w', o => ∃ x c, w.its k i = some x ∧ (w.strings x.string)[x.index]? = some c ∧ w' = w ∧
      o = .codepoints [Int.ofNat c]
  | .same k i j, w', o => ∃ x y, w.its k i = some x ∧ w.its k j = some y ∧ w' = w ∧ o = .bool (x.index == y.index)
  | .set i c, w', o => ∃ x n, w.its .mut i = some x ∧ c = Int.ofNat n ∧
      w' = ({ w with strings := put w.strings x.string ((w.strings x.string).set x.index n) } : World).setIt .mut i
        ⟨x.string, x.index, true⟩ ∧ o = .none
  | .appendBetween d i j, w', o => ∃ x y, w.its .const i = some x ∧ w.its .const j = some y ∧
      w' = w.stored (put w.strings d (w.strings d ++ ((w.strings x.string).take y.index).drop x.index)) (some d) ∧
      o = .none
  | .gbegin g s, w', o => ∃ n, U.FirstGrapheme (w.strings s) 0 n ∧ w' = w.setGit g ⟨s, 0, n⟩ ∧ o = .none
  | .gend g s, w', o => w' = w.setGit g ⟨s, (w.strings s).length, (w.strings s).length⟩ ∧ o = .none
  | .gassign g h, w', o => ∃ x, w.gits h = some x ∧ w' = w.setGit g x ∧ o = .none
  | .gnext g, w', o => ∃ x n, w.gits g = some x ∧ U.FirstGrapheme (w.strings x.string) x.last n ∧
      w' = w.setGit g ⟨x.string, x.last, x.last + n⟩ ∧ o = .none
  | .gget g, w', o => ∃ x, w.gits g = some x ∧ w' = w ∧
      o = .codepoints (ints (((w.strings x.string).take x.last).drop x.first))
  | .gsame g h, w', o => ∃ x y b, w.gits g = some x ∧ w.gits h = some y ∧
      (b = true ↔ x.Same y (w.strings x.string).length) ∧ w' = w ∧ o = .bool b
  | .gfirst i g, w', o => ∃ x, w.gits g = some x ∧ w' = w.setIt .const i ⟨x.string, x.first, false⟩ ∧ o = .none
  | .glast i g, w', o => ∃ x, w.gits g = some x ∧ w' = w.setIt .const i ⟨x.string, x.last, false⟩ ∧ o = .none

/-- The statements a program may use. The restrictions: those of Spec/History.lean; iterator variables have a valid
value; `++` not at the end, `--` not at the beginning, `*` not at the end; only iterators of the same string are
compared, and a range goes from left to right; a codepoint is overwritten by one of the same encoded size, and not
twice through the same iterator without moving it, except for one octet. -/
def Ucd.May (U : Ucd) (w : World) : Stmt → Prop
  | .plain op => U.Allowed w.strings op
  | .begin _ _ _ | .end _ _ _ | .gbegin _ _ | .gend _ _ => True
  | .assign k _ j => ∃ x, w.its k j = some x
  | .next k i => ∃ x, w.its k i = some x ∧ x.index < (w.strings x.string).length
  | .prev k i => ∃ x, w.its k i = some x ∧ 0 < x.index
  | .get k i => ∃ x, w.its k i = some x ∧ x.index < (w.strings x.string).length
  | .same k i j => ∃ x y, w.its k i = some x ∧ w.its k j = some y ∧ x.string = y.string
  | .set i c => ∃ x n old, w.its .mut i = some x ∧ c = Int.ofNat n ∧ (w.strings x.string)[x.index]? = some old ∧
      Encodable n ∧ (encode n).length = (encode old).length ∧ (x.written = true → (encode old).length = 1)
  | .appendBetween _ i j => ∃ x y, w.its .const i = some x ∧ w.its .const j = some y ∧ x.string = y.string ∧
      x.index ≤ y.index
  | .gassign _ h => ∃ x, w.gits h = some x
  | .gnext g | .gget g | .gfirst _ g | .glast _ g => ∃ x, w.gits g = some x
  | .gsame g h => ∃ x y, w.gits g = some x ∧ w.gits h = some y ∧ x.string = y.string

/-- At most `n` statements of a program that has printed `os` so far. -/
inductive Ucd.Runs (U : Ucd) (client : Client) : Nat → World → List Obs → World → List Obs → Prop
  | limit (w os) : Runs U client 0 w os w os
  | finished (n w os) : client os = none → Runs U client (n + 1) w os w os
  | step (n w os st w1 o w2 os2) : client os = some st → U.Does w st w1 o →
      Runs U client n w1 (os ++ [o]) w2 os2 → Runs U client (n + 1) w os w2 os2

/-- The first `n` statements of the program are allowed where it gets to them. -/
def Ucd.MayRun (U : Ucd) (client : Client) : Nat → World → List Obs → Prop
  | 0, _, _ => True
  | n + 1, w, os => ∀ st, client os = some st → U.May w st ∧ ∀ w1 o, U.Does w st w1 o → MayRun U client n w1 (os ++ [o])

/-- The variables a statement uses. -/
def uses : Stmt → List (Kind × Nat) × List Nat
  | .plain _ | .begin _ _ _ | .end _ _ _ | .gbegin _ _ | .gend _ _ => ([], [])
  | .assign k _ j => ([(k, j)], [])
  | .next k i | .prev k i | .get k i => ([(k, i)], [])
  | .same k i j => ([(k, i), (k, j)], [])
  | .set i _ => ([(.mut, i)], [])
  | .appendBetween _ i j => ([(.const, i), (.const, j)], [])
  | .gassign _ h => ([], [h])
  | .gnext g | .gget g | .gfirst _ g | .glast _ g => ([], [g])
  | .gsame g h => ([], [g, h])

/-- The statement uses a variable without a valid value, or iterators of different strings together. -/
def UsesInvalid (w : World) (st : Stmt) : Prop :=
  (∃ v ∈ (uses st).1, w.its v.1 v.2 = none) ∨ (∃ g ∈ (uses st).2, w.gits g = none) ∨
  (∃ v ∈ (uses st).1, ∃ v' ∈ (uses st).1, ∃ x y, w.its v.1 v.2 = some x ∧ w.its v'.1 v'.2 = some y ∧
    x.string ≠ y.string) ∨
  ∃ g ∈ (uses st).2, ∃ h ∈ (uses st).2, ∃ x y, w.gits g = some x ∧ w.gits h = some y ∧ x.string ≠ y.string

end U5e.Spec
