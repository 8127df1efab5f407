import Verif.Model.HeldViews
import Verif.Spec.Views
/-!
# What a program that holds views and iterators should do

Strings are plain sequences of codepoints; a view is the number of a string and a first and a last index into it, an
iterator the number of a string and one index. Only the names of the statements and observations are those of the model.
-/
namespace U5e.Spec

/-- A view: the codepoints of a string from `first` up to but not including `last`. -/
structure Slice where
  string : Nat
  first : Nat
  last : Nat

/-- An iterator: before codepoint number `index` of a string, or at its end. -/
structure Mark where
  string : Nat
  index : Nat

/-- A mutable iterator: before codepoint number `index` of a string, or at its end. `written`: its codepoint has been
assigned through it, and it has not been moved since. -/
structure Pen where
  string : Nat
  index : Nat
  written : Bool

/-- A grapheme iterator over the codepoints of a string up to but not including `stop`: it denotes those from `first` up
to but not including `last`. -/
structure Sweep where
  string : Nat
  start : Nat
  stop : Nat
  first : Nat
  last : Nat

/-- The strings and the variables; `none` for a variable that has no valid value. -/
structure HeldWorld where
  strings : Nat → List Nat
  views : Nat → Option Slice
  its : Nat → Option Mark
  gits : Nat → Option Sweep
  mits : Nat → Option Pen

/-- Before the first statement. -/
def HeldWorld.start (σ : Nat → List Nat) : HeldWorld := 
  ⟨σ, fun _ => none, fun _ => none, fun _ => none, fun _ => none⟩

/-- Which part of which string a statement reads; `none` if a variable has no valid value or two iterators do not belong
to the same string. -/
def HeldWorld.source (w : HeldWorld) : Place → Option Src
  | .whole s => some (.whole s)
  | .view s i j => some (.view s i j)
  | .held v => match w.views v with
    | some x => some (.view x.string x.first x.last)
    | none => none
  | .part v i j => match w.views v with
    | some x => some (.view x.string (x.first + i) (x.first + j))
    | none => none
  | .between i j => match w.its i, w.its j with
    | some a, some b => if a.string = b.string then some (.view a.string a.index b.index) else none
    | _, _ => none

/-- A part of a view lies inside the view. -/
def HeldWorld.Fits (w : HeldWorld) : Place → Prop
  | .part v _ j => ∀ x, w.views v = some x → x.first + j ≤ x.last
  | _ => True

/-- The statement of Spec/Views.lean, with the sources put in; `none` if one has no meaning. -/
def HeldWorld.plain (w : HeldWorld) : HeldOp → Option VOp
  | .copy d s => some (.copy d s)
  | .clear d => some (.clear d)
  | .append d src => (w.source src).map (.append d ·)
  | .appendCps d v => some (.appendCps d v)
  | .convert d src => (w.source src).map (.convert d ·)
  | .appendGraphemes d src i j => (w.source src).map (.appendGraphemes d · i j)
  | .normalize F d src => (w.source src).map (.normalize F d ·)
  | .write s i c => some (.write s i c)
  | .transform s f => some (.transform s f)
  | .read src => (w.source src).map .read
  | .readBack src => (w.source src).map .readBack
  | .readGraphemes src => (w.source src).map .readGraphemes
  | .equal a b => match w.source a, w.source b with
    | some a, some b => some (.equal a b)
    | _, _ => none
  | .less a b => match w.source a, w.source b with
    | some a, some b => some (.less a b)
    | _, _ => none
  | .countIf src pred => (w.source src).map (.countIf · pred)

/-- What a statement reads. -/
def reads : HeldStmt → List Place
  | .op op => match op with
    | .append _ src | .convert _ src | .appendGraphemes _ src _ _ | .normalize _ _ src | .read src | .readBack src
    | .readGraphemes src | .countIf src _ => [src]
    | .equal a b | .less a b => [a, b]
    | .copy _ _ | .clear _ | .appendCps _ _ | .write _ _ _ | .transform _ _ => []
  | .hold _ src | .first _ src | .last _ src | .gfirst _ src | .glast _ src => [src]
  | .assign _ _ | .next _ | .prev _ | .get _ | .same _ _ | .gassign _ _ | .gnext _ | .gget _ | .gsame _ _ | .gstart _ _
  | .gstop _ _ | .mfirst _ _ | .mlast _ _ | .massign _ _ | .mnext _ | .mprev _ | .mget _ | .msame _ _ | .mset _ _ => []

/-- The string a statement stores into other than codepoint by codepoint in place: its views and iterators lose their
value. -/
def storesIn : HeldOp → Option Nat
  | .copy d _ => some d
  | .clear d => some d
  | .append d _ => some d
  | .appendCps d _ => some d
  | .convert d _ => some d
  | .appendGraphemes d _ _ _ => some d
  | .normalize _ d _ => some d
  | .write _ _ _ => none
  | .transform _ _ => none
  | .read _ => none
  | .readBack _ => none
  | .readGraphemes _ => none
  | .equal _ _ => none
  | .less _ _ => none
  | .countIf _ _ => none

/-- The world after the strings have become `σ` by a statement storing into `d`. -/
def HeldWorld.stored (w : HeldWorld) (σ : Nat → List Nat) : Option Nat → HeldWorld
  | none => { w with strings := σ }
  | some d => ⟨σ, fun v => (w.views v).filter fun x => x.string ≠ d, fun i => (w.its i).filter fun x => x.string ≠ d,
      fun g => (w.gits g).filter fun x => x.string ≠ d, fun m => (w.mits m).filter fun x => x.string ≠ d⟩

def HeldWorld.setView (w : HeldWorld) (v : Nat) (x : Slice) : HeldWorld :=
  { w with views := fun v' => if v' = v then some x else w.views v' }

def HeldWorld.setIt (w : HeldWorld) (i : Nat) (x : Mark) : HeldWorld :=
  { w with its := fun i' => if i' = i then some x else w.its i' }

def HeldWorld.setGit (w : HeldWorld) (g : Nat) (x : Sweep) : HeldWorld :=
  { w with gits := fun g' => if g' = g then some x else w.gits g' }

def HeldWorld.setMit (w : HeldWorld) (m : Nat) (x : Pen) : HeldWorld :=
  { w with mits := fun m' => if m' = m then some x else w.mits m' }

/-- The first grapheme of a text has `n` codepoints (none if the text is empty). -/
def Ucd.Leading (U : Ucd) (cs : List Nat) (n : Nat) : Prop := ∃ gs, U.Graphemes cs gs ∧ n = (gs.headD []).length

/-- Two grapheme iterators compare equal: both at the end, or they have a codepoint in common. -/
def Sweep.Same (x y : Sweep) : Prop :=
  (x.first = x.stop ∧ y.first = y.stop) ∨ ∃ i, (x.first ≤ i ∧ i < x.last) ∧ (y.first ≤ i ∧ i < y.last)

/-- The part of the string that a source is. -/
def slice (σ : Nat → List Nat) : Src → Slice
  | .whole s => ⟨s, 0, (σ s).length⟩
  | .view s i j => ⟨s, i, j⟩

/-- `w` becomes `w'` and `o` is printed. -/
def Ucd.DoesHeld (U : Ucd) (w : HeldWorld) : HeldStmt → HeldWorld → Obs → Prop
  | .op op, w', o => ∃ op' σ, w.plain op = some op' ∧ U.IdealV w.strings op' σ o ∧ w' = w.stored σ (storesIn op)
  | .hold v src, w', o => ∃ x, w.source src = some x ∧ w' = w.setView v (slice w.strings x) ∧ o = .none
  | .first i src, w', o => ∃ x, w.source src = some x ∧
      w' = w.setIt i ⟨(slice w.strings x).string, (slice w.strings x).first⟩ ∧ o = .none
  | .last i src, w', o => ∃ x, w.source src = some x ∧
      w' = w.setIt i ⟨(slice w.strings x).string, (slice w.strings x).last⟩ ∧ o = .none
  | .assign i j, w', o => ∃ x, w.its j = some x ∧ w' = w.setIt i x ∧ o = .none
  | .next i, w', o => ∃ x, w.its i = some x ∧ w' = w.setIt i ⟨x.string, x.index + 1⟩ ∧ o = .none
  | .prev i, w', o => ∃ x, w.its i = some x ∧ w' = w.setIt i ⟨x.string, x.index - 1⟩ ∧ o = .none
  | .get i, w', o => ∃ x c, w.its i = some x ∧ (w.strings x.string)[x.index]? = some c ∧ w' = w ∧
      o = .codepoints [Int.ofNat c]
  | .same i j, w', o => ∃ x y, w.its i = some x ∧ w.its j = some y ∧ w' = w ∧ o = .bool (x.index == y.index)
  | .gfirst g src, w', o => ∃ x n, w.source src = some x ∧ U.Leading (text w.strings x) n ∧
      w' = w.setGit g ⟨(slice w.strings x).string, (slice w.strings x).first, (slice w.strings x).last,
        (slice w.strings x).first, (slice w.strings x).first + n⟩ ∧ o = .none
  | .glast g src, w', o => ∃ x, w.source src = some x ∧
      w' = w.setGit g ⟨(slice w.strings x).string, (slice w.strings x).first, (slice w.strings x).last,
        (slice w.strings x).last, (slice w.strings x).last⟩ ∧ o = .none
  | .gassign g h, w', o => ∃ x, w.gits h = some x ∧ w' = w.setGit g x ∧ o = .none
  | .gnext g, w', o => ∃ x n, w.gits g = some x ∧
      U.Leading (((w.strings x.string).take x.stop).drop x.last) n ∧
      w' = w.setGit g ⟨x.string, x.start, x.stop, x.last, x.last + n⟩ ∧ o = .none
  | .gget g, w', o => ∃ x, w.gits g = some x ∧ w' = w ∧
      o = .codepoints (ints (((w.strings x.string).take x.last).drop x.first))
  | .gsame g h, w', o => ∃ x y b, w.gits g = some x ∧ w.gits h = some y ∧ (b = true ↔ x.Same y) ∧ w' = w ∧ o = .bool b
  | .gstart i g, w', o => ∃ x, w.gits g = some x ∧ w' = w.setIt i ⟨x.string, x.first⟩ ∧ o = .none
  | .gstop i g, w', o => ∃ x, w.gits g = some x ∧ w' = w.setIt i ⟨x.string, x.last⟩ ∧ o = .none
  | .mfirst m s, w', o => w' = w.setMit m ⟨s, 0, false⟩ ∧ o = .none
  | .mlast m s, w', o => w' = w.setMit m ⟨s, (w.strings s).length, false⟩ ∧ o = .none
  | .massign m n, w', o => ∃ x, w.mits n = some x ∧ w' = w.setMit m x ∧ o = .none
  | .mnext m, w', o => ∃ x, w.mits m = some x ∧ w' = w.setMit m ⟨x.string, x.index + 1, false⟩ ∧ o = .none
  | .mprev m, w', o => ∃ x, w.mits m = some x ∧ w' = w.setMit m ⟨x.string, x.index - 1, false⟩ ∧ o = .none
  | .mget m, w', o => ∃ x c, w.mits m = some x ∧ (w.strings x.string)[x.index]? = some c ∧ w' = w ∧
      o = .codepoints [Int.ofNat c]
  | .msame m n, w', o => ∃ x y, w.mits m = some x ∧ w.mits n = some y ∧ w' = w ∧ o = .bool (x.index == y.index)
  | .mset m c, w', o => ∃ x σ, w.mits m = some x ∧ U.IdealV w.strings (.write x.string x.index c) σ o ∧
      w' = (w.stored σ none).setMit m ⟨x.string, x.index, true⟩

/-- The statements a program may use, `τ` being the encodings of the strings. The restrictions: those of Spec/Views.lean;
variables have a valid value; a part of a view lies inside it; `++` not at the end of the string, `--` not at its
beginning, `*` not at its end; only iterators of the same string are compared, and only grapheme iterators of the same
string that end at the same place; the end of the graphemes is only asked for where the string has a grapheme boundary
(C25); a codepoint of a UTF-8 string is overwritten by one of the same encoded size, and not twice through the same
iterator without moving it, except for one octet. -/
def Ucd.MayHeld (U : Ucd) (τ : Nat → Kind) (w : HeldWorld) : HeldStmt → Prop
  | .op op => (∃ op', w.plain op = some op' ∧ U.Permitted τ w.strings op') ∧ ∀ src ∈ reads (.op op), w.Fits src
  | .hold _ src | .first _ src | .last _ src | .gfirst _ src => (∃ x, w.source src = some x ∧ Inside w.strings x) ∧ w.Fits src
  | .glast _ src => (∃ x, w.source src = some x ∧ Inside w.strings x ∧ U.Delimited w.strings x) ∧ w.Fits src
  | .assign _ j => ∃ x, w.its j = some x
  | .next i => ∃ x, w.its i = some x ∧ x.index < (w.strings x.string).length
  | .prev i => ∃ x, w.its i = some x ∧ 0 < x.index
  | .get i => ∃ x, w.its i = some x ∧ x.index < (w.strings x.string).length
  | .same i j => ∃ x y, w.its i = some x ∧ w.its j = some y ∧ x.string = y.string
  | .gassign _ h => ∃ x, w.gits h = some x
  | .gnext g | .gget g | .gstart _ g | .gstop _ g => ∃ x, w.gits g = some x
  | .gsame g h => ∃ x y, w.gits g = some x ∧ w.gits h = some y ∧ x.string = y.string ∧ x.stop = y.stop
  | .mfirst _ _ | .mlast _ _ => True
  | .massign _ n => ∃ x, w.mits n = some x
  | .mnext m => ∃ x, w.mits m = some x ∧ x.index < (w.strings x.string).length
  | .mprev m => ∃ x, w.mits m = some x ∧ 0 < x.index
  | .mget m => ∃ x, w.mits m = some x ∧ x.index < (w.strings x.string).length
  | .msame m n => ∃ x y, w.mits m = some x ∧ w.mits n = some y ∧ x.string = y.string
  | .mset m c => ∃ x, w.mits m = some x ∧ U.Permitted τ w.strings (.write x.string x.index c) ∧
      (τ x.string = .utf8 → x.written = true → ∀ old, (w.strings x.string)[x.index]? = some old → (encode old).length = 1)

/-- At most `n` statements of a program that has printed `os` so far. -/
inductive Ucd.RunsHeld (U : Ucd) (client : HeldClient) : Nat → HeldWorld → List Obs → HeldWorld → List Obs → Prop
  | limit (w os) : RunsHeld U client 0 w os w os
  | finished (n w os) : client os = none → RunsHeld U client (n + 1) w os w os
  | step (n w os st w1 o w2 os2) : client os = some st → U.DoesHeld w st w1 o →
      RunsHeld U client n w1 (os ++ [o]) w2 os2 → RunsHeld U client (n + 1) w os w2 os2

/-- The first `n` statements of the program are allowed where it gets to them. -/
def Ucd.MayRunHeld (U : Ucd) (τ : Nat → Kind) (client : HeldClient) : Nat → HeldWorld → List Obs → Prop
  | 0, _, _ => True
  | n + 1, w, os => ∀ st, client os = some st →
      U.MayHeld τ w st ∧ ∀ w1 o, U.DoesHeld w st w1 o → MayRunHeld U τ client n w1 (os ++ [o])

/-- The iterator variables a statement uses by themselves. -/
def usesIts : HeldStmt → List Nat
  | .assign _ j => [j]
  | .next i | .prev i | .get i => [i]
  | .same i j => [i, j]
  | .op _ | .hold _ _ | .first _ _ | .last _ _ | .gfirst _ _ | .glast _ _ | .gassign _ _ | .gnext _ | .gget _ | .gsame _ _
  | .gstart _ _ | .gstop _ _ | .mfirst _ _ | .mlast _ _ | .massign _ _ | .mnext _ | .mprev _ | .mget _ | .msame _ _
  | .mset _ _ => []

/-- The grapheme iterator variables a statement uses. -/
def usesGits : HeldStmt → List Nat
  | .gassign _ h => [h]
  | .gnext g | .gget g | .gstart _ g | .gstop _ g => [g]
  | .gsame g h => [g, h]
  | .op _ | .hold _ _ | .first _ _ | .last _ _ | .assign _ _ | .next _ | .prev _ | .get _ | .same _ _ | .gfirst _ _
  | .glast _ _ | .mfirst _ _ | .mlast _ _ | .massign _ _ | .mnext _ | .mprev _ | .mget _ | .msame _ _ | .mset _ _ => []

/-- The mutable iterator variables a statement uses. -/
def usesMits : HeldStmt → List Nat
  | .massign _ n => [n]
  | .mnext m | .mprev m | .mget m | .mset m _ => [m]
  | .msame m n => [m, n]
  | .op _ | .hold _ _ | .first _ _ | .last _ _ | .assign _ _ | .next _ | .prev _ | .get _ | .same _ _ | .gfirst _ _
  | .glast _ _ | .gassign _ _ | .gnext _ | .gget _ | .gsame _ _ | .gstart _ _ | .gstop _ _ | .mfirst _ _ | .mlast _ _ => []

/-- The statement reads through a variable without a valid value, or uses iterators of different strings together. -/
def Dangling (w : HeldWorld) (st : HeldStmt) : Prop :=
  (∃ src ∈ reads st, w.source src = none) ∨ (∃ i ∈ usesIts st, w.its i = none) ∨
  (∃ g ∈ usesGits st, w.gits g = none) ∨ (∃ m ∈ usesMits st, w.mits m = none) ∨
  (∃ i ∈ usesIts st, ∃ j ∈ usesIts st, ∃ x y, w.its i = some x ∧ w.its j = some y ∧ x.string ≠ y.string) ∨
  (∃ g ∈ usesGits st, ∃ h ∈ usesGits st, ∃ x y, w.gits g = some x ∧ w.gits h = some y ∧ x.string ≠ y.string) ∨
  ∃ m ∈ usesMits st, ∃ n ∈ usesMits st, ∃ x y, w.mits m = some x ∧ w.mits n = some y ∧ x.string ≠ y.string

end U5e.Spec
