import Verif.Model.HeldThreads
/-!
# Threads that hold views and iterators, one access to memory at a time

The threads of Model/HeldThreads.lean, but a statement is executed as a sequence of single accesses to elements of
strings, and the schedule switches threads between any two accesses. Which accesses a statement makes, and in which order,
is a parameter (`HeldCode`): the compiler and the standard library decide that. Memory is sequentially consistent.
-/
namespace U5e

/-- The variables of one thread: Lines: see `HeldMachine`. utf8_string_view.hpp:22, utf8_iterator.hpp:109-195,
basic_grapheme_iterator.hpp:35-44. -/
structure HeldVars where
  views : Nat → Option (Nat × Nat × Nat × Nat)
  its : Nat → Option (Nat × Nat × Nat)
  gits : Nat → Option (Nat × Nat × GIter)
  mits : Nat → Option (Nat × Nat × Nat)

/-- What the threads share of a string: its text, and how often its views and iterators have been invalidated. The count
is not in memory; it is the model's way to know which variables are valid. basic_encodedstring.hpp:41-59. -/
structure HeldCell where
  text : Text
  count : Nat

/-- The machine with these variables and this memory. Lines: see `HeldMachine`. basic_encodedstring.hpp:41-59. -/
def HeldVars.on (V : HeldVars) (μ : Nat → HeldCell) : HeldMachine :=
  ⟨fun s => (μ s).text, fun s => (μ s).count, V.views, V.its, V.gits, V.mits⟩

/-- The variables of a machine. Lines: see `HeldMachine`. basic_encodedstring.hpp:41-59. -/
def HeldMachine.vars (M : HeldMachine) : HeldVars := ⟨M.views, M.its, M.gits, M.mits⟩

/-- The memory of a machine. Lines: see `HeldMachine`. basic_encodedstring.hpp:41-59. -/
def HeldMachine.cells (M : HeldMachine) : Nat → HeldCell := fun s => ⟨M.strings s, M.gen s⟩

/-- What can be read: the size of the native string, an element of it, the count. basic_encodedstring.hpp:41-59. -/
inductive Glance where
  | size
  | unit (i : Nat)
  | count
  deriving DecidableEq

/-- How a string can be changed: an element overwritten, an element appended (basic_encodedstring.hpp:166, 210), all
removed, its views and iterators invalidated. basic_encodedstring.hpp:41-59. -/
inductive Stroke where
  | store (i : Nat) (v : Int)
  | push (v : Int)
  | clear
  | invalidate

/-- What is found; an octet as the number 0 to 255. basic_encodedstring.hpp:41-59. -/
def HeldCell.glance (c : HeldCell) : Glance → Option Int
  | .size => some (Int.ofNat c.text.size)
  | .unit i => match c.text with
    | .utf8 m => m[i]?.map fun b => Int.ofNat b.toNat
    | .utf32 m => m[i]?
  | .count => some (Int.ofNat c.count)

/-- The string after a change; an element of a UTF-8 string is an octet. basic_encodedstring.hpp:41-59. -/
def HeldCell.stroke (c : HeldCell) : Stroke → HeldCell
  | .store i v => match c.text with
    | .utf8 m => { c with text := .utf8 (m.set i (UInt8.ofNat v.toNat)) }
    | .utf32 m => { c with text := .utf32 (m.set i v) }
  | .push v => match c.text with
    | .utf8 m => { c with text := .utf8 (m ++ [UInt8.ofNat v.toNat]) }
    | .utf32 m => { c with text := .utf32 (m ++ [v]) }
  | .clear => match c.text with
    | .utf8 _ => { c with text := .utf8 [] }
    | .utf32 _ => { c with text := .utf32 [] }
  | .invalidate => { c with count := c.count + 1 }

/-- What a statement still has to do: nothing but assign variables and deliver its result (`none`: an exception), or one
access and then what depends on the value found. basic_encodedstring.hpp:41-59. -/
inductive Accesses where
  | finished (V : HeldVars) (o : Option Obs)
  | read (s : Nat) (g : Glance) (next : Option Int → Accesses)
  | change (s : Nat) (k : Stroke) (next : Accesses)

/-- One access. basic_encodedstring.hpp:41-59. -/
def Accesses.once : Accesses → (Nat → HeldCell) → Accesses × (Nat → HeldCell)
  | .finished V o, μ => (.finished V o, μ)
  | .read s g next, μ => (next ((μ s).glance g), μ)
  | .change s k next, μ => (next, upd μ s ((μ s).stroke k))

/-- All accesses, undisturbed. basic_encodedstring.hpp:41-59. -/
def Accesses.alone : Accesses → (Nat → HeldCell) → (Nat → HeldCell) × HeldVars × Option Obs
  | .finished V o, μ => (μ, V, o)
  | .read s g next, μ => (next ((μ s).glance g)).alone μ
  | .change s k next, μ => next.alone (upd μ s ((μ s).stroke k))

/-- Which accesses a statement makes, given the variables of its thread and how many calls that may throw succeed in it:
basic_encodedstring.hpp:89-219 as compiled. -/
abbrev HeldCode := HeldVars → Nat → HeldStmt → Accesses

/-- The memory, and of each thread its variables, the statement it is in, and what it has printed.
basic_encodedstring.hpp:89-219. -/
structure HeldConfig where
  memory : Nat → HeldCell
  vars : Nat → HeldVars
  running : Nat → Option Accesses
  printed : Nat → List (Option Obs)

/-- Thread `t` goes on: begins its next statement, makes one access, or ends the statement.
basic_encodedstring.hpp:89-219. -/
def HeldConfig.go (code : HeldCode) (P : Nat → CatchClient) (calls : Nat → Nat → Nat) (c : HeldConfig) (t : Nat) : HeldConfig :=
  match c.running t with
  | none =>
    match P t (c.printed t) with
    | none => c
    | some st => { c with running := upd c.running t (some (code (c.vars t) (calls t (c.printed t).length) st)) }
  | some (.finished V o) =>
    { c with vars := upd c.vars t V, running := upd c.running t none, printed := upd c.printed t (c.printed t ++ [o]) }
  | some a => { c with memory := (a.once c.memory).2, running := upd c.running t (some (a.once c.memory).1) }

/-- Going on under a schedule. basic_encodedstring.hpp:89-219. -/
def HeldConfig.exec (code : HeldCode) (P : Nat → CatchClient) (calls : Nat → Nat → Nat) (ts : List Nat) (c : HeldConfig) :
    HeldConfig := ts.foldl (HeldConfig.go code P calls) c

/-- The threads start: see `HeldMachine.fork`. basic_encodedstring.hpp:89-219. -/
def HeldMachine.spawn (M : HeldMachine) (can : Nat → Nat → Bool) : HeldConfig :=
  ⟨M.cells, fun t => (M.given (can t)).vars, fun _ => none, fun _ => []⟩

end U5e
