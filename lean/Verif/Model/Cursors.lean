import Verif.Model.History
/-!
# Programs that hold iterators

The programs of Model/History.lean, extended by iterator variables: a program may obtain codepoint iterators (const
and mutable) and grapheme iterators, copy, move, compare and dereference them, write through them and append what
lies between two of them, with any other statements in between. The next statement may depend on everything printed
so far, so loops and branches of the user's program are covered.

C++ invalidates the iterators of a `std::basic_string` when the string is assigned to, cleared or appended to. The
model counts these events per string; an iterator remembers the count at which it was made and using it later is
undefined.
-/
namespace U5e

/-- The two types of codepoint iterators: utf8_iterator.hpp:109-195 (`utf8_const_iterator`) and 206-345
(`utf8_iterator`); for utf32ne the two native iterators (utf32ne.hpp:26-30). -/
inductive Kind where
  | const
  | mut
  deriving DecidableEq, Repr

/-- One statement of a program with iterator variables. `i`, `j` are numbers of codepoint iterator variables of one
`Kind`, `g`, `h` of grapheme iterator variables, `s`, `d` of strings. -/
inductive Stmt where
  /-- A statement without iterator variables (Model/History.lean). basic_encodedstring.hpp:36-221. -/
  | plain (op : Op)
  /-- `i = s.codepoint_cbegin()` or `s.codepoint_begin()`: basic_encodedstring.hpp:132-140. -/
  | begin (k : Kind) (i s : Nat)
  /-- `i = s.codepoint_cend()` or `s.codepoint_end()`: basic_encodedstring.hpp:135-143. -/
  | «end» (k : Kind) (i s : Nat)
  /-- `i = j`: utf8_iterator.hpp:127-128, 224-225. -/
  | assign (k : Kind) (i j : Nat)
  /-- `++i`: utf8_iterator.hpp:134-137, 231-234. -/
  | next (k : Kind) (i : Nat)
  /-- `--i`: utf8_iterator.hpp:150-153, 247-250. -/
  | prev (k : Kind) (i : Nat)
  /-- `print(*i)`: utf8_iterator.hpp:190-192, 340-342. -/
  | get (k : Kind) (i : Nat)
  /-- `print(i == j)`: utf8_iterator.hpp:166-181, 263-278. -/
  | same (k : Kind) (i j : Nat)
  /-- `*i = c` with a mutable iterator: utf8_iterator.hpp:316-342. -/
  | set (i : Nat) (c : Int)
  /-- `d.append(i, j)` with const iterators: basic_encodedstring.hpp:172-189. -/
  | appendBetween (d i j : Nat)
  /-- `g = s.grapheme_begin()`: basic_encodedstring.hpp:152-156. -/
  | gbegin (g s : Nat)
  /-- `g = s.grapheme_end()`: basic_encodedstring.hpp:157-162. -/
  | gend (g s : Nat)
  /-- `g = h`: basic_grapheme_iterator.hpp:219-221. -/
  | gassign (g h : Nat)
  /-- `++g`: basic_grapheme_iterator.hpp:234-238. -/
  | gnext (g : Nat)
  /-- Printing the codepoints of `*g`: basic_grapheme_iterator.hpp:226-228, basic_grapheme.hpp:52-61. -/
  | gget (g : Nat)
  /-- `print(g == h)`: basic_grapheme_iterator.hpp:267-280. -/
  | gsame (g h : Nat)
  /-- `i = (*g).codepoint_begin()`: basic_grapheme.hpp:52-54. -/
  | gfirst (i g : Nat)
  /-- `i = (*g).codepoint_end()`: basic_grapheme.hpp:59-61. -/
  | glast (i g : Nat)

/-- The string whose iterators a statement invalidates: it is assigned to, cleared or appended to. Writing through
iterators does not invalidate any. basic_encodedstring.hpp:89-219. -/
def Op.invalidates : Op → Option Nat
  | .copy d _ | .clear d | .appendRange d _ _ _ | .appendCps d _ | .appendGraphemes d _ _ _ | .normalize _ d _ => some d
  | _ => none

/-- Strings and iterator variables of a running program. `gen s` counts the invalidations of string `s`; a variable
holds the number of its string, the count when it was obtained, and its position in the memory of the string. -/
structure Machine (α : Type) where
  strings : Nat → List α
  gen : Nat → Nat
  its : Kind → Nat → Option (Nat × Nat × Nat)
  gits : Nat → Option (Nat × Nat × GIter)

/-- Before the first statement: no variable is initialized. -/
def Machine.start (σ : Nat → List α) : Machine α := ⟨σ, fun _ => 0, fun _ _ => none, fun _ => none⟩

/-- The string and the position of a codepoint iterator; undefined if it was never initialized or has been
invalidated. -/
def Machine.it (M : Machine α) (k : Kind) (i : Nat) : Res (Nat × Nat) :=
  match M.its k i with
  | some (s, g, p) => if g = M.gen s then .ok (s, p) else .ub
  | none => .ub

/-- The same for a grapheme iterator. -/
def Machine.git (M : Machine α) (i : Nat) : Res (Nat × GIter) :=
  match M.gits i with
  | some (s, g, x) => if g = M.gen s then .ok (s, x) else .ub
  | none => .ub

/-- Assignment to a codepoint iterator variable. -/
def Machine.setIt (M : Machine α) (k : Kind) (i s p : Nat) : Machine α :=
  { M with its := fun k' i' => if k' = k ∧ i' = i then some (s, M.gen s, p) else M.its k' i' }

/-- Assignment to a grapheme iterator variable. -/
def Machine.setGit (M : Machine α) (i s : Nat) (g : GIter) : Machine α :=
  { M with gits := fun i' => if i' = i then some (s, M.gen s, g) else M.gits i' }

/-- String `d` gets new contents and its iterators become invalid. -/
def Machine.setString (M : Machine α) (d : Nat) (x : List α) : Machine α :=
  { M with strings := upd M.strings d x, gen := upd M.gen d (M.gen d + 1) }

/-- One statement. `*i` of a const iterator moves it to the start of its codepoint (utf8_iterator.hpp:83-100), of a
mutable one does not (303-307). Comparing iterators of different strings and appending a range between different
strings is undefined. Lines: see `Stmt`. -/
def Encoding.exec [DecidableEq α] (E : Encoding α) (sort : SortFn) (fuel : Nat) (M : Machine α) :
    Stmt → Res (Machine α × Obs)
  | .plain op => do
    let (σ, o) ← E.step sort fuel M.strings op
    match op.invalidates with
    | some d => pure ({ M with strings := σ, gen := upd M.gen d (M.gen d + 1) }, o)
    | none => pure ({ M with strings := σ }, o)
  | .begin k i s => .ok (M.setIt k i s 0, .none)
  | .end k i s => .ok (M.setIt k i s (M.strings s).length, .none)
  | .assign k i j => do
    let (s, p) ← M.it k j
    pure (M.setIt k i s p, .none)
  | .next k i => do
    let (s, p) ← M.it k i
    let q ← (E.over (M.strings s)).inc p
    pure (M.setIt k i s q, .none)
  | .prev k i => do
    let (s, p) ← M.it k i
    let q ← (E.over (M.strings s)).dec p
    pure (M.setIt k i s q, .none)
  | .get k i => do
    let (s, p) ← M.it k i
    let (c, q) ← (E.over (M.strings s)).deref p
    match k with
    | .const => pure (M.setIt k i s q, .codepoints [c])
    | .mut => pure (M, .codepoints [c])
  | .same k i j => do
    let (s, p) ← M.it k i
    let (t, q) ← M.it k j
    if s = t then do
      let b ← (E.over (M.strings s)).eq p q
      pure (M, .bool b)
    else .ub
  | .set i c => do
    let (s, p) ← M.it .mut i
    let (m, q) ← E.assign (M.strings s ++ [E.nul]) p c
    let t ← E.stored m
    pure (({ M with strings := upd M.strings s t } : Machine α).setIt .mut i s q, .none)
  | .appendBetween d i j => do
    let (s, p) ← M.it .const i
    let (t, q) ← M.it .const j
    if s = t then do
      let x ← E.appendRange (M.strings d) (M.strings s ++ [E.nul]) p q
      pure (M.setString d x, .none)
    else .ub
  | .gbegin g s => do
    let x ← graphemeBegin (E.over (M.strings s)) fuel 0 (M.strings s).length
    pure (M.setGit g s x, .none)
  | .gend g s => do
    let x ← graphemeEnd (E.over (M.strings s)) fuel 0 (M.strings s).length
    pure (M.setGit g s x, .none)
  | .gassign g h => do
    let (s, x) ← M.git h
    pure (M.setGit g s x, .none)
  | .gnext g => do
    let (s, x) ← M.git g
    let y ← x.inc (E.over (M.strings s)) fuel
    pure (M.setGit g s y, .none)
  | .gget g => do
    let (s, x) ← M.git g
    let cs ← readRange (E.over (M.strings s)) x.endOf fuel x.where_
    pure (M, .codepoints cs)
  | .gsame g h => do
    let (s, x) ← M.git g
    let (t, y) ← M.git h
    if s = t then do
      let b ← x.eqG (E.over (M.strings s)) fuel y
      pure (M, .bool b)
    else .ub
  | .gfirst i g => do
    let (s, x) ← M.git g
    pure (M.setIt .const i s x.where_, .none)
  | .glast i g => do
    let (s, x) ← M.git g
    pure (M.setIt .const i s x.endOf, .none)

/-- A user's program: the next statement, depending on everything printed so far; `none` when it is finished. -/
abbrev Client := List Obs → Option Stmt

/-- At most `n` statements of a program, having printed `os` so far. Lines: see `Stmt`. -/
def Encoding.runClient [DecidableEq α] (E : Encoding α) (sort : SortFn) (fuel : Nat) (client : Client) :
    Nat → Machine α → List Obs → Res (Machine α × List Obs)
  | 0, M, os => .ok (M, os)
  | n + 1, M, os =>
    match client os with
    | none => .ok (M, os)
    | some st => do
      let (M1, o) ← E.exec sort fuel M st
      Encoding.runClient E sort fuel client n M1 (os ++ [o])

end U5e
