import Verif.Model.Views
/-!
# Programs that hold views and iterators

The programs of Model/Views.lean with variables for views (`utf8_string_view`, `utf32ne_string_view`), for const
and mutable codepoint iterators and for grapheme iterators. A view variable may be made from a string, from a part of it, from
another view, or from two iterators, and is used later, with any other statements in between. The next statement may
depend on everything printed so far.

A view is a pair of pointers into the memory of its string. C++ invalidates them when the string is assigned to,
cleared or appended to. As in Model/Cursors.lean the model counts these events per string; a variable remembers the
count at which it was made and using it later is undefined. Overwriting codepoints in place invalidates nothing.
-/
namespace U5e

/-- What a statement reads. -/
inductive Place where
  /-- String number `s`: basic_encodedstring.hpp:128-143. -/
  | whole (s : Nat)
  /-- A temporary view of its `i`-th to `j`-th codepoint: utf8_string_view.hpp:22, utf32ne_string_view.hpp:22. -/
  | view (s i j : Nat)
  /-- View variable number `v`: utf8_string_view.hpp:22, utf32ne_string_view.hpp:22. -/
  | held (v : Nat)
  /-- A temporary view of the `i`-th to `j`-th codepoint of view variable `v`: utf8_string_view.hpp:22. -/
  | part (v i j : Nat)
  /-- From iterator variable `i` to iterator variable `j`: basic_encodedstring.hpp:172-189. -/
  | between (i j : Nat)

/-- A statement as in Model/Views.lean (`VOp`, see there for the lines), reading `Place`s. basic_encodedstring.hpp:89-219. -/
inductive HeldOp where
  | copy (d s : Nat)
  | clear (d : Nat)
  | append (d : Nat) (src : Place)
  | appendCps (d : Nat) (v : List Int)
  | convert (d : Nat) (src : Place)
  | appendGraphemes (d : Nat) (src : Place) (i j : Nat)
  | normalize (F : Form) (d : Nat) (src : Place)
  | write (s i : Nat) (c : Int)
  | transform (s : Nat) (f : Int → Int)
  | read (src : Place)
  | readBack (src : Place)
  | readGraphemes (src : Place)
  | equal (a b : Place)
  | less (a b : Place)
  | countIf (src : Place) (pred : Int → Bool)

/-- A statement of a program with view variables `v`, const codepoint iterator variables `i`, `j`, grapheme iterator
variables `g`, `h` and mutable codepoint iterator variables `m`, `n`. -/
inductive HeldStmt where
  | op (op : HeldOp)
  /-- `v = string_view(…)` of what `src` denotes: utf8_string_view.hpp:22, utf32ne_string_view.hpp:22,
  basic_encodedstring.hpp:99-100. -/
  | hold (v : Nat) (src : Place)
  /-- `i = src.codepoint_cbegin()`: basic_encodedstring.hpp:138-140. -/
  | first (i : Nat) (src : Place)
  /-- `i = src.codepoint_cend()`: basic_encodedstring.hpp:141-143. -/
  | last (i : Nat) (src : Place)
  /-- `i = j`: utf8_iterator.hpp:127-128. -/
  | assign (i j : Nat)
  /-- `++i`: utf8_iterator.hpp:134-137. -/
  | next (i : Nat)
  /-- `--i`: utf8_iterator.hpp:150-153. -/
  | prev (i : Nat)
  /-- `print(*i)`: utf8_iterator.hpp:190-192. -/
  | get (i : Nat)
  /-- `print(i == j)`: utf8_iterator.hpp:166-181. -/
  | same (i j : Nat)
  /-- `g = src.grapheme_begin()`: basic_encodedstring.hpp:152-156. -/
  | gfirst (g : Nat) (src : Place)
  /-- `g = src.grapheme_end()`: basic_encodedstring.hpp:157-162. -/
  | glast (g : Nat) (src : Place)
  /-- `g = h`: basic_grapheme_iterator.hpp:219-221. -/
  | gassign (g h : Nat)
  /-- `++g`: basic_grapheme_iterator.hpp:234-238. -/
  | gnext (g : Nat)
  /-- Printing the codepoints of `*g`: basic_grapheme_iterator.hpp:226-228, basic_grapheme.hpp:52-61. -/
  | gget (g : Nat)
  /-- `print(g == h)`: basic_grapheme_iterator.hpp:267-280. -/
  | gsame (g h : Nat)
  /-- `i = (*g).codepoint_begin()`: basic_grapheme.hpp:52-54. -/
  | gstart (i g : Nat)
  /-- `i = (*g).codepoint_end()`: basic_grapheme.hpp:59-61. -/
  | gstop (i g : Nat)
  /-- `m = s.codepoint_begin()`, which only strings have: basic_encodedstring.hpp:132-134. -/
  | mfirst (m s : Nat)
  /-- `m = s.codepoint_end()`: basic_encodedstring.hpp:135-137. -/
  | mlast (m s : Nat)
  /-- `m = n`: utf8_iterator.hpp:224-225. -/
  | massign (m n : Nat)
  /-- `++m`: utf8_iterator.hpp:231-234. -/
  | mnext (m : Nat)
  /-- `--m`: utf8_iterator.hpp:247-250. -/
  | mprev (m : Nat)
  /-- `print(*m)`: utf8_iterator.hpp:303-307, 340-342. -/
  | mget (m : Nat)
  /-- `print(m == n)`: utf8_iterator.hpp:263-278. -/
  | msame (m n : Nat)
  /-- `*m = c`: utf8_iterator.hpp:316-342. -/
  | mset (m : Nat) (c : Int)

/-- The string whose views and iterators a statement invalidates. basic_encodedstring.hpp:89-219. -/
def HeldOp.invalidates : HeldOp → Option Nat
  | .copy d _ | .clear d | .append d _ | .appendCps d _ | .convert d _ | .appendGraphemes d _ _ _
  | .normalize _ d _ => some d
  | _ => none

/-- Strings and variables of a running program. `gen s` counts the invalidations of string `s`. A view variable holds the
number of its string, the count when it was made, and where it begins and ends in the memory of the string; an iterator
variable the number of its string, the count and its position or positions. utf8_string_view.hpp:22,
utf8_iterator.hpp:109-195, basic_grapheme_iterator.hpp:35-44. -/
structure HeldMachine where
  strings : Nat → Text
  gen : Nat → Nat
  views : Nat → Option (Nat × Nat × Nat × Nat)
  its : Nat → Option (Nat × Nat × Nat)
  gits : Nat → Option (Nat × Nat × GIter)
  mits : Nat → Option (Nat × Nat × Nat)

/-- Before the first statement: no variable is initialized. basic_encodedstring.hpp:89. -/
def HeldMachine.start (σ : Nat → Text) : HeldMachine := 
  ⟨σ, fun _ => 0, fun _ => none, fun _ => none, fun _ => none, fun _ => none⟩

/-- String, beginning and end of a view variable; undefined if it was never initialized or has been invalidated.
utf8_string_view.hpp:22. -/
def HeldMachine.view (M : HeldMachine) (v : Nat) : Res (Nat × Nat × Nat) :=
  match M.views v with
  | some (s, g, p, q) => if g = M.gen s then .ok (s, p, q) else .ub
  | none => .ub

/-- The same for an iterator variable. utf8_iterator.hpp:109-195. -/
def HeldMachine.it (M : HeldMachine) (i : Nat) : Res (Nat × Nat) :=
  match M.its i with
  | some (s, g, p) => if g = M.gen s then .ok (s, p) else .ub
  | none => .ub

/-- The same for a grapheme iterator variable. basic_grapheme_iterator.hpp:35-44. -/
def HeldMachine.git (M : HeldMachine) (i : Nat) : Res (Nat × GIter) :=
  match M.gits i with
  | some (s, g, x) => if g = M.gen s then .ok (s, x) else .ub
  | none => .ub

/-- The same for a mutable iterator variable. utf8_iterator.hpp:203-345. -/
def HeldMachine.mit (M : HeldMachine) (i : Nat) : Res (Nat × Nat) :=
  match M.mits i with
  | some (s, g, p) => if g = M.gen s then .ok (s, p) else .ub
  | none => .ub

/-- String, beginning and end of what a statement reads. A range cannot end before it begins, nor end in another string.
basic_encodedstring.hpp:128-143. -/
def HeldMachine.opened (M : HeldMachine) : Place → Res (Nat × Nat × Nat)
  | .whole s => .ok (s, 0, (M.strings s).size)
  | .view s i j => do
    let p ← stdNext (M.strings s).iter i 0
    let q ← stdNext (M.strings s).iter j 0
    if p ≤ q then pure (s, p, q) else .ub
  | .held v => M.view v
  | .part v i j => do
    let (s, b, _) ← M.view v
    let p ← stdNext (M.strings s).iter i b
    let q ← stdNext (M.strings s).iter j b
    if p ≤ q then pure (s, p, q) else .ub
  | .between i j => do
    let (s, p) ← M.it i
    let (t, q) ← M.it j
    if s = t ∧ p ≤ q then pure (s, p, q) else .ub

/-- The effect of a statement on the strings; the functions called are those of `viewStep` (Model/Views.lean), with the
simplifications noted there. basic_encodedstring.hpp:89-219. -/
def HeldMachine.step (M : HeldMachine) (sort : SortFn) (fuel : Nat) : HeldOp → Res ((Nat → Text) × Obs)
  | .copy d s => do
    let t ← (M.strings d).editFrom (M.strings s) fun _ _ b => .ok b
    pure (upd M.strings d t, .none)
  | .clear d => do
    let (t, o) ← (M.strings d).edit fun _ _ => .ok ([], .none)
    pure (upd M.strings d t, o)
  | .append d src => do
    let (s, p, q) ← M.opened src
    let t ← (M.strings d).editFrom (M.strings s) fun E a b => E.appendRange a (b ++ [E.nul]) p q
    pure (upd M.strings d t, .none)
  | .appendCps d v => do
    let (t, o) ← (M.strings d).edit fun E m => do pure (← E.appendCps m v, .none)
    pure (upd M.strings d t, o)
  | .convert d src => do
    let (s, p, q) ← M.opened src
    if d = s then .ub
    else do
      let cs ← readRange (M.strings s).iter q fuel p
      let (t, o) ← (M.strings d).edit fun E m => do pure (← E.appendCps m cs, .none)
      pure (upd M.strings d t, o)
  | .appendGraphemes d src i j => do
    let (s, p, q) ← M.opened src
    let I := (M.strings s).iter
    let gi ← (graphemeBegin I fuel p q >>= incN I fuel i)
    let gj ← (graphemeBegin I fuel p q >>= incN I fuel j)
    let t ← (M.strings d).editFrom (M.strings s) fun E a _ => E.appendGraphemes I fuel a gi gj
    pure (upd M.strings d t, .none)
  | .normalize F d src => do
    let (s, p, q) ← M.opened src
    if d = s then .ub
    else do
      let (t, o) ← (M.strings d).edit fun E m => do
        let (n, t) ← normalizeText (F.run sort E.appendCps) (M.strings s).iter fuel p q m
        pure (t, .number n)
      pure (upd M.strings d t, o)
  | .write s i c => do
    let p ← stdNext (M.strings s).iter i 0
    let (t, o) ← (M.strings s).edit fun E m => do
      let (m1, _) ← E.assign (m ++ [E.nul]) p c
      pure (← E.stored m1, .none)
    pure (upd M.strings s t, o)
  | .transform s f => do
    let (t, o) ← (M.strings s).edit fun E m => do
      let m1 ← E.transformLoop f m.length fuel (m ++ [E.nul]) 0
      pure (← E.stored m1, .none)
    pure (upd M.strings s t, o)
  | .read src => do
    let (s, p, q) ← M.opened src
    let cs ← readRange (M.strings s).iter q fuel p
    pure (M.strings, .codepoints cs)
  | .readBack src => do
    let (s, p, q) ← M.opened src
    let cs ← readBackRange (M.strings s).iter p fuel q
    pure (M.strings, .codepoints cs)
  | .readGraphemes src => do
    let (s, p, q) ← M.opened src
    let (_, gs) ← filterGraphemes (M.strings s).iter fuel p q [] (collectGrapheme (M.strings s).iter fuel)
    pure (M.strings, .graphemes gs)
  | .equal a b => do
    let (s, p, q) ← M.opened a
    let (s', p', q') ← M.opened b
    let x ← stdEqual (M.strings s).iter (M.strings s').iter q q' fuel p p'
    pure (M.strings, .bool x)
  | .less a b => do
    let (s, p, q) ← M.opened a
    let (s', p', q') ← M.opened b
    let x ← stdLess (M.strings s).iter (M.strings s').iter q q' fuel p p'
    pure (M.strings, .bool x)
  | .countIf src pred => do
    let (s, p, q) ← M.opened src
    let n ← stdCountIf (M.strings s).iter pred q fuel p 0
    pure (M.strings, .number n)

/-- Assignment to a view variable. utf8_string_view.hpp:22. -/
def HeldMachine.setView (M : HeldMachine) (v s p q : Nat) : HeldMachine :=
  { M with views := upd M.views v (some (s, M.gen s, p, q)) }

/-- Assignment to an iterator variable. utf8_iterator.hpp:127-128. -/
def HeldMachine.setIt (M : HeldMachine) (i s p : Nat) : HeldMachine :=
  { M with its := upd M.its i (some (s, M.gen s, p)) }

/-- Assignment to a grapheme iterator variable. basic_grapheme_iterator.hpp:219-221. -/
def HeldMachine.setGit (M : HeldMachine) (g s : Nat) (x : GIter) : HeldMachine :=
  { M with gits := upd M.gits g (some (s, M.gen s, x)) }

/-- Assignment to a mutable iterator variable. utf8_iterator.hpp:224-225. -/
def HeldMachine.setMit (M : HeldMachine) (i s p : Nat) : HeldMachine :=
  { M with mits := upd M.mits i (some (s, M.gen s, p)) }

/-- One statement. `*i` moves a const iterator to the start of its codepoint (utf8_iterator.hpp:83-100), a mutable one
not (303-307); `*m = c` leaves it on the last octet written. Comparing iterators of
different strings is undefined. Lines: see `HeldStmt`. -/
def HeldMachine.exec (M : HeldMachine) (sort : SortFn) (fuel : Nat) : HeldStmt → Res (HeldMachine × Obs)
  | .op op => do
    let (σ, o) ← M.step sort fuel op
    match op.invalidates with
    | some d => pure ({ M with strings := σ, gen := upd M.gen d (M.gen d + 1) }, o)
    | none => pure ({ M with strings := σ }, o)
  | .hold v src => do
    let (s, p, q) ← M.opened src
    pure (M.setView v s p q, .none)
  | .first i src => do
    let (s, p, _) ← M.opened src
    pure (M.setIt i s p, .none)
  | .last i src => do
    let (s, _, q) ← M.opened src
    pure (M.setIt i s q, .none)
  | .assign i j => do
    let (s, p) ← M.it j
    pure (M.setIt i s p, .none)
  | .next i => do
    let (s, p) ← M.it i
    let q ← (M.strings s).iter.inc p
    pure (M.setIt i s q, .none)
  | .prev i => do
    let (s, p) ← M.it i
    let q ← (M.strings s).iter.dec p
    pure (M.setIt i s q, .none)
  | .get i => do
    let (s, p) ← M.it i
    let (c, q) ← (M.strings s).iter.deref p
    pure (M.setIt i s q, .codepoints [c])
  | .same i j => do
    let (s, p) ← M.it i
    let (t, q) ← M.it j
    if s = t then do
      let b ← (M.strings s).iter.eq p q
      pure (M, .bool b)
    else .ub
  | .gfirst g src => do
    let (s, p, q) ← M.opened src
    let x ← graphemeBegin (M.strings s).iter fuel p q
    pure (M.setGit g s x, .none)
  | .glast g src => do
    let (s, p, q) ← M.opened src
    let x ← graphemeEnd (M.strings s).iter fuel p q
    pure (M.setGit g s x, .none)
  | .gassign g h => do
    let (s, x) ← M.git h
    pure (M.setGit g s x, .none)
  | .gnext g => do
    let (s, x) ← M.git g
    let y ← x.inc (M.strings s).iter fuel
    pure (M.setGit g s y, .none)
  | .gget g => do
    let (s, x) ← M.git g
    let cs ← readRange (M.strings s).iter x.endOf fuel x.where_
    pure (M, .codepoints cs)
  | .gsame g h => do
    let (s, x) ← M.git g
    let (t, y) ← M.git h
    if s = t then do
      let b ← x.eqG (M.strings s).iter fuel y
      pure (M, .bool b)
    else .ub
  | .gstart i g => do
    let (s, x) ← M.git g
    pure (M.setIt i s x.where_, .none)
  | .gstop i g => do
    let (s, x) ← M.git g
    pure (M.setIt i s x.endOf, .none)
  | .mfirst m s => .ok (M.setMit m s 0, .none)
  | .mlast m s => .ok (M.setMit m s (M.strings s).size, .none)
  | .massign m n => do
    let (s, p) ← M.mit n
    pure (M.setMit m s p, .none)
  | .mnext m => do
    let (s, p) ← M.mit m
    let q ← (M.strings s).iter.inc p
    pure (M.setMit m s q, .none)
  | .mprev m => do
    let (s, p) ← M.mit m
    let q ← (M.strings s).iter.dec p
    pure (M.setMit m s q, .none)
  | .mget m => do
    let (s, p) ← M.mit m
    let (c, _) ← (M.strings s).iter.deref p
    pure (M, .codepoints [c])
  | .msame m n => do
    let (s, p) ← M.mit m
    let (t, q) ← M.mit n
    if s = t then do
      let b ← (M.strings s).iter.eq p q
      pure (M, .bool b)
    else .ub
  | .mset m c => do
    let (s, p) ← M.mit m
    let (t, q) ← (M.strings s).edit fun E x => do
      let (x1, q) ← E.assign (x ++ [E.nul]) p c
      pure (← E.stored x1, q)
    pure (({ M with strings := upd M.strings s t } : HeldMachine).setMit m s q, .none)

/-- A user's program: the next statement, depending on everything printed so far. basic_encodedstring.hpp:89-219. -/
abbrev HeldClient := List Obs → Option HeldStmt

/-- At most `n` statements of a program, having printed `os` so far. Lines: see `HeldStmt`. -/
def HeldMachine.run (sort : SortFn) (fuel : Nat) (client : HeldClient) :
    Nat → HeldMachine → List Obs → Res (HeldMachine × List Obs)
  | 0, M, os => .ok (M, os)
  | n + 1, M, os =>
    match client os with
    | none => .ok (M, os)
    | some st => do
      let (M1, o) ← M.exec sort fuel st
      HeldMachine.run sort fuel client n M1 (os ++ [o])

end U5e
