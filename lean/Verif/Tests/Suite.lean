import Verif.Proofs.Forms
import Verif.Model.Utf8Bounds
import Verif.Model.EncodedString
/-!
# The repository's own tests, run on the model

These are tests, not proofs of properties: every assertion of /repo/t/*.t.cpp about a value, evaluated on the model by
the kernel. They are the only observations of the real program available here, so they check the reading of the C++.
Assertions on constructors only (002, 003, constructor*) and on `sizeof` (003, traits) have no counterpart. Where the
test reads a `std::string` or a literal, the memory is the text followed by NUL.
-/
namespace U5e.Tests

/-- "Ol\xC3\x81!", used in t/003_utf8_encoded_iterator.t.cpp and t/007_utf8_bounds.t.cpp. -/
def olA : Mem := [0x4F, 0x6C, 0xC3, 0x81, 0x21]

/-- "Ola\xCC\x81!", used in t/005_grapheme_cluster.t.cpp, t/006_grapheme_iterator.t.cpp and t/008_filter.t.cpp. -/
def olaAcute : Mem := [0x4F, 0x6C, 0x61, 0xCC, 0x81, 0x21]

/-! ## t/002_utf32_encoded_iterator.t.cpp:39-73 (iteratora on a view, iteratorb on a string) -/

/-- `*it` asserted to be `c`, then `it++`; the position after. -/
def expectThenNext (I : CpIter) (c : Int) (p : Nat) : Res Nat := do
  let (d, p1) ← I.deref p
  if d = c then I.inc p1 else .ub

example : (do
    let I := utf32Iter [72, 101, 108, 108, 111]
    let p ← expectThenNext I 72 0
    let p ← expectThenNext I 101 p
    let p ← expectThenNext I 108 p
    let p ← expectThenNext I 108 p
    let p ← expectThenNext I 111 p
    I.eq p 5) = .ok true := by decide +kernel

example : (do
    let I := utf32Iter ([72, 101, 108, 108, 111] ++ [0])
    let p ← expectThenNext I 72 0
    let p ← expectThenNext I 101 p
    let p ← expectThenNext I 108 p
    let p ← expectThenNext I 108 p
    let p ← expectThenNext I 111 p
    I.eq p 5) = .ok true := by decide +kernel

/-! ## t/003_utf8_encoded_iterator.t.cpp -/

/-- iteratora, iteratorb (44-70). -/
example : (do
    let I := utf8Iter (olA ++ [0])
    let p ← expectThenNext I 79 0
    let p ← expectThenNext I 108 p
    let p ← expectThenNext I 0xC1 p
    let p ← expectThenNext I 33 p
    I.eq p 5) = .ok true := by decide +kernel

/-- iteratorc (72-97), with every assertion in order. -/
example : (do
    let I := utf8Iter (olA ++ [0])
    let (c1, p) ← I.deref 0                 -- 'O'
    let p ← I.inc p
    let copy := p
    let e1 ← I.eq copy p                    -- true
    let (c2, p) ← I.deref p                 -- 'l'
    let copy := p
    let p ← I.inc p
    let e2 ← I.eq copy p                    -- false
    let (c3, p) ← I.deref p                 -- 0xC1
    let p ← I.inc p
    let (c4, p) ← I.deref p                 -- '!'
    let p ← I.inc p
    let e3 ← I.eq p 5                       -- true
    let p ← I.dec p
    let e4 ← I.eq p p                       -- true
    let (c5, p) ← I.deref p                 -- '!'
    let copy := p
    let p ← I.dec p
    let e5 ← I.eq copy p                    -- false
    let (c6, p) ← I.deref p                 -- 0xC1
    let p ← I.dec p
    let (c7, p) ← I.deref p                 -- 'l'
    let p ← I.dec p
    let (c8, p) ← I.deref p                 -- 'O'
    let e6 ← I.eq p 0                       -- true
    pure ([c1, c2, c3, c4, c5, c6, c7, c8], [e1, e2, e3, e4, e5, e6])) =
    .ok ([79, 108, 0xC1, 33, 33, 0xC1, 108, 79], [true, false, true, true, false, true]) := by decide +kernel

/-- iteratord (99-113): writing 0xC1 over "aa" in "Olaa!". -/
example : (do
    let m : Mem := [0x4F, 0x6C, 0x61, 0x61, 0x21, 0]
    let (c1, _) ← cur m 0                   -- 'O'
    let p ← fwd m 0
    let (c2, _) ← cur m p                   -- 'l'
    let p ← fwd m p
    let (m, p) ← assign m p 0xC1#32
    let (c3, _) ← cur m p                   -- 0xC1
    let p ← fwd m p
    let o ← rd m 3                          -- 0x81
    let (m, p) ← assign m p 0x21#32
    let p ← fwd m p
    pure ([c1, c2, c3], o, m, p)) = .ok ([79, 108, 0xC1], 0x81, olA ++ [0], 5) := by decide +kernel

/-- iteratore, iteratorf (115-125). -/
example : cur (olA ++ [0]) 0 = .ok (79, 0) := by decide +kernel

/-- decode (136-146): arrays without a terminator. -/
example : cur [0b11010000, 0b10100000] 0 = .ok (1056, 0) ∧
    cur [0b11101000, 0b10100000, 0b10100000] 0 = .ok (34848, 0) ∧
    cur [0b11110100, 0b10100000, 0b10100000, 0b10100000] 0 = .ok (1181728, 0) := by decide +kernel

/-- output_iterator (148-155): `std::copy` from one utf8_string into another of five spaces. -/
example : (do
    let cs ← readRange (utf8Iter (olA ++ [0])) 5 10 0
    let (m, _) ← copyInto (List.replicate 5 0x20 ++ [0]) 0 (cs.map (BitVec.ofInt 32))
    pure m) = .ok (olA ++ [0]) := by decide +kernel

/-! ## t/005_grapheme_cluster.t.cpp: a grapheme given by two codepoint iterators (string and view) -/

example : (do
    let I := utf8Iter (olaAcute ++ [0])
    let i ← I.inc 0
    let i ← I.inc i
    let gStart := i
    let i ← I.inc i
    let i ← I.inc i
    let g : Grapheme := ⟨gStart, i⟩
    let e0 ← I.eq g.first gStart
    let (c1, gi) ← I.deref g.first
    let gi ← I.inc gi
    let (c2, gi) ← I.deref gi
    let gi ← I.inc gi
    let e1 ← I.eq gi g.last
    let e2 ← I.eq gi i
    pure ([c1, c2], [e0, e1, e2])) = .ok ([97, 769], [true, true, true]) := by decide +kernel

/-! ## t/006_grapheme_iterator.t.cpp -/

/-- The codepoints of the four graphemes and the final comparison with `codepoint_cend()`. -/
def walkFour (I : CpIter) (e : Nat) : Res (List (List Int) × Bool) := do
  let gi ← graphemeBegin I 20 0 e
  let g1 ← readRange I gi.endOf 20 gi.where_
  let gi ← gi.inc I 20
  let g2 ← readRange I gi.endOf 20 gi.where_
  let gi ← gi.inc I 20
  let g3 ← readRange I gi.endOf 20 gi.where_
  let gi ← gi.inc I 20
  let g4 ← readRange I gi.endOf 20 gi.where_
  let gi ← gi.inc I 20
  let b ← gi.eqCp I 20 e
  pure ([g1, g2, g3, g4], b)

example : walkFour (utf8Iter (olaAcute ++ [0])) 6 = .ok ([[79], [108], [97, 769], [33]], true) := by decide +kernel

example : walkFour (utf32Iter ([79, 108, 97, 769, 33] ++ [0])) 5 = .ok ([[79], [108], [97, 769], [33]], true) := by
  decide +kernel

/-! ## t/007_utf8_bounds.t.cpp -/

example : boundsCheck (olA ++ [0]) 0 5 = .ok true := by decide +kernel
example : boundsCheck (0x81 :: olA ++ [0]) 0 6 = .ok false := by decide +kernel
example : boundsCheck (olA ++ [0xC3] ++ [0]) 0 6 = .ok false := by decide +kernel
example : boundsCheck ([0x81, 0x81] ++ olA ++ [0xC3] ++ [0]) 0 8 = .ok false := by decide +kernel
example : boundsEnforce (olA ++ [0]) 0 5 = .ok (olA ++ [0], true) := by decide +kernel
example : boundsEnforce ([0x81, 0x81] ++ olA ++ [0]) 0 7 = .ok ([0x3F, 0x3F] ++ olA ++ [0], false) := by
  decide +kernel
example : boundsEnforce (olA ++ [0xC3] ++ [0]) 0 6 = .ok (olA ++ [0x3F] ++ [0], false) := by decide +kernel
example : boundsEnforce ([0x81, 0x81] ++ olA ++ [0xC3] ++ [0]) 0 8 =
    .ok ([0x3F, 0x3F] ++ olA ++ [0x3F] ++ [0], false) := by decide +kernel

/-! ## t/008_filter.t.cpp -/

/-- `first_codepoint_in_grapheme` of the test (lines 8-15). -/
def firstCodepoint (m : Mem) (g : Grapheme) (out : List Octet) : Res (Int × List Octet) := do
  let e ← fwd m g.first
  let o ← appendRange out m g.first e
  pure (1, o)

example : filterGraphemes (utf8Iter (olaAcute ++ [0])) 20 0 6 [] (firstCodepoint (olaAcute ++ [0])) =
    .ok (4, [0x4F, 0x6C, 0x61, 0x21]) := by decide +kernel

/-! ## t/009, t/011, t/014, t/017: the look-ups -/

example : decResolve 191 = none := by decide +kernel
example : (decResolve 192).map (·.take 3) = some [65, 768, 0] := by decide +kernel
example : (decResolve 195101).map (·.take 2) = some [173568, 0] := by decide +kernel
example : kdecResolve 191 = none := by decide +kernel
example : (kdecResolve 192).map (·.take 3) = some [65, 768, 0] := by decide +kernel
example : (kdecResolve 195101).map (·.take 2) = some [173568, 0] := by decide +kernel
example : [191, 770, 1479, 119145, 119149, 119150].map cccResolve = [0, 230, 18, 1, 226, 216] := by decide +kernel
example : compResolve 63 123 = none ∧ compResolve 65 123 = none ∧ compResolve 65 770 = some 194 := by decide +kernel

/-! ## t/010_canonical_decomposition.t.cpp: a view without a terminator -/

example : filter (utf32Iter [0xC0]).input 5 0 1 [] canonicalDecomposition = .ok (2, [0x41, 0x300]) := by decide +kernel

/-! ## t/012, t/013, t/015, t/016, t/018, t/019: the forms, with an insertion sort for `std::sort` -/

example : normalizeText (Form.D.run insSort append32) (utf32Iter ([0xC4, 0xFB03, 0x6E] ++ [0])) 20 0 3 [] =
    .ok (4, [0x41, 0x308, 0xFB03, 0x6E]) := by decide +kernel
example : normalizeText (Form.D.run insSort append8) (utf8Iter ([0xC3, 0x84, 0x21] ++ [0])) 20 0 3 [] =
    .ok (3, [0x41, 0xCC, 0x88, 0x21]) := by decide +kernel
example : normalizeText (Form.C.run insSort append8) (utf8Iter ([0x41, 0xCC, 0x88, 0x21] ++ [0])) 20 0 4 [] =
    .ok (2, [0xC3, 0x84, 0x21]) := by decide +kernel
example : normalizeText (Form.C.run insSort append32) (utf32Iter ([0x41, 0x308, 0xFB03, 0x6E] ++ [0])) 20 0 4 [] =
    .ok (3, [0xC4, 0xFB03, 0x6E]) := by decide +kernel
example : normalizeText (Form.KD.run insSort append32) (utf32Iter ([0xFB01] ++ [0])) 20 0 1 [] =
    .ok (2, [0x66, 0x69]) := by decide +kernel
example : normalizeText (Form.KD.run insSort append32) (utf32Iter ([0x1E9B, 0x323] ++ [0])) 20 0 2 [] =
    .ok (3, [0x73, 0x323, 0x307]) := by decide +kernel
example : normalizeText (Form.KC.run insSort append32) (utf32Iter ([0x1E9B, 0x323] ++ [0])) 20 0 2 [] =
    .ok (1, [0x1E69]) := by decide +kernel

end U5e.Tests
