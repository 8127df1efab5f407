import Verif.Model.Normalize
import Verif.Model.EncodedString
/-!
# The programs in /repo/examples

An argument is the list of octets before its terminating NUL; a program's result is what it prints, as a list
of characters.
-/
namespace U5e

/-- One hexadecimal digit as `%x` prints it. examples/simple_iteration.cpp:31. -/
def hexChar (d : Nat) : Char := Char.ofNat (if d < 10 then 48 + d else 87 + d)

/-- The last `w` hexadecimal digits of `n`. examples/simple_iteration.cpp:31. -/
def printPad : Nat → Nat → List Char
  | 0, _ => []
  | w + 1, n => printPad w (n / 16) ++ [hexChar (n % 16)]

/-- How many digits `%06llx` prints. examples/simple_iteration.cpp:31. -/
def hexWidth (n : Nat) : Nat := ((List.range 17).find? fun w => decide (6 ≤ w ∧ n < 16 ^ w)).getD 16

/-- `printf("%06llx", (long long unsigned int)c)` for a codepoint, converted by codepoint.hpp `operator int` and
then to 64 bits without sign. examples/simple_iteration.cpp:31. -/
def printHex (c : Int) : List Char :=
  let n := (c % 2 ^ 64).toNat
  printPad (hexWidth n) n

/-- examples/simple_iteration.cpp:16-38 `main`, with fuel for its loop. -/
def exSimpleIteration (fuel : Nat) : List (List Octet) → Res (List Char)
  | [] => .ok []
  | arg :: args => do
    let cs ← walkPost (arg ++ [0]) arg.length fuel 0
    let rest ← exSimpleIteration fuel args
    pure (cs.flatMap (fun c => " U+".toList ++ printHex c ++ " ".toList) ++ "\n".toList ++ rest)

/-- The loop examples/grapheme_iteration.cpp:31-45 over one argument; `p.grapheme_end()` is computed anew in
every round. The inner loop (37-42) is `readRange`. -/
def exGraphemeLoop (I : CpIter) (gfuel b e : Nat) : Nat → GIter → Res (List Char)
  | 0, _ => .tmo
  | fuel + 1, gi => do
    let z ← graphemeEnd I gfuel b e
    let fin ← gi.eqG I gfuel z
    if fin then pure []
    else
      let cs ← readRange I gi.endOf gfuel gi.where_
      let gi1 ← gi.inc I gfuel
      let rest ← exGraphemeLoop I gfuel b e fuel gi1
      pure ("[".toList ++ cs.flatMap (fun c => " U+".toList ++ printHex c) ++ " ]".toList ++ rest)

/-- The same loop as a client writes it, collecting the codepoints of every grapheme: nothing is counted.
examples/grapheme_iteration.cpp:31-45. -/
def graphemeLoop (I : CpIter) (gfuel b e : Nat) : Nat → GIter → Res (List (List Int))
  | 0, _ => .tmo
  | fuel + 1, gi => do
    let z ← graphemeEnd I gfuel b e
    let fin ← gi.eqG I gfuel z
    if fin then pure []
    else
      let cs ← readRange I gi.endOf gfuel gi.where_
      let gi1 ← gi.inc I gfuel
      let rest ← graphemeLoop I gfuel b e fuel gi1
      pure (cs :: rest)

/-- examples/grapheme_iteration.cpp:21-50 `main`. -/
def exGraphemeIteration (fuel : Nat) : List (List Octet) → Res (List Char)
  | [] => .ok []
  | arg :: args => do
    let I := utf8Iter (arg ++ [0])
    let gi ← graphemeBegin I fuel 0 arg.length
    let line ← exGraphemeLoop I fuel 0 arg.length fuel gi
    let rest ← exGraphemeIteration fuel args
    pure (line ++ "\n".toList ++ rest)

/-- examples/normalization_form_c.cpp:15-37 `main`, and normalization_form_{d,kd,kc}.cpp, which differ only in
the form. -/
def exNormalization (F : Form) (sort : SortFn) (fuel : Nat) : List (List Octet) → Res (List Char)
  | [] => .ok []
  | arg :: args => do
    let (_, output) ← normalizeText (F.run sort append8) (utf8Iter (arg ++ [0])) fuel 0 arg.length []
    let cs ← readRange (utf8Iter (output ++ [0])) output.length fuel 0
    let rest ← exNormalization F sort fuel args
    pure (cs.flatMap (fun c => " U+".toList ++ printHex c) ++ "\n".toList ++ rest)

/-- examples/normalization_form_c_utf32.cpp:16-30 `main`, and normalization_form_{d,kd,kc}_utf32.cpp. -/
def exNormalization32 (F : Form) (sort : SortFn) (fuel : Nat) : Res (List Char) := do
  let input : List Int := [0xC4, 0xFB03, 0x6E]
  let (_, output) ← normalizeText (F.run sort append32) (utf32Iter (input ++ [0])) fuel 0 input.length []
  let cs ← readRange (utf32Iter (output ++ [0])) output.length fuel 0
  pure (cs.flatMap (fun c => " U+".toList ++ printHex c))

/-- examples/smallest_code.cpp:11-15 `main`: the exit status, of which the system keeps the low eight bits.
Without an argument `argv[1]` is a null pointer. -/
def exSmallestCode : List (List Octet) → Res Nat
  | [] => .ub
  | arg :: _ => do
    let (c, _) ← cur (arg ++ [0]) 0
    pure (c % 256).toNat

/-- The text of both truncation examples, `"Ola\xCC\x81!"`. examples/truncate_on_codepoint.cpp:21,
examples/truncate_on_grapheme.cpp:25. -/
def olaText : List Octet := [0x4F, 0x6C, 0x61, 0xCC, 0x81, 0x21]

/-- examples/truncate_on_codepoint.cpp:19-36 `main`: the octets written before the newline. -/
def exTruncateCodepoint : Res (List Octet) := appendRange [] (olaText ++ [0]) 0 4

/-- examples/truncate_on_grapheme.cpp:23-52 `main`: the octets written before the newline. -/
def exTruncateGrapheme (fuel : Nat) : Res (List Octet) := do
  let I := utf8Iter (olaText ++ [0])
  let gb ← gBegin I fuel 0 olaText.length
  let gi ← gAt I fuel 0 olaText.length 4
  appendGraphemes8 I fuel [] gb gi

end U5e
