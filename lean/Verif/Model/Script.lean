import Verif.Model.Generators
/-!
# Model of the table generators as programs on text

src/u5e/props/*_data.pl and grapheme_cluster_break_data.sh, from the octets of the UCD files to the octets of
the `*_data.hpp` files. Text is a list of octets (`Str`). `keys %d` may enumerate a hash in any order: the
orders are parameters. Warnings and `die` on missing files are not modelled.
-/
namespace U5e

/-- A Perl string or the content of a file: its octets. src/u5e/props/canonical_combining_class_data.pl:8-34. -/
abbrev Str := List Nat

/-- `while (defined (my $line = <$ucd>)) { chomp $line; … }`, the lines of a file without their newlines.
src/u5e/props/canonical_decomposition_mapping_data.pl:14-15. -/
def lines : Str → List Str
  | [] => []
  | c :: s =>
    if c = 10 then [] :: lines s
    else match lines s with
      | [] => [[c]]
      | l :: ls => (c :: l) :: ls

/-- The pieces of a string between the occurrences of an octet, empty ones included. Used for
src/u5e/props/canonical_decomposition_mapping_data.pl:17 `split /;/, $line`. -/
def splitOn (sep : Nat) : Str → List Str
  | [] => [[]]
  | c :: s =>
    if c = sep then [] :: splitOn sep s
    else match splitOn sep s with
      | [] => [[c]]
      | w :: ws => (c :: w) :: ws

/-- Perl's `split` drops empty fields at the end (perldoc -f split).
src/u5e/props/canonical_decomposition_mapping_data.pl:17. -/
def dropTrailing (ws : List Str) : List Str := (ws.reverse.dropWhile List.isEmpty).reverse

/-- `split /x/, $s` for a one-octet separator. src/u5e/props/canonical_decomposition_mapping_data.pl:17 (`;`),
canonical_composition_mapping_data.pl:53,90 (space). -/
def perlSplit (sep : Nat) (s : Str) : List Str := dropTrailing (splitOn sep s)

/-- `\s`. src/u5e/props/canonical_decomposition_mapping_data.pl:21. -/
def isSpace (c : Nat) : Bool := c == 32 || (9 ≤ c && c ≤ 13)

/-- Every maximal run of white space replaced by one space. Used for
src/u5e/props/canonical_decomposition_mapping_data.pl:21 `split /\s+/, …`. -/
def squeeze : Str → Str
  | [] => []
  | c :: s =>
    if isSpace c then (if isSpace (s.headD 0) then squeeze s else 32 :: squeeze s)
    else c :: squeeze s

/-- `split /\s+/, $s`. src/u5e/props/canonical_decomposition_mapping_data.pl:21. -/
def splitSpaces (s : Str) : List Str := perlSplit 32 (squeeze s)

/-- The truth of a Perl string (undefined is read as empty): neither empty nor `0`.
src/u5e/props/canonical_combining_class_data.pl:16 `next unless $class`. -/
def perlTrue (s : Str) : Bool := s != [] && s != [48]

/-- A hexadecimal digit. src/u5e/props/canonical_composition_mapping_data.pl:28 `[a-fA-F0-9]`. -/
def hexDigit? (c : Nat) : Option Nat :=
  if 48 ≤ c ∧ c ≤ 57 then some (c - 48)
  else if 65 ≤ c ∧ c ≤ 70 then some (c - 55)
  else if 97 ≤ c ∧ c ≤ 102 then some (c - 87)
  else none

/-- The loop of `hex`: the value of the leading hexadecimal digits.
src/u5e/props/canonical_decomposition_mapping_data.pl:51. -/
def hexFrom (acc : Nat) : Str → Nat
  | [] => acc
  | c :: s =>
    match hexDigit? c with
    | some d => hexFrom (acc * 16 + d) s
    | none => acc

/-- `hex($s)`, src/u5e/props/canonical_decomposition_mapping_data.pl:51,59. Simplification: the prefix `0x` and
underscores, which Perl would accept, are not. -/
def hex (s : Str) : Nat := hexFrom 0 s

/-- The loop of `num`. src/u5e/props/canonical_composition_mapping_data.pl:31. -/
def numFrom (acc : Nat) : Str → Nat
  | [] => acc
  | c :: s => if 48 ≤ c ∧ c ≤ 57 then numFrom (acc * 10 + (c - 48)) s else acc

/-- A string used as a number: the value of its leading decimal digits (src/u5e/props/canonical_composition_mapping_data.pl:31
`$ccc == 0`, 54 `$ccc{$first} != 0`). Simplification: no sign, fraction, exponent or leading space. -/
def num (s : Str) : Nat := numFrom 0 s

/-- A number used as a string: its decimal digits. src/u5e/props/canonical_decomposition_mapping_data.pl:59. -/
def dec (n : Nat) : Str :=
  if n < 10 then [48 + n] else dec (n / 10) ++ [48 + n % 10]
termination_by n
decreasing_by omega

/-- `join($sep, @list)`. src/u5e/props/canonical_decomposition_mapping_data.pl:56,59. -/
def join (sep : Str) : List Str → Str
  | [] => []
  | [x] => x
  | x :: y :: xs => x ++ sep ++ join sep (y :: xs)

/-- `", "`, src/u5e/props/canonical_decomposition_mapping_data.pl:59. -/
def commaSpace : Str := [44, 32]
/-- `",\n"`, src/u5e/props/canonical_decomposition_mapping_data.pl:56. -/
def commaNewline : Str := [44, 10]
/-- `"{ "`, src/u5e/props/canonical_decomposition_mapping_data.pl:59. -/
def openBrace : Str := [123, 32]
/-- `" }"`, src/u5e/props/canonical_combining_class_data.pl:31. -/
def closeBrace : Str := [32, 125]
/-- `", 0 }"`, src/u5e/props/canonical_decomposition_mapping_data.pl:59. -/
def commaZeroClose : Str := [44, 32, 48, 32, 125]
/-- `<compat> ` , src/u5e/props/compatibility_and_canonical_decomposition_mapping_data.pl:21. -/
def compatPrefix : Str := [60, 99, 111, 109, 112, 97, 116, 62, 32]

/-- src/u5e/props/canonical_combining_class_data.pl:10-18, the reading loop. -/
def readCccT (file : Str) : Hash Str Str :=
  (lines file).foldl (fun d line =>
    let fields := perlSplit 59 line
    let codepoint := fields.getD 0 []
    let cls := fields.getD 3 []
    if perlTrue cls then d.set codepoint cls else d) (fun _ => none)

/-- src/u5e/props/canonical_combining_class_data.pl:8-34 as a whole: the octets of canonical_combining_class_data.hpp.
`ks` is `keys %d` in line 24. -/
def cccScript (ks : List Str) (file : Str) : Str :=
  let d := readCccT file
  join commaNewline ((ks.mergeSort (fun a b => decide (hex a ≤ hex b))).map (fun k =>
    openBrace ++ dec (hex k) ++ commaSpace ++ (d k).getD [] ++ closeBrace))

/-- `$decomposition =~ s/^<compat> //`, src/u5e/props/compatibility_and_canonical_decomposition_mapping_data.pl:21. -/
def stripCompat (s : Str) : Str := if compatPrefix.isPrefixOf s then s.drop compatPrefix.length else s

/-- src/u5e/props/canonical_decomposition_mapping_data.pl:14-22 (`compat = false`) and
compatibility_and_canonical_decomposition_mapping_data.pl:14-25 (`compat = true`), the reading loops. -/
def readDecT (compat : Bool) (file : Str) : Hash Str (List Str) :=
  (lines file).foldl (fun d line =>
    let fields := perlSplit 59 line
    let codepoint := fields.getD 0 []
    let decomposition := fields.getD 5 []
    if perlTrue decomposition then
      let decomposition := if compat then stripCompat decomposition else decomposition
      if decomposition.headD 0 = 60 then d
      else d.set codepoint (splitSpaces decomposition)
    else d) (fun _ => none)

/-- canonical_decomposition_mapping_data.pl and compatibility_and_canonical_decomposition_mapping_data.pl as a whole
(src/u5e/props/canonical_decomposition_mapping_data.pl:11-62): the octets of the `.hpp` file; `none` is running out
of fuel. `orders n` is `keys %d` in round `n` (line 32; 35 in the compatibility script), `ks` is `keys %d` in line 51 (54). -/
def decScript (compat : Bool) (orders : Nat → List Str) (ks : List Str) (fuel : Nat) (file : Str) : Option Str :=
  match substLoop orders fuel 0 (readDecT compat file) with
  | none => none
  | some d =>
    some (join commaNewline ((ks.mergeSort (fun a b => decide (hex a ≤ hex b))).map (fun k =>
      openBrace ++ dec (hex k) ++ commaSpace ++ join commaSpace (((d k).getD []).map (fun x => dec (hex x))) ++
        commaZeroClose)))

/-- `[a-fA-F0-9]`, src/u5e/props/canonical_composition_mapping_data.pl:28. -/
def isHex (c : Nat) : Bool := (hexDigit? c).isSome

/-- `/^[a-fA-F0-9]+ [a-fA-F0-9]+/`, src/u5e/props/canonical_composition_mapping_data.pl:28. -/
def hexPair (s : Str) : Bool :=
  isHex (s.headD 0) &&
    (match s.dropWhile isHex with
    | a :: b :: _ => a == 32 && isHex b
    | _ => false)

/-- src/u5e/props/canonical_composition_mapping_data.pl:14-20, the hash `%ccc`. -/
def compCccT (file : Str) : Hash Str Str :=
  (lines file).foldl (fun ccc line =>
    let fields := perlSplit 59 line
    let cls := fields.getD 3 []
    ccc.set (fields.getD 0 []) (if perlTrue cls then cls else [48])) (fun _ => none)

/-- src/u5e/props/canonical_composition_mapping_data.pl:14-36, the hash `%d`. -/
def compReadT (file : Str) : Hash Str Str :=
  (lines file).foldl (fun d line =>
    let fields := perlSplit 59 line
    let codepoint := fields.getD 0 []
    let ccc := fields.getD 3 []
    let decomposition := fields.getD 5 []
    if perlTrue decomposition then
      if decomposition.headD 0 = 60 then d
      else if hexPair decomposition then
        if num ccc = 0 then d.set decomposition codepoint else d
      else d
    else d) (fun _ => none)

/-- `$line =~ s/\s.+//`: cut at the first white space that is not the last octet.
src/u5e/props/canonical_composition_mapping_data.pl:45. -/
def cutSpace : Str → Str
  | [] => []
  | c :: s => if isSpace c && s != [] then [] else c :: cutSpace s

/-- src/u5e/props/canonical_composition_mapping_data.pl:39-48, the keys of `%excl`. -/
def exclReadT (file : Str) : List Str :=
  ((lines file).map (fun line => cutSpace (line.takeWhile (· != 35)))).filter perlTrue

/-- src/u5e/props/canonical_composition_mapping_data.pl:51-65, the deletions; `ks` is `@all_decompositions`. -/
def compDeleteT (ccc : Hash Str Str) (excl : List Str) (d : Hash Str Str) : List Str → Hash Str Str
  | [] => d
  | k :: ks =>
    let first := (perlSplit 32 k).headD []
    if num ((ccc first).getD []) ≠ 0 then compDeleteT ccc excl (d.del k) ks
    else
      let composition := (d k).getD []
      if composition ∈ excl then compDeleteT ccc excl (d.del k) ks else compDeleteT ccc excl d ks

/-- `($a =~ /^([a-fA-F0-9]+)/)[0]`, src/u5e/props/canonical_composition_mapping_data.pl:73. -/
def hexRun (s : Str) : Str := s.takeWhile isHex

/-- `($a =~ /\s([a-fA-F0-9]+)/)[0]`, src/u5e/props/canonical_composition_mapping_data.pl:77. -/
def spaceHexRun : Str → Str
  | [] => []
  | c :: s => if isSpace c && isHex (s.headD 0) then hexRun s else spaceHexRun s

/-- src/u5e/props/canonical_composition_mapping_data.pl:71-81, the comparison (`a <= b`). -/
def compLeT (a b : Str) : Bool :=
  decide (hex (hexRun a) < hex (hexRun b) ∨
    (hex (hexRun a) = hex (hexRun b) ∧ hex (spaceHexRun a) ≤ hex (spaceHexRun b)))

/-- src/u5e/props/canonical_composition_mapping_data.pl:10-96 as a whole: the octets of canonical_composition_mapping_data.hpp.
`ks1`, `ks2` are the two uses of `keys %d` (lines 51 and 82); `exclFile` is CompositionExclusions.txt. -/
def compScript (ks1 ks2 : List Str) (exclFile file : Str) : Str :=
  let d := compDeleteT (compCccT file) (exclReadT exclFile) (compReadT file) ks1
  join commaNewline ((ks2.mergeSort compLeT).map (fun k =>
    let dc := perlSplit 32 k
    openBrace ++ join commaSpace ([dc.getD 0 [], dc.getD 1 [], (d k).getD []].map (fun x => dec (hex x))) ++
      closeBrace))

/-- `grep '^[A-F0-9]'` and `[0-9A-F]` in grapheme_cluster_break_data.sh: src/u5e/props/grapheme_cluster_break_data.sh:3-5. -/
def isUpperHex (c : Nat) : Bool := (48 ≤ c && c ≤ 57) || (65 ≤ c && c ≤ 70)

/-- `s/^([0-9A-F]+)\s/$1..$1/`, src/u5e/props/grapheme_cluster_break_data.sh:4. -/
def singleToRange (s : Str) : Str :=
  match s.takeWhile isUpperHex, s.dropWhile isUpperHex with
  | d :: ds, c :: rest => if isSpace c then (d :: ds) ++ [46, 46] ++ (d :: ds) ++ rest else s
  | _, _ => s

/-- `uc`, src/u5e/props/grapheme_cluster_break_data.sh:5. -/
def upcase (s : Str) : Str := s.map (fun c => if 97 ≤ c ∧ c ≤ 122 then c - 32 else c)

/-- `grapheme_cluster_break::prop_value_type::`, src/u5e/props/grapheme_cluster_break_data.sh:5. -/
def enumPrefix : Str :=
  [103, 114, 97, 112, 104, 101, 109, 101, 95, 99, 108, 117, 115, 116, 101, 114, 95, 98, 114, 101, 97, 107, 58, 58,
   112, 114, 111, 112, 95, 118, 97, 108, 117, 101, 95, 116, 121, 112, 101, 58, 58]

/-- The captures `hex($1)`, `hex($2)`, `$3` of `/^([A-F0-9]+)..([A-F0-9]+)\s+;\s(\S+).+$/`,
src/u5e/props/grapheme_cluster_break_data.sh:5. Simplification: every `+` takes all it can; a line for which only a
shorter choice would match counts as not matching. -/
def rangeParts (s : Str) : Option (Nat × Nat × Str) :=
  let g1 := s.takeWhile isUpperHex
  match s.dropWhile isUpperHex with
  | _ :: _ :: r1 =>
    let g2 := r1.takeWhile isUpperHex
    let r2 := r1.dropWhile isUpperHex
    match r2.dropWhile isSpace with
    | semi :: sp :: r3 =>
      let g3 := r3.takeWhile (fun c => !isSpace c)
      let r4 := r3.dropWhile (fun c => !isSpace c)
      if g1 != [] && g2 != [] && isSpace (r2.headD 0) && semi == 59 && isSpace sp && g3 != [] && r4 != [] then
        some (hex g1, hex g2, g3)
      else none
    | _ => none
  | _ => none

/-- The second substitution, src/u5e/props/grapheme_cluster_break_data.sh:5: what matches becomes
`"{ ".join(", ",hex($1),hex($2),"…::".uc($3))." },"`; a line that does not match stays. -/
def rangeToRow (s : Str) : Str :=
  match rangeParts s with
  | some (a, b, g3) => openBrace ++ join commaSpace [dec a, dec b, enumPrefix ++ upcase g3] ++ closeBrace ++ [44]
  | none => s

/-- The key of `sort -k2 -n`: the number at the start of the second blank-separated field.
src/u5e/props/grapheme_cluster_break_data.sh:6. -/
def sortKey (s : Str) : Nat := num ((s.dropWhile (fun c => !isSpace c)).dropWhile isSpace)

/-- src/u5e/props/grapheme_cluster_break_data.sh:2-6 as a whole: the octets of grapheme_cluster_break_data.hpp.
Simplification: `sort` breaks ties by comparing whole lines; here lines with equal keys keep their order (the
keys are distinct). -/
def gcbScript (file : Str) : Str :=
  let rows := ((lines file).filter (fun l => isUpperHex (l.headD 0))).map (fun l => rangeToRow (singleToRange l))
  (rows.mergeSort (fun a b => decide (sortKey a ≤ sortKey b))).flatMap (fun l => l ++ [10])

end U5e
