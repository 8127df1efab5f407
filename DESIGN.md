# Formal model of ruoso/u5e in Lean 4 — design

## 1. What is modelled and how

The code is a header-only C++14 library plus five table look-ups and the scripts that generate the
tables. Everything is modelled as total, computable Lean functions; nothing is executed from /repo.
Every definition in `Model/*` cites the file and lines it models.

| layer | Lean module (under lean/Verif) | C++ / Perl |
|---|---|---|
| undefined behaviour / loops | `Model/Res` | `Res α = ok a \| ub \| tmo`; UB is a distinct outcome, `tmo` = the fuel of a `while` ran out |
| UTF-8 bit tricks | `Model/Utf8Util` | utf8_util.hpp, on `BitVec 32` like the C++ `int`; `__builtin_clz(0)` is `ub` |
| octet memory, UTF-8 iterators | `Model/Utf8Iter` | utf8_iterator.hpp: const iterator, equality, dereference, `++`, `--`, post-increment |
| UTF-8 writing | `Model/Utf8Write` | proxyobject::operator= (pre- and post-increment idioms), utf8.hpp append_from_utf32ne |
| bounds | `Model/Utf8Bounds` | utf8_bounds.hpp check/enforce |
| abstract codepoint iterator | `Model/Iter` | the template parameter `const_codepoint_iterator` (deref/++/--/==), instances utf8 and utf32ne |
| graphemes | `Model/Grapheme` | basic_grapheme_iterator.hpp, basic_grapheme.hpp, grapheme_begin/end |
| standard algorithms | `Model/Std`, `Model/Search` | what std::next, distance, find_if, count_if, equal, lexicographical_compare, max_element, search and std::reverse_iterator do with the iterators utf8_iterator.hpp and basic_encodedstring.hpp:71-77 declare |
| filter | `Model/Filter` | filter.hpp |
| encoded strings | `Model/EncodedString` | basic_encodedstring.hpp append overloads |
| property look-ups | `Model/Props`, `Model/GcbEnum`, `Data/{Ccc,Dec,Kdec,Comp,Gcb}` | src/u5e/props/*.cpp (glibc-style `bsearch`) and the five `*_data.hpp`, copied row by row by tools/gen_tables.py |
| decomposition, composition, normalization | `Model/Normalize` | codepoint_decomposition.hpp, canonical_composition.hpp, normalization_form_{d,kd,c,kc}.hpp |
| `std::sort` | `Model/StdSort` | not in /repo: libstdc++ 13 (bits/stl_algo.h, bits/stl_heap.h), the instance normalization_form_{d,kd,c,kc}.hpp:34-35 is linked with: introsort, heap sort fallback, final insertion sort |
| `std::sort`, comparisons | `Model/SortLog` | the same functions with the record of every call of the comparator; Proofs/SortLog proves that forgetting the record gives back Model/StdSort |
| programs | `Model/History` | any sequence of statements over any number of strings of one encoding: copy, the three appends, in-place writes, normalize, read in both directions, by grapheme, compare, count |
| programs over both encodings and views | `Model/Views` | the same statements over strings each of which is UTF-8 or utf32ne, reading whole strings or views of parts; conversions |
| programs with iterators | `Model/Cursors` | the same programs with codepoint and grapheme iterator variables; each statement may depend on the output so far |
| programs that hold views | `Model/HeldViews` | the programs of `Model/Views` with variables for views, const and mutable codepoint iterators and grapheme iterators, each statement depending on the output so far |
| programs that catch | `Model/HeldThrow` | the programs of `Model/HeldViews` with exceptions caught after each statement |
| threads that hold views | `Model/HeldThreads` | the programs of `Model/HeldThrow` as threads over shared strings, after a first program |
| the same, access by access | `Model/HeldAccesses` | a statement is a tree of single reads and writes of elements of strings, the schedule switches between any two; which tree is a parameter |
| exceptions | `Model/Throw`, `Model/ViewThrow` | the appends, decomposition, filter, the forms and programs once more, with a throw at the (k+1)st allocation |
| threads | `Model/Threads`, `Model/Accesses`, `Model/ViewThreads` | any number of programs over common strings under any schedule; in `Threads` a statement is one step, in `Accesses` a statement is any sequence of single accesses with that effect and threads are switched between any two of them (sequentially consistent memory) |
| example programs | `Model/Examples` | examples/*.cpp: what they write to standard output |
| generators | `Model/Generators`, `Model/Ucd`, `Data/{Ucd,CompExcl,GcbFile}` | *_data.pl, grapheme_cluster_break_data.sh and the UCD files they read, split into fields by tools/gen_ucd.py |
| generators on text | `Model/Script`, `Data/Raw*`, `Data/Files` | the same scripts from the octets of the UCD files to the octets of the headers (lines, `split`, `hex`, the regular expressions, `sort`, the output punctuation); all eight files octet by octet, one number per line, by tools/gen_raw.py |

Specifications (independent of the model) are in `Spec/*`:
`Utf8` (RFC 2279/3629 encoding, tied to Lean core's `String.utf8EncodeChar`, units, payload), `Text`
(well-shaped text), `Bounds` (what the bounds functions and iteration over arbitrary octets should
do), `Encoder` (the correctly encoded codepoints), `Grapheme` (UAX #29 rules and what a segmentation
is), `Normal` (decomposition, sorts, per-grapheme composition), `Uax15` (D108/D109 canonical ordering,
Hangul, D115/D117 composition), `Ucd` (UnicodeData.txt taken at its word), `Expand` (full expansion of
a mapping), `UcdText` (the text format of the UCD files), `History` (programs on plain lists), `Views` (the same for both encodings and views), `Cursors` (iterators as indices), `HeldViews` (views and iterators as indices), `HeldThrow` (the same with exceptions), `HeldThreads` (which strings a statement touches), `HeldAccesses` (when accesses implement a statement), `Octets` (what arbitrary octets mean), `Threads` (data races), `Throw` (what an
exception may leave), `Printf`
(hexadecimal output), `CppText` (how C++ reads a braced list).
Property theorems are in `Properties/*`, helper lemmas in `Proofs/*`. Each property theorem is
followed by an `example` showing a concrete non-trivial case meeting its hypotheses.

### Modelling decisions (the trusted reading of the C++)

* **Memory.** A buffer is a `List UInt8` (`List Int` for utf32ne); an iterator is a
  position (`Nat`). Reading at or past the length, decrementing at 0 and advancing
  past one-past-the-last is `ub`. A NUL-terminated string (`std::string`,
  `std::basic_string<int>`) is `text ++ [0]`: the code dereferences `end()` all over
  the place, which formally is UB for std iterators; we model the libstdc++ reality
  (the terminator is readable). A view is a window of a larger buffer.
* **Integers.** Codepoints are `Int` (C++ `int32_t`); bit manipulation is on
  `BitVec 32`. `<<` on signed values follows GCC's documented semantics (no UB from
  sign bits) but shift counts outside 0..31 are `ub`. Overflow of an `int` counter is `ub`
  (`addInt`). `char` is signed and `std::ceil((float)k/6)` is `(k+5)/6`.
* **Other platforms** (Model/Platform): the UTF-8 functions once more with the signedness of `char`, the rules for `<<`
  and `>>`, and the precision and rounding of the `float` division as parameters. C65 proves the above choices
  immaterial, and what the letter of C++14 (`<<` of a negative `int` undefined) would leave defined.
* **`std::sort`** is a parameter: any function returning a permutation ordered by the
  comparator (`ConformingSort`, all the C++ standard promises). Theorems that need more say
  `StableSort`; C37 shows what fails without it. C73 puts libstdc++'s algorithm in its place (Model/StdSort, transcribed
  from the installed headers; that the model computes what the real one does was tested on 600 random and adversarial
  ranges, which is evidence for the transcription only and no part of a proof).
* **Loops.** Backward scans are structural in the position; other loops take fuel and
  theorems state the result for all sufficiently large fuel (termination) or `tmo` for
  every fuel (non-termination).
* **`bsearch`** is the textbook/glibc loop `l,u,(l+u)/2`, with out-of-bounds reads and divergence as
  outcomes; C27_search_defined shows it has neither, so the look-ups use its result directly. C67 shows that any
  `bsearch` that keeps the C standard's contract gives the same.
* **Perl hashes** are partial functions; the order of `keys` is a parameter, different at every use.
  Keys are numbers instead of canonical hexadecimal strings. `sort -k2 -n` in the shell script is
  modelled as a sort of ranges by their first codepoint.
* **`readRange`** (append of a codepoint range to a native string) dereferences each element once, in
  order; libstdc++ also walks a forward range with `std::distance` first, which reads nothing the
  equality test and `++` of the modelled walk do not read.
* **Exceptions** come only from appending to or copying a native string and then leave it unchanged (the
  strong guarantee of `std::basic_string`); which call throws is arbitrary (C61). Elsewhere allocations succeed.
* **Iterator invalidation**: a string that is assigned to, cleared or appended to invalidates its iterators, whether
  or not it reallocates; using one later is undefined (C62).
* **Work** (Model/Cost): the functions that read text or tables once more with a counter; a read is one dereference of a
  native iterator or one row compared by `bsearch`. Arithmetic, moving iterators, copies and appends are not counted.
  The number of comparisons `std::sort` makes is a parameter; C73 proves the bound for libstdc++. Proofs/CostErase proves that forgetting the counter
  gives the functions of the rest of the model.
* **The tables in memory** (Model/Layout): the look-ups once more on a memory of typed cells, with the placement of all
  objects, their sizes and offsets and the C library's `bsearch` as parameters; in particular the cast from
  `initializer_list` to pointer. The octets of ints and pointers are not modelled.
* **Not modelled**: template
  instantiation/overload resolution,
  `operator=` of basic_encodedstring (does not compile when used and has no return),
  static_asserts (encoding_assertion.hpp), version constants, `codepoint.hpp`'s wrapper
  (it is its `int`), CMake files, memory use and running time beyond the reads
  counted in C66.

## 2. Trusted base

* Lean 4.33 kernel. Axioms: each theorem depends on at most `propext`, `Classical.choice`,
  `Quot.sound` (checked with `#print axioms`; vcheck reports the same). No axioms of our own, no
  evaluation by compiled code: `decide +kernel` is evaluated by the kernel.
* The reading of the C++ above.
* tools/gen_raw.py, which copies the octets of the three UCD files and the five headers into
  `Data/Raw*.lean` (one little-endian number per line; `tools/gen_raw.py --check` decodes them again and
  compares), and that `Spec/CppText` reads a braced list as a C++ compiler does (C41_compiler_reads_tables: in the
  recorded headers it reads exactly the tables of the model).
* *Not* trusted: tools/gen_tables.py and tools/gen_ucd.py, which parse those files into the rows of
  `Data/{Ccc,Dec,Kdec,Comp,Gcb,Ucd,CompExcl,GcbFile}.lean`: `Proofs/RawUcd` and `Proofs/RawHeaders` prove,
  by kernel evaluation of a checker over all octets, that the files are well-formed texts of exactly
  these rows.
* *Not* trusted: tools/gen_trees.py and `Data/*Tree.lean`. These are search trees used to make kernel
  evaluation over whole tables fast; `Proofs/TreeTables` proves they agree with the tables.
  tools/mkprops.py, tools/mkmanifest.py only produce the reports.

## 3. Plan per property, and how it was proved

* C01–C05, C44: define *units* (a 7-bit octet or lead + announced continuation octets);
  prove rewind/size/decode on a unit in any context, then induct over the list of units.
  UTF-8 encodings are units (Spec), so RFC text is a special case. C02/C05 hold for text followed by
  arbitrary octets under the condition `Followed`, which C02_needs_followed shows necessary.
* C06/C07: invariant over loop iterations (position ≤ end, no scan passes index 0). Exact conditions
  (`C06_exact`, `C06_backward_exact`, `C07_termination`, `C07_backward`); a spinning text accepted by `check` is `tmo` for every fuel.
* C08–C12, C47: `encoded_size` = ceil(log2/6); exact characterisation by intervals; write
  loop gives lead/continuation octets; over-read set characterised exactly; sequential writes by
  induction, with the exact condition on the old octets (Spec/Overwrite.lean, Properties/Overwrite.lean); post-increment writes land on the previous codepoint's octets.
* C13–C17: loops of at most six steps against a first-order specification, for every buffer length.
* C18, C39: rewind of both ends, list slicing; C39's narrowing for UTF-8 is an exact iff.
* C19–C25: generic simulation: any codepoint iterator that simulates list positions
  drives the grapheme iterator like the list; instances utf32ne and utf8. C21 compares the pairwise
  rules with the UAX #29 rules as an exact iff.
* C26: induction over any traversed range with an arbitrary operation; the `Outcome` of an operation that may throw is
  an exact iff.
* C27: sortedness of each table by kernel evaluation over the whole table, general
  bsearch correctness by invariant, for every key.
* C28, C42, C43, C31/C32 table facts: kernel evaluation over all rows, which is the whole finite
  domain (rows outside it do not exist), lifted to all inputs by lemmas; then induction over strings.
* C29, C33, C37: for every conforming sort.
* C30: loop invariant relating the in-place array to a functional composition.
* C34, C45: every grapheme of the output is ordered, decomposed, compose-normal; boundary
  analysis with table facts; exact iff.
* C35: adjacent-swap relation (D108/D109); C36: D117 relation; exact iffs.
* C38: compose C22, C26, C10.
* C40: confluence of the substitution loop; C41: generator output = table by kernel
  evaluation over all UCD rows plus a permutation/sortedness argument for every hash order.
* C46: the forms against the relation UnicodeData.txt itself defines, with C40–C43.
* C48: an abstract iterator (`Wk`) whose equality may be coarser than identity and whose increment may
  be stuck; every loop of the grapheme iterator stays on the path from one position of rest to the next
  (`Reach`), so it is safe, and terminates iff no position of rest is stuck; counters are bounded by the
  telescoping sum of path lengths. For separate texts the C19–C38 simulation applies again.
* C49: C23 (which codepoint the scan of the iterator stops at) composed with C39 (what is copied).
* C50: the segmentation of a concatenation with a break at the junction is the concatenation of the
  segmentations; then `flatMap` over graphemes.
* C51: the result is unchanged iff its decomposition is (ordered) and greedy composition of it gives the
  codepoints back; the greedy composition splits into one block per codepoint. Low codepoints by kernel
  evaluation over the table trees.
* C52: the fold over graphemes with an append that may fail equals one append of the whole result
  (append distributes over concatenation), so UB iff C11's set is hit; table rows checked by the kernel.
* C53, C41 on octets: the text-level hashes simulate the row-level ones (`HashSim`: keys and values are the
  `%04X` text of the numbers), through every round of the substitution loop; parsing lemmas say that
  `split`, `hex`, the regular expressions invert the text format of `Spec/UcdText`. The checked-in files are
  proved well-formed by a checker over little-endian line numbers whose soundness is proved once.
* C54, C55: each algorithm's loop over any iterator that simulates list positions (as C19–C25).
* C56: one simulation (`Refines`) per encoding, one lemma per statement, induction over the program. What a
  program should do is Spec/History, on plain lists of codepoints; the restrictions it lists are shown
  needed, and whether a program meets them is computable.
* C57: the loops of the examples over C01, C06, C20, C38, C37; the hexadecimal output by induction on digits.
* C58: after a compatibility form every codepoint has equal decompositions (induction over composition, table facts);
  canonical first: the graphemes of the NFD are the blocks of the graphemes (C59), then per combining class the
  contributions of starters and non-starters commute exactly without the Tibetan trap. With C59_exact this needs only that
  the graphemes are kept (C58_compat_after_canonical_kept).
* C59 (texts whose emoji modifiers directly follow emoji bases, `ModifiersFollowBases`; kept by all forms,
  `goodMod_text`): table facts (tails of canonical decompositions are marks, heads keep their break class), and that a stable
  sort keeps the neighbours of plain codepoints; NFC via NFD(NFC x) = NFD x and unique splitting. C59_exact (all texts):
  neighbours other than those before an emoji modifier never break in a sorted decomposition, and composing it keeps
  that (a composite is Other, Extend or SpacingMark, and its last codepoint a mark); the same for the seams.
* C60: each statement depends only on the strings it touches and changes only one (frame lemma), induction over the
  schedule; the library has no state of its own, its globals are the constant tables. At any granularity: what is left
  of the statement a thread is in, run undisturbed from the strings as the thread sees them, gives what the statement
  gives alone (invariant over single accesses).
* C61: each call needs a known number of allocations (`costed`); induction over the graphemes finds the one in which
  they run out; programs by the simulation of C56 with the same exit.
* C62: simulation between the machine with octet positions and generations and the world with indices; a mutable
  iterator may stand on any octet of its codepoint (C03, C05).
* C63: one lemma for what `*` reads anywhere (`cur_value`, with wrap-around); backwards the stops are all beginnings;
  forwards the positions of rest form a chain (`rests_between`), so the list of stops is unique.
* C64: one lemma turns what a statement reads into an iteration over its text (`opened_sim`, a window of a
  simulation), one turns an edit of a string into the same edit for either encoding (`edit_stored`); then as C56.
* C65: each function of Model/Platform against its counterpart, octets by evaluation over all 256, the decode loop by
  an invariant on the bits collected; then the simulations of C56 and C62 instantiated with the platform's string type.
* C66: every operation on valid text has an exact number of reads (`cur_unit_cost`, ...); loops by induction with the
  simulation of C18–C25, the reads of a grapheme charged to its codepoints; on arbitrary octets, an iterator moved by the
  loop is at most eight octets after one that begins a codepoint (`Near`).
* C67: the C standard's contract for `bsearch` on addresses, shown for glibc's loop; the comparison functions on memory
  give what those of Model/Props give, so the address found is that of the row the list search finds.
* C68: equivalence is a closure of single steps (Spec/Equivalence); each step keeps the canonical order of the full
  decomposition (table facts: the entries of a non-starter's mapping have its class, no entry is a Hangul syllable), and
  every text is equivalent to its decomposition; then the output of the code by the canonical-order theory of C35.
* C69: per-row facts (ordered, begins with a codepoint that does not join, no two codepoints of the composed row compose)
  by kernel evaluation of all rows of both decomposition tables; graphemes of such a text are single codepoints, CR LF or
  flags; blocks of this kind have no unblocked pair across their borders, so C35/C36 give the standard's form.
* C70: sums over the codepoints of a text are preserved by sorting and bounded by per-row facts of the tables (kernel
  evaluation: number of codepoints and octets of each mapping, of each composite and its mapping); composing never
  enlarges a sum that no single composition enlarges; for the lower bounds the output is decomposed again (it has the
  same decomposition as the input), octets via a weight per codepoint that dominates every codepoint mapped to it. NFC with a
  stable sort: a grapheme has at most one codepoint that decomposes to four (all are of class Other), and if the others
  do not make up for it by being short, two neighbours compose (Proofs/SizeC).
* C71: `std::search` of libstdc++ (`Model/Search`) over any iterator that simulates a list ends at the first match; two
  encodings first differ in an octet both have, the smaller codepoint having the smaller one (by the number of octets,
  then digit by digit), hence order, injectivity and prefix-freeness; an octet that begins a sequence is no continuation.
* C72: `rewind` finds exactly the beginning an octet belongs to (`rewind_exact`), then the four operators by cases;
  what is neither a value nor non-termination is undefined.
* C73: insertion sorts by splitting the ordered part at the inserted value (ordered and stable); partition and heap sort
  by position-wise invariants over `Shuffle` (a permutation within the range); the introsort loop by induction: a least
  element ends among the first 16, which is what the unguarded insertion needs. Naturality under renaming
  (Proofs/StdSortMap) turns one computation on 17 positions into the statement for all marks.
  The number of comparisons: partitions telescope (each round compares every element of the range once or twice and the
  depth limit bounds the rounds), heap operations by the levels of the heap, and the introsort loop leaves elements
  16 or more apart in order, so each final insertion stops within 16 comparisons.
* C74: the codepoints the traps of C34/C45/C58/C59 need (emoji modifiers, U+0F77, U+0F79) survive the form (no mapping,
  no composition: kernel evaluation over the tables) and are not encodable, so an encodable result has no trap; all 16
  pairs of forms by the lemmas of C45 and C58.
* C75: `viewSched` runs threads of C64 programs under a schedule; a statement of `Model/Views` depends only on the
  strings it touches and changes only the one it may change (`step_patchV`), so a schedule is replayed thread by thread
  by induction, as in C60; with C64 each thread prints what its ideal run prints.
* C76: `viewStepX` is `viewStep` with the exit of `Model/Throw`; `Text.editX` gives a statement the `append_from_utf32ne`
  of the string's own encoding. Each statement is proved to need `NeedsV` calls and to leave `InterruptedV` when an
  earlier one throws (the normalization case from `Form.textX_sim`), then induction on the program.
* C77: from the exact conditions of C51, which are conditions on single codepoints and on neighbours
  (`Form.fixed_local`), so they pass to sublists and to joins. No new model.
* C78: `Model/HeldViews`, the statements of `Model/Views` reading `Place`s: strings, parts, view variables, parts of them,
  ranges between iterator variables. Every variable remembers how often its string had been invalidated. The relation
  `HeldRel` ties views to first and last index and iterators to an index (grapheme iterators to four; a mutable one may be anywhere inside its codepoint after writing, `Within`); a statement equals the `viewStep` with the
  sources put in (`step_eq`), so C64's refinement applies, and what is overwritten in place does not move anything
  (`place_congr`). Simplifications: iterators of a
  string and of a view of it are taken to be comparable, where C++ has two types.
* C79: `Model/HeldThrow`, the statements of C78 inside `try`, `calls i` calls succeeding in statement number `i`, so any
  pattern of failures. A statement equals the `viewStepX` of C76 with the sources put in (`stepX_eq`); an interrupted one
  stores into one string only (`interrupted_frame`), so the relation of C78 is kept. The point of interruption is unique
  (`interrupted_split`), so the ideal run is determined. Simplification: after an append that threw, the views and
  iterators of its target count as invalid even if nothing was appended before.
* C80: `Model/HeldThreads`, the programs of C79 as threads that share strings; each thread has its own variables. What a
  statement does depends only on the strings it touches (`catch_local`, `may_local`), so a step of a thread on the shared
  strings is a step of the thread alone, and it moves nothing of the others (`HeldRel.elsewhere`), whose variables only
  belong to strings they may read (`Confined`). Induction on the schedule (`PoolRel.sched`). Simplifications: as in C75 a
  statement is one step and memory is sequentially consistent; variables are not shared between threads.
* C81: `Model/HeldAccesses`. A statement is a tree of accesses (each next access depending on the values read), any tree
  that accesses only the strings the statement names and writes only its target, and alone has the effect of `execX`
  (`Compiles`). `HeldMachine.execX` depends only on and changes only these strings (`exec_on`), so such trees exist for all
  statements (`copyHeld`). Invariant `Amid` between any two accesses: there is a pool of whole statements such that idle
  threads are as in it, and the rest of the tree of a busy thread, run alone on any memory agreeing with the shared one on
  the strings it may read, ends as its whole statement does there; induction on the schedule (`Amid.go`), each finished
  tree a step of C80. `C81_race_free` (from `Amid` too) justifies sequentially consistent memory. Simplification: how often a string's views were invalidated is a
  ghost count in memory, readable and writable like an element.
* C82: consecutive graphemes of a text are the graphemes of what they make up, so its normal form is the normal forms of
  the graphemes put together; with C59_exact these are graphemes of the normal form. For UTF-8, an encodable form has
  no emoji modifier (C74), and the encoding is injective.
* C83: from C82 with a run as the pattern; the other direction takes runs of one grapheme and C59_exact. The program by C39. `Properties/NormalLinked` has C82 and C83 with the linked `std::sort`, by C73.
* Properties the code violates are stated in their exact form: an *iff* (or the exact set) together
  with a concrete witness that the naive form is false, so no `_partial` theorem is left.

## 4. Findings (places where the naive property is false, all with proved witnesses)

* C07: a text accepted by `utf8_bounds::check` on which the forward loop never ends.
* C08–C11: `encoded_size` is the ceiling of (bits)/6, wrong for 0, 0x800–0x1FFF, 0x10000–0x7FFFF,
  0x200000–0x1FFFFFF and from 0x4000000; there the encoder emits wrong octets, loses codepoints and
  for an exactly characterised set reads outside its scratch buffer.
* C65: by the letter of C++14 (`-std=c++1y`), with signed `char`, `codepoint_size` shifts a negative number for every octet
  that is not ASCII; GCC defines the result.
* C14/C15/C17: `check` only looks at six octets from each side; `enforce` needs two passes in one case.
* C21: runs of regional indicators are never split (flags merge), and other UAX #29 rule differences.
* C23: a grapheme iterator built in the middle of a text scans with swapped arguments.
* C25: `grapheme_end` of a view depends on what follows in memory (`C25_any_octets`: for a UTF-8 view cut before a stray
  continuation octet it is wrong or never returns).
* C01, C02, C05: over a UTF-8 view followed by a stray continuation octet the forward loop never ends and the backward loop
  loses the last codepoint (`C01_any_octets`, `C02_any_octets`, `C05_any_octets`).
* C19: the grapheme loop over a view cut inside a grapheme loses the last grapheme, and sometimes earlier ones
  (`C19_cut_utf32`, `C19_view_utf8`, `C19_cut_marks`, `C19_cut_flag`).
* C34/C45: the modifier trap: normalizing twice can differ from once.
* C35/C36/C46: canonical order is applied per grapheme only and includes starters; no Hangul; compat
  mappings with tags other than `<compat>` are ignored.
* C37, C73: `std::sort` is not stable, so marks of equal class may be exchanged. With libstdc++ this happens from 17
  codepoints in a grapheme on (NFD of a starter and 16 marks of one class reorders them, and again each time).
* C39: a grapheme range given to a UTF-8 string copies narrowed codepoints.
* C48: in malformed text accepted by `check`, grapheme iteration can yield an empty grapheme and drop a
  codepoint; a one-octet text E3 accepted by `check` makes `grapheme_end()` read past the terminator.
* C49: truncation on a grapheme can cut inside a Hangul syllable, drop the grapheme before a flag, and
  damages non-ASCII UTF-8.
* C52: normalizing any UTF-8 text containing an emoji U+1F300–U+1F6FF into a utf8_string is UB.
* C53: `s/\s.+//` in the composition generator leaves a blank when a single blank precedes the comment; such
  an exclusion would be silently ignored (the checked-in file uses four blanks).
* C54: an overlong form compares equal to the proper one; counting 2^31 codepoints overflows `int`.
* C55: `*r` on a `std::reverse_iterator` over UTF-8 is a dangling reference: any reverse loop that reads is UB.
* C57: the normalization examples print wrong codepoints for arguments as common as Devanagari (0x800–0x1FFF).
* C47: `*it++ = c` writes over the codepoint before.
* C66: `==` of two grapheme iterators multiplies the sizes of the graphemes.
* C63: an ill-formed text can read differently forwards and backwards, without undefined behaviour in either.
* C62: `*it = a; *it = b;` corrupts a UTF-8 string: the second write starts at the last octet of the first.

## 5. Testing the model and the theorems

`Tests/Suite.lean` evaluates every assertion of the repository's own tests (/repo/t/*.t.cpp) about a value on the
model. These are tests of the reading of the C++, not proofs of properties.

seeded/LOG.jsonl has one line per seeded bug: a scratch copy of the model is edited like a realistic
bug, rebuilt, and the property theorems whose proofs (or whose lemmas) fail are recorded; survivors
were inspected by hand and, where their English claim was broken, tightened.
