{"id": "C01", "title": "Forward UTF-8 iteration yields exactly the codepoints", "statement": "Walking a codepoint const iterator with ++ from the beginning of well-formed UTF-8 text until it compares equal to the end iterator terminates, never touches memory outside the buffer, and dereferencing at each stop produces exactly the sequence of encoded codepoints, in order. If the octet after the text is a continuation octet (a view cut out of other octets), the loop never ends; if there is no octet after the text, it is undefined behaviour.", "quantifier": "every sequence of codepoints 0..0x7FFFFFFF (1- to 6-octet forms; all Unicode scalar values in particular), every prefix memory and every octets after the text", "why_tests_cant": "Unbounded text length and all 2^31 codepoint values in all adjacency contexts.", "anchors": ["include/u5e/utf8_iterator.hpp: utf8_const_iterator::operator++, operator==, operator*", "include/u5e/utf8_util.hpp: codepoint_size"]}
{"id": "C02", "title": "Backward UTF-8 iteration yields the reverse", "statement": "Walking a codepoint iterator with -- from the end of well-formed UTF-8 text back to the beginning visits every codepoint exactly once in reverse order, without touching memory outside the buffer, if what follows the text starts with an octet other than a continuation octet and holds as many octets as that octet claims (NUL, or more text). If it starts with a continuation octet, the last codepoint of the text is left out; otherwise it is undefined behaviour.", "quantifier": "every well-formed text, everything in the preceding and in the following memory", "why_tests_cant": "Unbounded length; each step is a data-dependent backward scan.", "anchors": ["include/u5e/utf8_iterator.hpp: rewind_one_codepoint, operator--"]}
{"id": "C03", "title": "Dereferencing inside a codepoint resynchronises", "statement": "Dereferencing an iterator built at ANY octet of a codepoint returns that whole codepoint, and afterwards the iterator points to the first octet of it.", "quantifier": "every well-formed text and every octet position in it", "why_tests_cant": "Every text, every offset.", "anchors": ["include/u5e/utf8_iterator.hpp: current_codepoint, rewind_to_start_of_codepoint"]}
{"id": "C04", "title": "++ and -- are mutually inverse", "statement": "On well-formed text, -- after ++ returns to the start of the codepoint the iterator was in, and ++ after -- (from any codepoint start other than the first) returns to where it was; ++ from any octet of a codepoint reaches the start of the next one.", "quantifier": "every well-formed text, every position", "why_tests_cant": "Every text, every offset.", "anchors": ["include/u5e/utf8_iterator.hpp: forward_one_codepoint, rewind_one_codepoint"]}
{"id": "C05", "title": "Iterator equality means same codepoint", "statement": "On well-formed text two codepoint iterators compare equal exactly when both positions lie inside the same encoded codepoint (or both are the end); equality is therefore reflexive, symmetric and transitive there. On ill-formed text this can fail. Whatever follows the text, an iterator at an octet of a codepoint is equal to those at the octets of this codepoint and to no others; one at the end is equal to those inside the last codepoint, and not to itself, if a continuation octet follows, and otherwise equal to itself only, where comparing it with one in the text is undefined behaviour if the octets claimed by the octet there are not in memory.", "quantifier": "every well-formed text, every pair of octet positions including the end", "why_tests_cant": "All pairs of positions in all texts; the operator is written asymmetrically.", "anchors": ["include/u5e/utf8_iterator.hpp: operator==, operator!="]}
{"id": "C06", "title": "Which octet strings are memory-safe to iterate", "statement": "For ANY octets (valid UTF-8 or not) stored NUL-terminated, the loop \"while (it != end) { *it; ++it; }\" reads outside the string and its terminator or runs into another undefined operation exactly when the first octet is a continuation octet or the iterator comes to rest on an octet 0xFF at least eight octets before the end (undefined shift). So every text accepted by utf8_bounds::check and free of 0xFF is memory-safe to iterate, for any number of iterations; backwards too for texts of at least six octets free of 0xFE/0xFF. The loop \"while (it != begin) { --it; *it; }\" from the end is undefined exactly when the first octet is a continuation octet or some octet that begins a codepoint is 0xFF or claims octets after the terminator.", "quantifier": "every octet string, every number of loop iterations", "why_tests_cant": "Every malformed input; the README promises that validation at the borders removes under/overflow.", "anchors": ["include/u5e/utf8_iterator.hpp", "include/u5e/utf8_bounds.hpp: check", "README.md: A note on bound checks"]}
{"id": "C07", "title": "When iteration over arbitrary octets terminates", "statement": "For every octet string that is memory-safe to iterate, the loop \"while (it != end) ++it\" terminates (within length+1 rounds) exactly when no position the iterator comes to rest on is followed by at least as many continuation octets as it claims octets; otherwise it is still running after any number of rounds. So a text accepted by utf8_bounds::check need not terminate: \"A\" followed by the octet 0x80 spins forever, as does every text with a complete sequence followed by a stray continuation octet. Backwards (\"while (it != begin) --it\") the loop never spins: it ends, or is undefined, within length+1 rounds for every octet string.", "quantifier": "every octet string that is memory-safe to iterate, every number of rounds", "why_tests_cant": "Non-termination cannot be observed by a finite test, and the octet strings are unbounded.", "anchors": ["include/u5e/utf8_iterator.hpp: forward_one_codepoint", "include/u5e/utf8_bounds.hpp: check"]}
{"id": "C08", "title": "For which codepoints the encoded size is the UTF-8 size", "statement": "The number of octets the encoder computes for a codepoint equals the length of its UTF-8 encoding exactly for the codepoints in 0x1..0x7FF, 0x2000..0xFFFF, 0x80000..0x1FFFFF and 0x2000000..0x3FFFFFF (set Encodable of the specification); for every other positive codepoint (U+0800..U+1FFF, U+10000..U+7FFFF, ...) it is too small, and for 0 it is undefined.", "quantifier": "every 32-bit codepoint value", "why_tests_cant": "2^31 values; the README promises UTF-8 support without restriction.", "anchors": ["include/u5e/utf8_util.hpp: encoded_size"]}
{"id": "C09", "title": "Write then read round-trips exactly for the correctly sized codepoints", "statement": "Assigning a codepoint through a mutable UTF-8 iterator and dereferencing the iterator afterwards gives the codepoint back in every buffer with room (whose old content can be decoded) exactly for the codepoints of C08; for those the octets written are their UTF-8 encoding and everything else in the buffer is untouched. Without room for the encoding the assignment is undefined behaviour whatever the buffer holds.", "quantifier": "every codepoint below 2^31, every buffer with room", "why_tests_cant": "2^31 values times all buffer states. (Only true on an exactly characterised set.)", "anchors": ["include/u5e/utf8_iterator.hpp: proxyobject::operator=, current_codepoint"]}
{"id": "C10", "title": "Appending codepoints to a UTF-8 string emits their UTF-8 encoding, exactly for the correctly sized codepoints", "statement": "append_from_utf32ne on a UTF-8 string appends exactly the concatenation of the standard UTF-8 encodings of the codepoints and leaves the previous content untouched, for every sequence of codepoints of C08; any other codepoint is given a wrong encoding or causes undefined behaviour.", "quantifier": "every sequence of codepoints, every previous content", "why_tests_cant": "Unbounded sequences over a 2^31 alphabet. (Holds exactly when every codepoint is in the correctly encoded set.)", "anchors": ["include/u5e/utf8.hpp: append_from_utf32ne", "include/u5e/basic_encodedstring.hpp: append_from_utf32ne"]}
{"id": "C11", "title": "For which values the encoder leaves its scratch buffer", "statement": "Appending one 32-bit value to a UTF-8 string terminates and stays inside the 6-octet scratch buffer (no out-of-bounds access or other undefined behaviour) exactly when the value is not 0, not negative and not in the explicitly given set OverReads (in the Unicode range: U+0F80..U+0FFF, U+1F80..U+1FFF and the last 0x2000 codepoints below U+20000, U+40000, U+60000, U+80000 - most emoji).", "quantifier": "every 32-bit codepoint value", "why_tests_cant": "2^32 values; a sanitizer run covers only the values tried.", "anchors": ["include/u5e/utf8.hpp: append_from_utf32ne"]}
{"id": "C12", "title": "Sequential writes through a mutable iterator", "statement": "Writing codepoints one after another with \"*it = c; ++it\" (std::copy) into a large enough buffer leaves the concatenated UTF-8 encodings, followed by the untouched rest of the buffer, whenever the buffer holds 7-bit octets or UTF-8 text. Over arbitrary old octets after a text, it does so exactly if the new text fits and, at each place of writing, the old octet is a continuation octet with text before it, or is not 0xFF and claims no octets after the buffer; otherwise the behaviour is undefined.", "quantifier": "every sequence of correctly encodable codepoints, every old content of the buffer", "why_tests_cant": "Unbounded sequences; each ++ re-reads what was just written.", "anchors": ["include/u5e/utf8_iterator.hpp: proxyobject::operator=, operator++"]}
{"id": "C13", "title": "utf8_bounds::check decides exactly its documented window", "statement": "check returns true exactly when the first octet is not a continuation octet and none of the up to six positions end, end-1, ..., end-5 that lie strictly after begin holds a lead octet announcing more octets than remain before the end.", "quantifier": "every buffer, every begin <= end", "why_tests_cant": "All contents and lengths.", "anchors": ["include/u5e/utf8_bounds.hpp: check"]}
{"id": "C14", "title": "What acceptance by check guarantees, exactly", "statement": "check accepts a NUL-terminated text exactly when it does not start with a continuation octet and every lead octet announcing octets past the end is either the very first octet or one of 0xFE/0xFF at least six octets before the end. So check rejects only texts that start or end inside a codepoint; and for texts of at least six octets without 0xFE/0xFF an accepted text never overflows.", "quantifier": "every octet string", "why_tests_cant": "All contents and lengths.", "anchors": ["include/u5e/utf8_bounds.hpp: check"]}
{"id": "C15", "title": "enforce repairs the bounds, with exactly one exception", "statement": "After enforce, check accepts the text, unless the text starts with k >= 1 continuation octets and octet number k is a truncated lead octet among the last five; in that case check rejects it. In particular every text that does not start inside a codepoint is repaired.", "quantifier": "every NUL-terminated octet string", "why_tests_cant": "All contents and lengths.", "anchors": ["include/u5e/utf8_bounds.hpp: enforce, check"]}
{"id": "C16", "title": "enforce only touches the bounds and reports honestly", "statement": "enforce keeps the length, only ever replaces octets by \"?\", only the leading run of continuation octets and lead octets among the last five octets, never the terminator, never reads or writes outside the string, and returns true exactly when it changed nothing.", "quantifier": "every NUL-terminated octet string", "why_tests_cant": "All contents and lengths.", "anchors": ["include/u5e/utf8_bounds.hpp: enforce"]}
{"id": "C17", "title": "enforce is idempotent, with exactly one exception", "statement": "Calling enforce a second time changes nothing and returns true, unless the text is in the exceptional case of C15, where it changes one more octet; a third call never changes anything.", "quantifier": "every NUL-terminated octet string", "why_tests_cant": "All contents and lengths.", "anchors": ["include/u5e/utf8_bounds.hpp: enforce"]}
{"id": "C18", "title": "Codepoint truncation", "statement": "append(first,last) on a UTF-8 string with iterators at arbitrary octet positions of well-formed text appends whole codepoints only: exactly the codepoints from the one containing first up to but excluding the one containing last; the result is well-formed if the target was.", "quantifier": "every well-formed text, every pair of octet positions first <= last, every previous content", "why_tests_cant": "All texts and all cut positions.", "anchors": ["include/u5e/basic_encodedstring.hpp: append", "include/u5e/utf8.hpp: native_const_iterator", "examples/truncate_on_codepoint.cpp"]}
{"id": "C19", "title": "Graphemes partition the text", "statement": "Iterating graphemes from grapheme_begin until it compares equal to grapheme_end terminates, and the produced graphemes are non-empty, consecutive, and concatenate to exactly the text, if what follows the text in memory starts with a codepoint that breaks from the last one of the text (as the NUL of a string does). If it does not (a view cut inside a grapheme), iterating ends too, but yields only the graphemes before the one grapheme_end() points into (exact place in the statement), so never the last one: exactly all but the last after a base and marks, fewer for half a flag.", "quantifier": "every utf32ne text and every well-formed UTF-8 text", "why_tests_cant": "Unbounded texts over all codepoints.", "anchors": ["include/u5e/basic_grapheme_iterator.hpp", "include/u5e/basic_encodedstring.hpp: grapheme_begin, grapheme_end"]}
{"id": "C20", "title": "Grapheme boundaries are exactly the pairwise rules", "statement": "A break between two adjacent codepoints is produced exactly when the pair rules GB3..GB13/GB999, as documented in the code, require one; nothing inside a grapheme and nothing further away influences it.", "quantifier": "every text, every adjacent pair", "why_tests_cant": "All pairs of 18x18 classes in all contexts.", "anchors": ["include/u5e/basic_grapheme_iterator.hpp: is_grapheme_boundary, find_end_of_grapheme"]}
{"id": "C21", "title": "Which texts are segmented as in UAX #29 (Unicode 9)", "statement": "The produced segmentation is the extended grapheme cluster segmentation of UAX #29 revision 29 exactly for texts in which no E_Modifier follows an Extend run that has no emoji base before it and no regional indicator is preceded by a positive even number of them. u5e never breaks where UAX #29 forbids a break; on the other texts it merges clusters (two flags in a row are one grapheme).", "quantifier": "every text", "why_tests_cant": "Unbounded context rules (GB10, GB12, GB13) over all texts.", "anchors": ["include/u5e/basic_grapheme_iterator.hpp: is_grapheme_boundary"]}
{"id": "C22", "title": "Segmentation is independent of the encoding", "statement": "Grapheme iteration over well-formed UTF-8 text gives the same graphemes (as codepoint sequences) as over the equal utf32ne text.", "quantifier": "every codepoint sequence", "why_tests_cant": "Unbounded texts; UTF-8 iterators use a different equality and dereference mutates them.", "anchors": ["include/u5e/basic_grapheme_iterator.hpp", "include/u5e/utf8_iterator.hpp"]}
{"id": "C23", "title": "What a grapheme iterator built at an arbitrary point covers", "statement": "A grapheme iterator constructed at a codepoint always ends where the grapheme containing that codepoint ends; it starts where that grapheme starts exactly when the codepoint is its first, or the backward scan - which after its first step compares neighbours in swapped order - stops there (exact condition in the statement). So it is always right in graphemes made of a base followed by Extend, ZWJ and SpacingMark; it can be wrong in Hangul L V T sequences. For UTF-8, building it at any octet of a codepoint is the same as building it at the first octet, except inside the very first codepoint of the text.", "quantifier": "every text, every position (every octet of every codepoint for UTF-8)", "why_tests_cant": "All texts and positions.", "anchors": ["include/u5e/basic_grapheme_iterator.hpp: find_start_of_grapheme"]}
{"id": "C24", "title": "Grapheme iterator equality", "statement": "For grapheme iterators obtained by iterating the same text, == holds exactly when they are at the same grapheme (or both at the end); comparing with a codepoint iterator holds exactly when that codepoint belongs to the grapheme.", "quantifier": "every text, every pair of iterators", "why_tests_cant": "All pairs.", "anchors": ["include/u5e/basic_grapheme_iterator.hpp: operator=="]}
{"id": "C25", "title": "When grapheme_end depends on memory after the text", "statement": "grapheme_end() of a text is the end position exactly when the codepoint following the text in memory breaks from the last codepoint of the text; always for NUL-terminated strings. For a view followed by an Extend codepoint it is the start of the last grapheme of the view. For UTF-8 text followed by arbitrary octets: if the octet after the text is 0xFF or claims more octets than there are, the behaviour is undefined; if it is a continuation octet, the end is taken for a place inside the last codepoint a of the text, and grapheme_end() never returns when two a in a row make one grapheme, and otherwise is the end position only if a is the whole text; else the condition is the one above, on the value read there.", "quantifier": "every text and every following memory content", "why_tests_cant": "Depends on memory outside the text.", "anchors": ["include/u5e/basic_encodedstring.hpp: grapheme_end", "include/u5e/basic_grapheme_iterator.hpp: find_start_of_grapheme"]}
{"id": "C26", "title": "filter applies the operation once per element, in order, and returns the sum", "statement": "filter(from,to,out,op) calls op exactly once on each element in order, threading the output object, and returns the sum of the results. If a call of op throws, or has undefined behaviour, or the sum overflows int, filter ends that way at that element: no later element is looked at, and the output is what the throwing call left.", "quantifier": "every input, every operation (including ones that do not append and ones that throw), every output state", "why_tests_cant": "All operations and inputs.", "anchors": ["include/u5e/filter.hpp: filter"]}
{"id": "C27", "title": "Property lookups find exactly the table rows", "statement": "For each of the five property tables the bsearch-based resolve returns the row of the table whose key (or range) matches the argument, and the default/NULL/false when there is none, for every int argument.", "quantifier": "all 2^32 int arguments (pairs of them for composition)", "why_tests_cant": "2^32 or 2^64 arguments; relies on global sortedness of 800-2800-row tables.", "anchors": ["src/u5e/props/canonical_combining_class.cpp", "src/u5e/props/canonical_composition_mapping.cpp", "src/u5e/props/canonical_decomposition_mapping.cpp", "src/u5e/props/compatibility_and_canonical_decomposition_mapping.cpp", "src/u5e/props/grapheme_cluster_break.cpp"]}
{"id": "C28", "title": "Decomposition mappings are zero-terminated and fully resolved", "statement": "Every returned mapping is non-empty, zero-terminated with no interior zero, and none of its codepoints has a mapping itself, so decomposing twice equals decomposing once; for both the canonical and the compatibility table.", "quantifier": "every codepoint and every codepoint sequence", "why_tests_cant": "All sequences; global closure of the tables.", "anchors": ["include/u5e/codepoint_decomposition.hpp", "src/u5e/props/canonical_decomposition_mapping_data.hpp", "src/u5e/props/compatibility_and_canonical_decomposition_mapping_data.hpp"]}
{"id": "C29", "title": "NFD/NFKD per grapheme: ordered permutation of the decomposition and exact count", "statement": "normalization_form_d / _kd on a grapheme appends a permutation of the concatenated decompositions, ordered by canonical combining class, leaves the previous output untouched and returns exactly the number of codepoints appended - for every std::sort implementation that meets the C++ standard.", "quantifier": "every grapheme, every previous output, every conforming std::sort", "why_tests_cant": "All sequences and all conforming sort implementations.", "anchors": ["include/u5e/normalization_form_d.hpp", "include/u5e/normalization_form_kd.hpp", "include/u5e/canonical_combining_order.hpp"]}
{"id": "C30", "title": "In-place composition is safe and counts correctly", "statement": "canonical_composition never lets the write position overtake the read position, reads and writes only inside the string, and (codepoints kept) + (reported compositions) = (original length).", "quantifier": "every codepoint string", "why_tests_cant": "All strings; in-place aliasing.", "anchors": ["include/u5e/canonical_composition.hpp"]}
{"id": "C31", "title": "Composition leaves nothing composable next to each other and is idempotent", "statement": "After canonical_composition no two adjacent codepoints have a composition, hence composing again changes nothing and reports 0.", "quantifier": "every codepoint string", "why_tests_cant": "All strings; global property of the composition table.", "anchors": ["include/u5e/canonical_composition.hpp", "src/u5e/props/canonical_composition_mapping_data.hpp"]}
{"id": "C32", "title": "Composition preserves canonical equivalence", "statement": "Decomposing the result of canonical_composition gives the same codepoints as decomposing its input; hence decomposing an NFC grapheme gives the NFD of the original grapheme.", "quantifier": "every codepoint string / every grapheme", "why_tests_cant": "All strings; inverse relation between two tables.", "anchors": ["include/u5e/canonical_composition.hpp", "include/u5e/normalization_form_c.hpp"]}
{"id": "C33", "title": "NFC/NFKC count", "statement": "normalization_form_c / _kc return exactly the number of codepoints appended to a utf32ne output.", "quantifier": "every grapheme, every conforming std::sort", "why_tests_cant": "All graphemes.", "anchors": ["include/u5e/normalization_form_c.hpp", "include/u5e/normalization_form_kc.hpp"]}
{"id": "C34", "title": "Which texts are normalized idempotently", "statement": "With a stable sort, filtering a text through normalization form X (X in D, C, KD, KC) twice gives the same text as once exactly when the text does not contain the modifier trap: a grapheme whose normal form ends in an Extend codepoint whose decomposition ends in a non-starter, directly followed by a grapheme starting with an emoji modifier (which the re-segmentation then merges and sorts before the mark). In particular for all texts in which every emoji modifier directly follows an emoji base. With a sort that is only conforming (std::sort) it can fail for any two marks of equal class.", "quantifier": "every text, all four forms, every stable sort", "why_tests_cant": "All texts; re-segmentation of the output.", "anchors": ["include/u5e/filter.hpp", "include/u5e/normalization_form_d.hpp", "include/u5e/normalization_form_c.hpp", "include/u5e/normalization_form_kd.hpp", "include/u5e/normalization_form_kc.hpp"]}
{"id": "C35", "title": "For which texts NFD and NFKD conform to UAX #15", "statement": "With a stable sort, the NFD (NFKD) of a text is its full canonical (compatibility, as far as the tables contain it) decomposition in canonical order (D108/D109 of the Unicode Standard) exactly when the text contains no precomposed Hangul syllable and in no grapheme the decomposition puts a starter after a non-starter.", "quantifier": "every text, every stable sort", "why_tests_cant": "All texts.", "anchors": ["include/u5e/normalization_form_d.hpp", "include/u5e/canonical_combining_order.hpp"]}
{"id": "C36", "title": "For which texts NFC and NFKC conform to UAX #15", "statement": "With a stable sort, the NFC (NFKC) of a text is the canonical composition (D117) of its UAX #15 decomposition exactly when in no grapheme the decomposition puts a starter after a non-starter and in the output no codepoint is left that is unblocked from a preceding starter and has a primary composite with it (Hangul included). In particular for texts whose decomposition has no combining marks and no conjoining vowels or trailing consonants.", "quantifier": "every text, every stable sort", "why_tests_cant": "All texts.", "anchors": ["include/u5e/canonical_composition.hpp", "include/u5e/normalization_form_c.hpp"]}
{"id": "C37", "title": "When marks of equal combining class keep their order", "statement": "Normalization keeps the order of codepoints of equal canonical combining class exactly when the sort step returns the stable result: for every stable sort; for every sort that is stable on ranges up to n elements (libstdc++: 16) if no grapheme decomposes to more than n codepoints; for every conforming sort if no grapheme contains two different codepoints of equal class. It is not guaranteed by the C++ standard: a conforming std::sort may swap U+0301 U+0300.", "quantifier": "every grapheme, every conforming std::sort", "why_tests_cant": "std::sort is not stable; a given implementation hides it below 17 elements.", "anchors": ["include/u5e/normalization_form_d.hpp: std::sort"]}
{"id": "C38", "title": "UTF-8 normalization agrees with utf32ne normalization", "statement": "Normalizing a well-formed UTF-8 text into a UTF-8 string gives the UTF-8 encoding of the utf32ne normalization of the same codepoints, with the same count.", "quantifier": "every codepoint sequence whose normalized codepoints are in the correctly encoded set", "why_tests_cant": "All texts; composes decoder, segmentation, tables, sort and encoder.", "anchors": ["include/u5e/normalization_form_d.hpp", "include/u5e/utf8.hpp"]}
{"id": "C39", "title": "What appending a grapheme range copies", "statement": "append(grapheme first, grapheme last) on a utf32ne string appends exactly the text between the two graphemes. On a UTF-8 string it appends the low eight bits of each codepoint, so what is appended is the text between the two graphemes exactly when all of it is 7-bit.", "quantifier": "every text, every pair of grapheme iterators", "why_tests_cant": "All texts and all pairs of graphemes.", "anchors": ["include/u5e/basic_encodedstring.hpp: append(basic_grapheme_iterator...)", "examples/truncate_on_grapheme.cpp"]}
{"id": "C40", "title": "Table generators do not depend on hash order", "statement": "The fully resolved decomposition table written by the Perl generators does not depend on the (randomised) hash iteration order.", "quantifier": "every permutation of the keys in every pass of the loop", "why_tests_cant": "Perl randomises hash order per process: factorially many runs.", "anchors": ["src/u5e/props/canonical_decomposition_mapping_data.pl", "src/u5e/props/compatibility_and_canonical_decomposition_mapping_data.pl"]}
{"id": "C41", "title": "The checked-in tables are what the generators make of the checked-in UCD files", "statement": "The five checked-in data headers are, octet for octet, what the generator scripts write when run on the checked-in UnicodeData.txt, CompositionExclusions.txt and GraphemeBreakProperty.txt, whatever order Perl enumerates its hashes in; in particular every table row is derived from the UCD and none is missing; and a C++ compiler reads in them exactly the tables the look-ups search.", "quantifier": "all rows of all tables / all codepoints", "why_tests_cant": "Needs all 30000 UCD lines against all table rows.", "anchors": ["src/u5e/props/*.pl", "src/u5e/props/grapheme_cluster_break_data.sh", "src/u5e/props/*_data.hpp", "src/u5e/props/UnicodeData.txt"]}
{"id": "C42", "title": "Canonical decomposition is refined by compatibility decomposition", "statement": "Compatibility decomposition after canonical decomposition equals compatibility decomposition; canonical decomposition after compatibility decomposition changes nothing.", "quantifier": "every codepoint sequence", "why_tests_cant": "All sequences; relation between two tables.", "anchors": ["src/u5e/props/canonical_decomposition_mapping_data.hpp", "src/u5e/props/compatibility_and_canonical_decomposition_mapping_data.hpp"]}
{"id": "C43", "title": "Composition table obeys the exclusion rules", "statement": "A pair of codepoints composes to c exactly when UnicodeData.txt maps c canonically to that pair, c and the first of the pair are starters, and c is not listed in CompositionExclusions.txt; so no excluded codepoint is ever composed, and no two pairs compose to the same codepoint.", "quantifier": "every pair of ints", "why_tests_cant": "2^64 pairs.", "anchors": ["src/u5e/props/canonical_composition_mapping_data.pl", "src/u5e/props/canonical_composition_mapping_data.hpp"]}
{"id": "C44", "title": "Decoding arbitrary well-shaped sequences", "statement": "Every lead octet followed by the announced number of continuation octets decodes to the value given by its payload bits - including overlong forms, surrogates and values above U+10FFFF, so distinct texts can decode to the same codepoints (no validation).", "quantifier": "every well-shaped octet sequence", "why_tests_cant": "All payloads; security-relevant non-injectivity.", "anchors": ["include/u5e/utf8_iterator.hpp: current_codepoint"]}
{"id": "C45", "title": "When NFD and NFC determine each other", "statement": "With a stable sort: NFD(NFC(x)) = NFD(x) exactly when x has no modifier trap (C34) for C, and NFC(NFD(x)) = NFC(x) exactly when x has none for D; likewise for the compatibility forms. So both hold for all texts in which every emoji modifier directly follows an emoji base. NFC(x) is the greedy composition of NFD(x) for every text.", "quantifier": "every text, every stable sort", "why_tests_cant": "All texts; re-segmentation of the intermediate text.", "anchors": ["include/u5e/normalization_form_d.hpp", "include/u5e/normalization_form_c.hpp", "include/u5e/normalization_form_kd.hpp", "include/u5e/normalization_form_kc.hpp"]}
{"id": "C46", "title": "The normalization forms against the shipped UCD files", "statement": "Over UnicodeData.txt and CompositionExclusions.txt alone (not the library tables): NFD, NFC, NFKD and NFKC of a text are the UAX #15 forms exactly for the texts characterised in the theorems; in particular NFKD and NFKC conform only for texts without codepoints whose compatibility mapping carries a tag other than <compat> (2942 codepoints, e.g. U+00A0, U+2460, U+FF21, which are left unchanged).", "quantifier": "every text, every stable sort", "why_tests_cant": "All texts against all 30592 UCD lines.", "anchors": ["include/u5e/normalization_form_kd.hpp", "include/u5e/normalization_form_kc.hpp", "src/u5e/props/compatibility_and_canonical_decomposition_mapping_data.pl", "src/u5e/props/UnicodeData.txt"]}
{"id": "C47", "title": "What the output-iterator idiom *it++ = c does", "statement": "On a mutable UTF-8 iterator, *it++ = c stores the UTF-8 encoding of c where the iterator was, and advances the iterator by the size of the sequence that was stored there before, so it is equivalent to *it = c; ++it exactly when the old sequence has the size of the new one. Copying ASCII over 7-bit octets this way is right, and so is replacing a text by one whose codepoints have pairwise the same sizes; copying U+00E9 U+0041 into a zeroed buffer destroys the first codepoint.", "quantifier": "every correctly sized codepoint (C08), every old sequence, every surrounding memory with room", "why_tests_cant": "All codepoints against all old contents; a test with ASCII text passes.", "anchors": ["include/u5e/utf8_iterator.hpp: utf8_iterator::operator++(int), proxyobject::operator="]}
{"id": "C48", "title": "Grapheme iteration and normalization of untrusted octets", "statement": "For ANY octets held in a NUL-terminated utf8_string that do not start with a continuation octet, have no lead octet announcing more octets than remain, and no 0xFF (true of everything utf8_bounds::check accepts with at least six octets and no 0xFE/0xFF), iterating over all graphemes and normalizing into a utf32ne_string with any of the four forms never runs into undefined behaviour. It terminates exactly when plain iteration does (C07), and then returns the number of codepoints written. If each increment lands exactly on the next codepoint, graphemes and forms are those of the codepoints plain iteration yields; otherwise codepoints can be lost even in text accepted by check (E0 E1 80 80 41 42). Normalizing into a utf8_string instead appends the encoding of what goes into a utf32ne_string and is undefined exactly when one of these codepoints is zero, negative or makes the encoder leave its scratch buffer (C11).", "quantifier": "every octet string, every conforming std::sort, every form, any number of loop rounds", "why_tests_cant": "Malformed input is unbounded in length and shape; a memory-safety claim about all of it cannot be sampled.", "anchors": ["include/u5e/basic_grapheme_iterator.hpp: find_end_of_grapheme, operator==, operator++", "include/u5e/utf8_iterator.hpp: utf8_iterator_base", "include/u5e/normalization_form_d.hpp", "include/u5e/normalization_form_c.hpp", "include/u5e/utf8_bounds.hpp: check"]}
{"id": "C49", "title": "What truncating on a grapheme boundary yields", "statement": "Truncating as in examples/truncate_on_grapheme.cpp - output.append(gb, gi) with gb at the start and gi a grapheme iterator constructed at any octet of the text - always appends the first n codepoints of the text for some n, none of them beyond the requested octet. The cut is at the start of the grapheme containing the octet exactly when the octet belongs to the first codepoint of that grapheme or the backward scan of gi stops there (always for base + combining marks; not inside Hangul jamo sequences or after flags), and for UTF-8 strings what is copied is intact exactly when it is all 7-bit.", "quantifier": "every text of codepoints < 2^31, every octet position, every previous content", "why_tests_cant": "The position, the text before it and the grapheme shapes are unbounded.", "anchors": ["examples/truncate_on_grapheme.cpp", "include/u5e/basic_grapheme_iterator.hpp: basic_grapheme_iterator(begin, end, where), find_beginning_of_grapheme", "include/u5e/basic_encodedstring.hpp: append(grapheme_iterator, grapheme_iterator)"]}
{"id": "C50", "title": "Normalizing and segmenting piecewise", "statement": "If there is a grapheme break between the last codepoint of x and the first of y, the graphemes of x+y are those of x followed by those of y (and only then), and normalizing x and then y into one string, with any form, gives the same output as normalizing x+y at once, the returned counts adding up; utf32ne and, for results the encoder can write, UTF-8.", "quantifier": "all pairs of texts, all forms, every conforming std::sort", "why_tests_cant": "Concatenation of two arbitrary texts.", "anchors": ["include/u5e/filter.hpp: filter", "include/u5e/basic_grapheme_iterator.hpp", "include/u5e/normalization_form_c.hpp", "include/u5e/normalization_form_d.hpp"]}
{"id": "C51", "title": "Which texts normalization leaves unchanged", "statement": "NFD/NFKD return the input unchanged if and only if none of its codepoints decomposes and every grapheme is ordered by combining class; NFC/NFKC if and only if every codepoint is recomposed from its own decomposition, the decomposition of every grapheme is ordered, and no codepoint composes with the first codepoint of the decomposition of its successor. So all forms leave 7-bit text unchanged in both encodings, and NFC leaves every text below U+0300 unchanged.", "quantifier": "every text, every stable sort", "why_tests_cant": "An exact fixed-point set over all texts; tests only sample it.", "anchors": ["include/u5e/normalization_form_d.hpp", "include/u5e/normalization_form_c.hpp", "include/u5e/normalization_form_kd.hpp", "include/u5e/normalization_form_kc.hpp", "include/u5e/canonical_composition.hpp"]}
{"id": "C52", "title": "Normalized output: Unicode stays Unicode, and when writing it as UTF-8 is undefined", "statement": "The normal form of any text under any form consists of codepoints of the text and Unicode scalar values other than U+0000 (never a new NUL, surrogate or out-of-range value). Normalizing UTF-8 text into a utf8_string is undefined behaviour exactly when the normal form contains U+0000 or a codepoint for which the encoder leaves its scratch buffer (C11) - in particular for every text containing one of the emoji U+1F300..U+1F6FF - and otherwise returns the number of codepoints of the normal form.", "quantifier": "every text of codepoints < 2^31, every form, every conforming std::sort", "why_tests_cant": "Ranges over all texts and over 2^31 codepoint values.", "anchors": ["include/u5e/utf8.hpp: append_from_utf32ne", "include/u5e/utf8_iterator.hpp: proxyobject", "include/u5e/normalization_form_c.hpp", "src/u5e/props/canonical_composition_mapping_data.hpp"]}
{"id": "C53", "title": "The table generators are right for every UCD version", "statement": "Run on ANY well-formed UnicodeData.txt, CompositionExclusions.txt and GraphemeBreakProperty.txt, in whatever order Perl enumerates its hashes: the class header has exactly the lines with a class other than 0; the decomposition headers have exactly the lines with a canonical (canonical or <compat>) mapping, each fully expanded, and the script ends if and only if the mappings are not circular; the composition header has exactly the primary composites (two-codepoint canonical mapping, starter composed of a starter and something, not excluded) sorted for the binary search; the grapheme header has exactly the entries, sorted. An exclusion with a single blank before its comment is silently ignored.", "quantifier": "every well-formed UCD file, every hash order in every round", "why_tests_cant": "The scripts will be rerun on UCD versions that do not exist yet, under random hash orders.", "anchors": ["src/u5e/props/*.pl", "src/u5e/props/grapheme_cluster_break_data.sh"]}
{"id": "C54", "title": "Standard algorithms see codepoints", "statement": "std::next, std::distance, std::find_if, std::count_if, std::max_element, std::equal and std::lexicographical_compare on codepoint ranges of UTF-8 or utf32ne text (mixed where there are two ranges) terminate, stay inside the text and give what the same algorithm gives on the sequence of codepoints; std::distance and std::count_if count in an int, so std::distance over 2^31 or more codepoints is undefined. Equality is of codepoints, not octets: an overlong form compares equal to the short one.", "quantifier": "every text, every predicate, every surrounding memory", "why_tests_cant": "Algorithms are loops over operations that scan backwards; correctness is for every length and content.", "anchors": ["include/u5e/utf8_iterator.hpp: utf8_const_iterator", "include/u5e/utf32ne.hpp", "include/u5e/basic_encodedstring.hpp"]}
{"id": "C55", "title": "Reverse iterators", "statement": "A loop over std::reverse_iterator from the end to the beginning reads the codepoints of a utf32ne text in reverse. Over any non-empty UTF-8 text it is undefined at its first dereference (the reference it returns is to a temporary already destroyed), although moving and comparing reverse iterators works and dereferencing a decremented copy of the base iterator reads the codepoints in reverse.", "quantifier": "every text, every surrounding memory", "why_tests_cant": "A dangling reference often still holds the right value in a test.", "anchors": ["include/u5e/basic_encodedstring.hpp: reverse_iterator", "include/u5e/utf8_iterator.hpp: reference"]}
{"id": "C56", "title": "Whole programs do not depend on the encoding", "statement": "Take any program over any number of strings: copies, clears, appends of codepoint ranges (also of a string to itself), of codepoints and of grapheme ranges, in-place writes and transformations through mutable iterators, normalizations from one string into another, readings forwards, backwards and by grapheme, comparisons, counts, in any order and number. If every operation is allowed where it stands (ranges inside the string, no normalization of a string into itself, overwriting only by codepoints of the same encoded size, only codepoints the encoder gets right are written, only 7-bit text is copied by graphemes, counts fit an int), then on UTF-8 strings and on utf32ne strings the program terminates without undefined behaviour and prints the same, namely what it prints on plain sequences of codepoints; every UTF-8 string afterwards is the encoding of its sequence. Whether a program is allowed is computable; without the restrictions the outputs differ.", "quantifier": "every program (history of operations), every initial strings, every conforming std::sort", "why_tests_cant": "Histories are unbounded; errors could accumulate or depend on earlier operations.", "anchors": ["include/u5e/basic_encodedstring.hpp", "include/u5e/utf8.hpp", "include/u5e/utf32ne.hpp", "include/u5e/filter.hpp"]}
{"id": "C57", "title": "What the example programs print", "statement": "Given any number of arguments in UTF-8: simple_iteration prints one line per argument with its codepoints in order; grapheme_iteration prints one bracketed group per grapheme, with its codepoints; normalization_form_{d,kd,c,kc} print the codepoints of the normal form, whenever the normal form has only codepoints the encoder writes correctly (otherwise the printed codepoints can differ); smallest_code returns the first codepoint modulo 256, 0 for an empty argument, and is undefined without an argument. Numbers are printed in hexadecimal with at least six digits and no superfluous zeros, so the output determines the codepoints. Given arbitrary octets, simple_iteration is undefined exactly if the text starts with a continuation octet or iteration reaches an octet FF with eight octets left. The programs without input print their fixed results for every conforming sort (compatibility forms: stable).", "quantifier": "every list of arguments, every conforming std::sort", "why_tests_cant": "All arguments of all lengths; the programs are the documented usage of the library.", "anchors": ["examples/simple_iteration.cpp", "examples/grapheme_iteration.cpp", "examples/normalization_form_c.cpp", "examples/smallest_code.cpp", "examples/truncate_on_grapheme.cpp"]}
{"id": "C58", "title": "Mixing canonical and compatibility forms", "statement": "On the result of NFKD or NFKC, NFD does what NFKD does and NFC what NFKC does, and gives NFKD/NFKC of the original text exactly when the text has no modifier trap; for texts whose graphemes NFD (NFC) keeps (C59; in particular those in which every emoji modifier directly follows an emoji base) NFKD/NFKC of the NFD (NFC) of a text is NFKD/NFKC of the text exactly when no grapheme has a codepoint of combining class 130 other than U+0F80 before U+0F77 or U+0F79; two texts have the same NFD exactly when they have the same NFC (likewise NFKD, NFKC), and then the same NFKD.", "quantifier": "every text (every pair of texts), every stable sort, both canonical and both compatibility forms", "why_tests_cant": "Quantifies over all texts; a single pair of rows in four generated tables can break it.", "anchors": ["include/u5e/normalization_form_d.hpp", "include/u5e/normalization_form_kd.hpp", "include/u5e/normalization_form_c.hpp", "include/u5e/normalization_form_kc.hpp"]}
{"id": "C59", "title": "Canonical normalization keeps the graphemes", "statement": "For texts in which every emoji modifier directly follows an emoji base, the graphemes of the NFD (NFC) of a text are, one for one, the NFD (NFC) of the graphemes of the text; in particular their number does not change. For an arbitrary text this holds if and only if no emoji modifier stands after a break in the normal form of a grapheme and none begins a grapheme after one whose normal form ends in Extend. Two such texts have the same NFD (NFC) if and only if they have equally many graphemes and these have the same NFD (NFC) one by one. For NFKD/NFKC it is false (counterexamples).", "quantifier": "every text, every stable sort, forms D and C", "why_tests_cant": "Relates the segmentation of unboundedly many texts to that of their normal forms, through three tables.", "anchors": ["include/u5e/normalization_form_d.hpp", "include/u5e/normalization_form_c.hpp", "include/u5e/basic_grapheme_iterator.hpp"]}
{"id": "C60", "title": "Threads that do not share what they change", "statement": "Several threads run programs over common strings, interleaved in any way. If no thread changes a string that another thread reads or changes (reading a common string is fine), every thread prints exactly what it prints when it runs alone, sees its strings as when alone, and strings nobody changes stay; if each thread alone is free of undefined behaviour, so is every interleaving; all interleavings that let every thread finish end with the same strings. If each program is allowed in the sense of C56, every interleaving prints what the plain sequences of codepoints give, the same for UTF-8 and utf32ne. This holds whether a schedule switches threads between whole statements or between any two accesses to memory inside them, whatever accesses the statements consist of. With a shared string that is changed, the result depends on the schedule.", "quantifier": "every number of threads, every program of each, every schedule, every initial strings", "why_tests_cant": "Schedules are unboundedly many and a test observes one of them.", "anchors": ["include/u5e/basic_encodedstring.hpp", "src/u5e/props/canonical_combining_class.cpp", "src/u5e/props/grapheme_cluster_break.cpp"]}
{"id": "C61", "title": "An exception at any point leaves whole codepoints", "statement": "Let any allocation the library makes (appending to or copying a native string) throw. Normalizing a utf32ne text then leaves the output exactly as normalizing the first j graphemes of the text would, where j is the number of graphemes the allocations that succeeded cover; normalizing UTF-8 text leaves the previous contents followed by the UTF-8 encoding of a proper beginning of the normal form, never part of a codepoint; with enough allocations (one per codepoint read and one per grapheme, or per codepoint written in UTF-8) the result is the ordinary one. A whole allowed program (C56) interrupted by an exception has printed what it should have up to the interrupted statement, and all strings are those the statement started with, except that the one it appends to may have got a beginning of the codepoints it was to get.", "quantifier": "every text, every program, every point at which an allocation fails, every conforming std::sort", "why_tests_cant": "The failure can be at any of unboundedly many allocations; tests do not make allocations fail.", "anchors": ["include/u5e/filter.hpp", "include/u5e/codepoint_decomposition.hpp", "include/u5e/utf8.hpp: append_from_utf32ne", "include/u5e/basic_encodedstring.hpp: append", "include/u5e/normalization_form_c.hpp"]}
{"id": "C62", "title": "Programs that hold iterators", "statement": "A program keeps codepoint iterators (const and mutable) and grapheme iterators in variables, and copies, moves, compares, dereferences them, writes through them and appends what lies between two of them, in any order and mixed with any other statements; each next statement may depend on everything printed so far. An iterator is valid until its string is assigned to, cleared or appended to; overwriting codepoints by codepoints of the same encoded size keeps all iterators valid and at their codepoint. As long as the program uses valid iterators only (and obeys the restrictions of C56), it prints and stores on UTF-8 strings and on utf32ne strings exactly what it would on plain sequences of codepoints with iterators as indices: in particular ++, --, *, == work right after a write through the iterator. Using an invalid iterator, or comparing or taking a range between iterators of two different strings, is undefined in both; a second write through the same iterator without moving it corrupts a UTF-8 string unless the codepoint is one octet.", "quantifier": "every program (a function from the output so far to the next statement), every number of statements, every initial strings, every conforming std::sort", "why_tests_cant": "Programs, their interleavings of iterator uses and invalidations, and texts are unboundedly many.", "anchors": ["include/u5e/utf8_iterator.hpp", "include/u5e/basic_grapheme_iterator.hpp", "include/u5e/basic_grapheme.hpp", "include/u5e/basic_encodedstring.hpp", "include/u5e/utf32ne.hpp"]}
{"id": "C63", "title": "What iterating over arbitrary octets reads, forwards and backwards", "statement": "Over octets that need not be UTF-8, wherever the loops are defined and end (C06, C07): the loop \"while (it != end) { *it; ++it; }\" reads, in order, the value at each position the iterator comes to rest on whose claimed octets belong to the text, and nothing else; the loop \"while (it != begin) { --it; *it; }\" from the end reads the value at each octet that is not a continuation octet, from last to first. The value is the payload of the first octet followed by the low six bits of each further claimed octet, whatever these are, in 32 bits. The two directions read the same codepoints exactly when no beginning claims octets after the text and, among the octets it claims and the one after them, at most one begins a codepoint; otherwise they differ.", "quantifier": "every octet string, every number of rounds", "why_tests_cant": "Unbounded octet strings; malformed inputs form an infinite family and tests use well-formed text only.", "anchors": ["include/u5e/utf8_iterator.hpp", "include/u5e/utf8_util.hpp"]}
{"id": "C64", "title": "Programs over both encodings and over views", "statement": "Any program over any number of strings, each of them UTF-8 or utf32ne, whose statements read whole strings or views (utf8_string_view, utf32ne_string_view) of parts of strings - copies, appends within an encoding, conversions between the encodings with append_from_utf32ne, appends of codepoints and of grapheme ranges, normalization into a string of either encoding, overwriting, reading forwards, backwards and by grapheme, std::equal and std::lexicographical_compare across encodings, std::count_if - terminates without undefined behaviour, prints exactly what it prints on plain sequences of codepoints and leaves each string the encoding of the right sequence; which strings are UTF-8 makes no difference. The conditions: copies and appends within one encoding; views inside their strings; only codepoints the encoder gets right are written into UTF-8, over codepoints of the same size; a view read by graphemes ends at a grapheme boundary of its string; a string is not converted or normalized into itself. Each is shown to be needed, and all of them can be computed.", "quantifier": "every program, every number of strings, every assignment of encodings to strings, every contents, every view, every conforming sort", "why_tests_cant": "Programs, their inputs and the encodings of the strings are unbounded.", "anchors": ["include/u5e/basic_encodedstring.hpp", "include/u5e/utf8_string_view.hpp", "include/u5e/utf32ne_string_view.hpp", "include/u5e/utf8.hpp", "include/u5e/utf32ne.hpp", "include/u5e/filter.hpp"]}
{"id": "C65", "title": "Nothing depends on the platform where the shifts move bits", "statement": "C++14 leaves to the implementation whether char is signed, what >> does to a negative int, with which precision and rounding encoded_size divides floats, and it does not define << on negative numbers or past 32 bits, which GCC (and C++20) define as moving bits. Where << moves bits, strings, iterators and utf8_bounds do the same on every platform, for any octets and any program. By the letter of C++14 they still do so wherever char is unsigned and no octet is 0xFE or 0xFF (valid UTF-8 has neither), so programs over UTF-8 strings keep their meaning; but where char is signed, as on x86, reading any text that contains a codepoint outside ASCII is undefined.", "quantifier": "every platform (signedness of char, rule for <<, rule for >>, float precision, rounding mode), every octet buffer, every program, with and without iterators", "why_tests_cant": "A test runs on one platform with one compiler; whether an undefined shift is miscompiled cannot be observed by running it.", "anchors": ["include/u5e/utf8_util.hpp", "include/u5e/utf8_iterator.hpp", "include/u5e/utf8_bounds.hpp", "include/u5e/utf8.hpp"]}
{"id": "C66", "title": "The amount of work", "statement": "Counting each octet or codepoint read through a native iterator and each table row compared: a look-up of any int compares at most 10 (combining class), 12 (decompositions), 10 (composition) or 11 (grapheme break) rows. The loop \"while (it != end) { *it; ++it; }\" over any octets whose first is not a continuation octet makes at most 29 reads a round and at most 29 for each codepoint it delivers plus 10; over valid UTF-8 it makes exactly 5 reads for each ASCII codepoint, its size plus 6 for every other one, and 2 at the end. The loop backwards makes at most 13 reads for each octet of the text plus 3, whatever the octets. Visiting all graphemes of a text of n codepoints is linear, at most 60 n + 87 reads (UTF-8) or 24 n + 27 (utf32ne), however long the graphemes are. Normalizing it into any form, when std::sort makes at most K m (log2 m + 1) comparisons on m codepoints and the full decomposition has N <= 20 n codepoints, takes at most 87 n + 13 N + 20 K N (log2 N + 1) + 87 reads (UTF-8) or 38 n + 13 N + 20 K N (log2 N + 1) + 27 (utf32ne). Comparing iterators at two different graphemes of a and b codepoints is not constant: in UTF-8 it makes exactly a (6 b + 8) + 4 reads.", "quantifier": "every key, every octet string, every sequence of codepoints, every number of rounds, every conforming sort, every destination", "why_tests_cant": "A measurement covers some inputs; a bound must hold for texts of every length and shape.", "anchors": ["include/u5e/utf8_iterator.hpp", "include/u5e/basic_grapheme_iterator.hpp", "include/u5e/filter.hpp", "include/u5e/normalization_form_c.hpp", "src/u5e/props/canonical_combining_class.cpp", "src/u5e/props/grapheme_cluster_break.cpp"]}
{"id": "C67", "title": "The look-ups are right for every placement of the tables and every C library", "statement": "The tables are arrays of std::initializer_list objects whose address the look-ups read as the address of a pointer to int. Wherever the arrays, the rows and the local variables lie in memory, whatever the sizes and offsets of the objects are as long as an initializer_list begins with the pointer to its elements, and with any bsearch that keeps the contract of the C standard (glibc does), every look-up of every int is defined, reads only the tables and its own variables and gives the value of the table (C27). The pointer returned for a decomposition is NULL exactly when there is no mapping; otherwise the mapping and the 0 after it can be read from it, and it is the same pointer for every library and call. Decomposing a codepoint through it appends exactly the mapping, or the codepoint itself if there is none. Where an initializer_list begins with the number of its elements, every look-up in those tables is undefined.", "quantifier": "every placement in memory, every layout, every conforming bsearch, every int", "why_tests_cant": "A test runs with one compiler, one C library and one placement.", "anchors": ["src/u5e/props/canonical_combining_class.cpp", "src/u5e/props/canonical_decomposition_mapping.cpp", "src/u5e/props/compatibility_and_canonical_decomposition_mapping.cpp", "src/u5e/props/canonical_composition_mapping.cpp", "src/u5e/props/grapheme_cluster_break.cpp", "include/u5e/codepoint_decomposition.hpp"]}
{"id": "C68", "title": "Normalization decides canonical and compatibility equivalence", "statement": "Canonical equivalence is the smallest equivalence relation under which a codepoint may be replaced by its Decomposition_Mapping of UnicodeData.txt, a Hangul syllable by its jamo, and two neighbouring codepoints of different non-zero combining class may be exchanged. Normalizing a text by NFD or NFC gives a canonically equivalent text exactly if no grapheme of the text has, decomposed, a starter after a non-starter (a joiner after an accent is moved otherwise). For texts of that kind: two texts with the same normal form are equivalent; two texts are equivalent exactly if their NFD outputs agree once Hangul syllables are written as jamo; if the texts do not mix syllables and jamo, comparing the outputs of NFD, or of NFC, decides equivalence, and equivalent texts (with emoji modifiers only directly after emoji bases) have the same number of graphemes and the same UTF-8 normal form. The same holds of NFKD, NFKC and the <compat> mappings, and of compatibility equivalence if no codepoint has another tag.", "quantifier": "every two texts, all four forms, every stable sort", "why_tests_cant": "Equivalence is a closure over arbitrarily long chains of steps between texts of any length.", "anchors": ["include/u5e/normalization_form_d.hpp", "include/u5e/normalization_form_c.hpp", "include/u5e/normalization_form_kd.hpp", "include/u5e/normalization_form_kc.hpp", "include/u5e/codepoint_decomposition.hpp", "include/u5e/canonical_combining_order.hpp", "src/u5e/props/UnicodeData.txt"]}
{"id": "C69", "title": "Text in which nothing joins is normalized as the standard says", "statement": "For texts without marks, joiners, conjoining jamo, prepended signs and emoji modifiers (precomposed letters, ideographs, syllables, symbols, line ends, flags): NFC is the UAX #15 form, always; NFKC is if there is no Hangul compatibility jamo; NFD and NFKD are exactly if there is no Hangul syllable. Each form of such a text is what the form makes of each codepoint alone, one after the other, so a form leaves the text alone exactly if it leaves each codepoint alone. In UTF-8 the octets appended are the encoding of that form if the encoder gets its codepoints right (C10). Each condition matters (counterexamples).", "quantifier": "every such text, all four forms, every stable sort", "why_tests_cant": "The texts are unbounded and the claim is about every codepoint of the tables in every neighbourhood.", "anchors": ["include/u5e/normalization_form_c.hpp: normalization_form_c", "include/u5e/normalization_form_d.hpp: normalization_form_d", "include/u5e/normalization_form_kc.hpp: normalization_form_kc", "include/u5e/normalization_form_kd.hpp: normalization_form_kd", "include/u5e/basic_grapheme_iterator.hpp: is_grapheme_boundary"]}
{"id": "C70", "title": "How much longer or shorter a text gets", "statement": "For every text and every conforming std::sort: NFD and NFC have at most 4 times as many codepoints as the text, NFKD and NFKC at most 7 times; NFD and NFKD have at least as many codepoints as the text, NFC and NFKC at least a quarter. In UTF-8, NFD and NFC take at most 3 times the octets of the text, NFKD and NFKC at most 17/3 times; the text takes at most 3 times the octets of NFD and NFKD, and at most 7/2 times those of NFC and NFKC. With a stable sort NFC has at most 3 times as many codepoints as the text. All factors are attained by a text. Hence a caller can reserve output space from the length of the input alone, and a text of n codepoints never overflows the returned int if 4n (7n) is below 2^31.", "quantifier": "all texts (codepoints of any value, in UTF-32; below 2^31 in UTF-8), the four forms, every conforming std::sort", "why_tests_cant": "The factors depend on every row of the mapping and composition tables at once and on all combinations of codepoints in a text; a test shows the growth of one text.", "anchors": ["include/u5e/normalization_form_d.hpp", "include/u5e/normalization_form_c.hpp", "include/u5e/normalization_form_kd.hpp", "include/u5e/normalization_form_kc.hpp", "include/u5e/props/canonical_decomposition_mapping.hpp", "include/u5e/props/compatibility_and_canonical_decomposition_mapping.hpp", "include/u5e/props/canonical_composition_mapping.hpp"]}
{"id": "C71", "title": "Comparing and searching octets is comparing and searching codepoints", "statement": "For UTF-8 texts of codepoints below 2^31: std::equal and std::lexicographical_compare over codepoint iterators give what == and < of the native strings give; std::search for one text in another ends exactly where std::string::find finds the octets (at the end if it finds none), which is the beginning of a codepoint and the first place where the codepoints occur. Text and pattern may each be UTF-8 or utf32ne. For text that is not well-formed this fails (an overlong form is equal to, and found as, the plain character).", "quantifier": "all pairs of texts, wherever they are in memory, all patterns including the empty one, all combinations of encodings", "why_tests_cant": "That no occurrence of octets straddles codepoints, and that octets order like codepoints across all six sequence lengths, are facts about all pairs of texts; a test tries some.", "anchors": ["include/u5e/utf8_iterator.hpp: utf8_const_iterator::operator==, operator++, operator*", "include/u5e/codepoint.hpp: operator==, operator int", "include/u5e/utf8.hpp: utf8", "include/u5e/utf32ne.hpp: utf32ne"]}
{"id": "C72", "title": "Each operator of the UTF-8 iterator, exactly", "statement": "In memory holding any octets, with the iterator at any position: ++it moves to the beginning of the codepoint the iterator is inside of plus the number of octets its first octet claims, and is undefined exactly if there is no beginning at or before the position, reached over continuation octets only, or the claimed octets leave the memory; --it moves to the last beginning before that one and is undefined exactly if there is none; *it gives the value of the claimed octets (at a stray continuation octet after a 7-bit octet: the low six bits of that octet) and is undefined exactly if they leave the memory, the first octet is 0xFF or there is no beginning; a == b is true iff b is at one of the octets claimed by the codepoint a is inside of, false iff it is not and these octets are in memory, undefined otherwise; *it = c (mutable iterator, any int c) writes six bits per octet in 1 to 6 octets from where the iterator stands, leaves all other memory alone, and is undefined exactly if c is 0, the octets do not fit or *it is undefined before; appending any ints to a UTF-8 string appends those octets, cut or zero-filled to the number the first of them claims, and is undefined exactly if one of them is 0, negative or makes that number exceed 6; append(first, last) appends the octets from the beginning of the codepoint first is inside of to before that of the one last is inside of, and is undefined exactly if one of these beginnings does not exist or they are in the wrong order.", "quantifier": "every memory content, every position (including stray continuation octets and the ends of the memory)", "why_tests_cant": "Any octets at any positions: unboundedly many, and undefined behaviour is not observed by a test.", "anchors": ["include/u5e/utf8_iterator.hpp: forward_one_codepoint, rewind_one_codepoint, current_codepoint, operator==, proxyobject::operator=", "include/u5e/utf8_util.hpp"]}
{"id": "C73", "title": "Normalization with the linked std::sort", "statement": "The std::sort the normalization forms call, in libstdc++ 13: for every strict weak ordering and every range it makes no access outside of the range, ends, and leaves a permutation of the elements in order; what it does depends on the results of the comparisons only. On ranges of at most 16 elements it is stable, so a text each of whose graphemes decomposes to at most 16 codepoints is normalized as with a stable sort: UAX #15 conformance and idempotence hold for it under the conditions of C34, C35 and C36. From 17 on it is not: NFD and NFKD of any starter followed by any 16 non-decomposing marks of one class puts the marks in one fixed other order, so the result is not the UAX #15 form and normalizing again changes it again. The sort calls the comparator at most 7 n log2 n + 16 n times on n elements, so normalizing n codepoints that decompose to N reads text and tables at most 87 n + 13 N + 320 N (log2 N + 1) + 87 times from UTF-8 and 38 n + 13 N + 320 N (log2 N + 1) + 27 times from UTF-32.", "quantifier": "every strict weak ordering, every sequence of codepoints", "why_tests_cant": "The sort must be right on ranges of any length and contents, and the unguarded loops of the library stay inside the range only because of an invariant no test shows; the reordering appears from 17 codepoints in a grapheme on.", "anchors": ["include/u5e/normalization_form_d.hpp: std::sort", "include/u5e/normalization_form_c.hpp: std::sort", "include/u5e/canonical_combining_order.hpp"]}
{"id": "C74", "title": "One form after another, from UTF-8 to UTF-8", "statement": "Let the normal form of a text consist of codepoints the UTF-8 encoder gets right (C10). Then filtering the UTF-8 text through that form writes its UTF-8 encoding, and filtering that again through any of the four forms gives octet for octet what filtering the original text once gives: the last form, in its compatibility version if one of the two was. In particular each form is idempotent, NFC of NFD is NFC, NFKD of NFC is NFKD; no exception of C34, C45 or C58 remains, because each needs a codepoint the encoder cannot write. NFD and NFC keep the graphemes one for one. Two such texts get the same octets exactly if they have the same normal form. With a stable sort.", "quantifier": "every text whose normal form the encoder can write, every pair of forms", "why_tests_cant": "Quantifies over all texts and all pairs of forms; the exceptions of the single encodings are excluded only by what the encoder can write.", "anchors": ["include/u5e/normalization_form_d.hpp", "include/u5e/normalization_form_kd.hpp", "include/u5e/normalization_form_c.hpp", "include/u5e/normalization_form_kc.hpp", "include/u5e/utf8.hpp: append_from_utf32ne", "include/u5e/filter.hpp"]}
{"id": "C75", "title": "Threads over strings of both encodings and views", "statement": "Several threads run programs (as in C64) over one pool of strings, each UTF-8 or utf32ne, read whole or through views. If no thread changes a string that another one reads or changes (be it through a view), then under every schedule each thread prints what it prints alone, sees its strings as alone, and strings nobody changes keep their octets; if each thread alone is free of undefined behaviour so is every schedule; all schedules that let the threads finish end with the same strings, and permitted programs print and leave what they do on plain sequences of codepoints.", "quantifier": "every number of threads, every program of each, every schedule, every contents and encodings of the strings", "why_tests_cant": "Schedules and programs are unbounded, and a test runs only the interleavings that happen.", "anchors": ["include/u5e/basic_encodedstring.hpp", "include/u5e/utf8_string_view.hpp", "include/u5e/utf32ne_string_view.hpp", "include/u5e/filter.hpp: filter", "src/u5e/props/"]}
{"id": "C76", "title": "Exceptions at any point of a program over both encodings and views", "statement": "A permitted program over UTF-8 and utf32ne strings and views (C64) needs a certain number of calls that may throw: one per copy, per append without conversion, per conversion or append of codepoints to a utf32ne string, one per codepoint converted or appended to UTF-8, and for a normalization one per codepoint read plus those that append the normal form of each grapheme. If that many succeed, the program prints and leaves what it should. Otherwise, whichever call throws, everything printed before is right, all strings are as the interrupted statement found them except the one it appends to, and that one has got exactly the codepoints written so far, never a part of one.", "quantifier": "every permitted program, every contents and encodings of the strings, every call that throws", "why_tests_cant": "The point of failure and the program are unbounded.", "anchors": ["include/u5e/basic_encodedstring.hpp", "include/u5e/utf8.hpp: append_from_utf32ne", "include/u5e/utf32ne.hpp: append_from_utf32ne", "include/u5e/filter.hpp: filter", "include/u5e/normalization_form_c.hpp"]}
{"id": "C77", "title": "Whether a text is normalized depends on its neighbouring codepoints only", "statement": "Normalizing leaves a text unchanged exactly if it leaves every codepoint of it and every two neighbouring codepoints of it unchanged. So every contiguous piece of a normalized text is normalized, wherever it is cut, even inside a grapheme; two normalized texts may be joined exactly if the codepoints at the seam may be neighbours, and always where there is a grapheme break between them; cutting a normalized UTF-8 string at any two octets with the appending constructor gives a normalized string. The linked std::sort, which is not stable from 17 codepoints on, breaks the first claim for graphemes that long.", "quantifier": "every text, every form, every stable sort, every cut and seam", "why_tests_cant": "Texts and cuts are unbounded.", "anchors": ["include/u5e/normalization_form_d.hpp: normalization_form_d", "include/u5e/normalization_form_c.hpp: normalization_form_c", "include/u5e/canonical_combining_order.hpp", "include/u5e/filter.hpp: filter", "include/u5e/basic_encodedstring.hpp"]}
{"id": "C78", "title": "Programs that hold views and iterators", "statement": "A program over UTF-8 and utf32ne strings may keep views of strings, of parts of strings, of parts of other views and of what lies between two iterators, codepoint iterators into all of these, grapheme iterators over all of these and mutable codepoint iterators into strings, and use them later, between any other statements and depending on what was printed so far. As long as every statement is allowed where the program gets to it (C64; variables with a valid value; ++, -- and * of codepoint iterators inside the string; grapheme iterators compared only if they end at the same place, and made only where the text ends with a grapheme boundary, C25; a codepoint of a UTF-8 string overwritten by one of the same encoded size, C62, and not twice through the same mutable iterator without moving it, unless it takes one octet), it has no undefined behaviour, prints what it would print if views and iterators were indices into sequences of codepoints, and leaves the right texts; codepoints overwritten in place show in all views of them and through all other iterators, which stay valid; the encodings make no difference. Using a view or iterator that was never set or whose string has been assigned to, cleared or appended to since, or iterators of two strings together, is undefined.", "quantifier": "every such program, every number of statements, every contents and encodings of the strings, every conforming sort", "why_tests_cant": "Programs, contents and the life times of views are unbounded.", "anchors": ["include/u5e/utf8_string_view.hpp", "include/u5e/utf32ne_string_view.hpp", "include/u5e/basic_encodedstring.hpp", "include/u5e/utf8_iterator.hpp: utf8_const_iterator, utf8_iterator", "include/u5e/basic_grapheme_iterator.hpp: basic_grapheme_iterator"]}
{"id": "C79", "title": "Programs that catch exceptions and go on", "statement": "A program as in C78 may catch what its statements throw and go on, the next statement depending on what was printed and on what threw. Whichever allocations fail, in however many statements: as long as every statement is allowed where the program gets to it, there is no undefined behaviour; a statement throws exactly when it needs more calls that may throw than succeed in it; having thrown, it has changed only the string it appends to, which has got the right codepoints up to the failing call (none at all for a copy, a range or a utf32ne append), always whole codepoints; views and iterators of all other strings stay valid; everything afterwards prints what it should on the texts as they are then.", "quantifier": "every such program, every pattern of failing calls, every number of statements, contents and encodings, every conforming sort", "why_tests_cant": "Programs and the points at which allocations fail are unbounded.", "anchors": ["include/u5e/basic_encodedstring.hpp", "include/u5e/utf8.hpp: append_from_utf32ne", "include/u5e/utf32ne.hpp: append_from_utf32ne", "include/u5e/normalization_form_c.hpp", "include/u5e/utf8_string_view.hpp"]}
{"id": "C80", "title": "Threads whose programs hold views and iterators and catch exceptions", "statement": "A program as in C79 runs and then starts threads, each with its own program of that kind and with copies of views and iterators made before. If every string is either used by one thread only or read by any and changed by none, then under every schedule and whichever allocations fail, every thread that would be allowed alone has no undefined behaviour and prints and throws exactly what it does alone; in the end every string holds what it holds when its owner runs alone, in its encoding; the order of execution makes no difference. Whether a thread is allowed can be seen from it alone. If a string is changed while another thread holds a view of it, output and definedness depend on the schedule.", "quantifier": "every first program, every number of threads and their programs, every schedule, every pattern of failing calls, contents and encodings, every conforming sort", "why_tests_cant": "Schedules, programs and points of failure are unbounded.", "anchors": ["include/u5e/basic_encodedstring.hpp", "include/u5e/utf8_string_view.hpp", "include/u5e/utf8_iterator.hpp: utf8_const_iterator, utf8_iterator", "include/u5e/basic_grapheme_iterator.hpp", "include/u5e/normalization_form_c.hpp"]}
{"id": "C81", "title": "Threads that hold views and iterators, switched between any two accesses to memory", "statement": "As C80, but the threads are switched between any two single reads or writes of elements of the strings, in whatever order the compiled statements make them: if every string is either used by one thread only or read by any and changed by none, and each thread is allowed alone, then at any time each thread has printed and thrown what it prints and throws alone as far as it has got; a string whose owner is between two statements holds the right text in its encoding, and the strings changed by nobody are unchanged; once all have finished, output and strings are those of any order of whole statements. A thread inside a statement finishes it if it gets enough turns. There is no data race: a string that a thread is about to change at some time under some schedule is accessed by no other thread at any time under any schedule. If a string is changed by one thread while another reads it, the reader can see a text the string never held before or after any statement.", "quantifier": "every first program, every number of threads and their programs, every schedule of single accesses, every implementation of the statements by accesses, every pattern of failing calls, contents and encodings, every conforming sort", "why_tests_cant": "Schedules at the granularity of memory accesses cannot be enumerated, and the accesses depend on the compiler.", "anchors": ["include/u5e/basic_encodedstring.hpp", "include/u5e/utf8_string_view.hpp", "include/u5e/utf8_iterator.hpp: utf8_const_iterator, utf8_iterator", "include/u5e/basic_grapheme_iterator.hpp", "include/u5e/normalization_form_c.hpp"]}
{"id": "C82", "title": "Searching normalized text by whole graphemes", "statement": "Take a text whose graphemes NFD (NFC) keeps (C59), for instance one in which every emoji modifier directly follows an emoji base, and a pattern. k consecutive graphemes of the NFD (NFC) of the text, from number i on, are the NFD (NFC) of the pattern if and only if the k graphemes of the text from number i on have the same NFD (NFC) as the pattern. So searching normalized text by whole graphemes finds exactly the pieces of the text equivalent to the pattern, and where they are. Searching by codepoints does not (counterexample). The same holds for all four forms and every sort where the form of each grapheme is one grapheme and there is a break between the forms of any two neighbours. For UTF-8 strings in and out, the same holds of the octets, without a condition on the graphemes, where the encoder gets the forms of the text and of the pattern right.", "quantifier": "every text whose graphemes the form keeps, every pattern, every run of graphemes, every stable sort", "why_tests_cant": "Ranges over all texts, patterns and places.", "anchors": ["include/u5e/normalization_form_d.hpp", "include/u5e/normalization_form_c.hpp", "include/u5e/basic_grapheme_iterator.hpp"]}
{"id": "C83", "title": "Cutting by graphemes and normalizing commute", "statement": "Normalizing (NFD, NFC) the part of a utf32ne text between any two of its graphemes gives the part of the normal form between the graphemes of the same numbers, and text and normal form have the same number of graphemes, exactly for the texts whose graphemes the form keeps (C59): all in which every emoji modifier directly follows an emoji base, for instance. So a text may be truncated to a number of graphemes before or after normalizing. For all four forms and every sort it holds exactly if the form of each grapheme is one grapheme and there is a break between the forms of any two neighbours. For UTF-8 strings in and out the same holds where the encoder gets the normal form right. Cutting by codepoints does not commute, nor does cutting by graphemes in general for the compatibility forms, nor for texts with emoji modifiers in other places (counterexamples).", "quantifier": "every text, every two places in it, every stable sort", "why_tests_cant": "Ranges over all texts and places.", "anchors": ["include/u5e/normalization_form_d.hpp", "include/u5e/normalization_form_c.hpp", "include/u5e/basic_grapheme_iterator.hpp", "include/u5e/basic_encodedstring.hpp", "examples/truncate_on_grapheme.cpp"]}
