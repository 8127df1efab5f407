{
 "C06": [
  "proved",
  "The unrestricted claim (any text accepted by check is safe) fails only for 0xFF; C06_exact gives the iff."
 ],
 "C07": [
  "proved",
  "The unrestricted claim (terminates for every text accepted by check) is refuted: C07_check_accepts_spinning_text. C07_termination is the exact condition."
 ],
 "C08": [
  "proved",
  "Unrestricted claim refuted: C08_wrong_sizes. Exact set proved."
 ],
 "C09": [
  "proved",
  "Unrestricted claim refuted: C09_lost_codepoint. Exact set proved."
 ],
 "C10": [
  "proved",
  "Unrestricted claim refuted: C10_wrong_octets. Exact set proved."
 ],
 "C11": [
  "proved",
  "Unrestricted claim refuted: C11_overread_witness. Exact set proved."
 ],
 "C14": [
  "proved",
  "Unrestricted soundness refuted: C14_unsound. Exact iff proved."
 ],
 "C15": [
  "proved",
  "Unrestricted claim refuted: C15_counterexample. Exact iff proved."
 ],
 "C17": [
  "proved",
  "Unrestricted claim refuted: C17_counterexample. Exact iff proved."
 ],
 "C21": [
  "proved",
  "Unrestricted conformance refuted: C21_flags_merge. Exact iff proved."
 ],
 "C23": [
  "proved",
  "Unrestricted claim refuted: C23_counterexample. Exact condition proved."
 ],
 "C25": [
  "proved",
  "Unrestricted claim refuted for views: C25_counterexample. Exact condition proved, for UTF-8 text with any octets after it: C25_any_octets."
 ],
 "C34": [
  "proved",
  "Unrestricted claim refuted: C34_counterexamples, C34_needs_stability. Exact iff proved for stable sorts."
 ],
 "C35": [
  "proved",
  "Unrestricted claim refuted: C35_counterexamples. Exact iff proved for stable sorts."
 ],
 "C36": [
  "proved",
  "Unrestricted claim refuted: C36_counterexamples. Exact iff proved for stable sorts."
 ],
 "C37": [
  "proved",
  "Unrestricted claim refuted: C37_not_guaranteed."
 ],
 "C39": [
  "proved",
  "Unrestricted claim refuted for UTF-8: C39_counterexample. Exact iff proved."
 ],
 "C45": [
  "proved",
  "Unrestricted claim refuted: C45_counterexamples. Exact iff proved for stable sorts."
 ],
 "C46": [
  "proved",
  "Unrestricted NFKD/NFKC conformance refuted: C46_counterexamples. Exact iffs proved."
 ],
 "C47": [
  "proved",
  "The naive claim (*it++ = c writes text like std::copy) is refuted: C47_destroys_text. Exact condition proved."
 ],
 "C48": [
  "proved",
  "Exact termination condition; output theorem under Separate with witness C48_lost_codepoint that it is needed."
 ],
 "C49": [
  "proved",
  "Always a prefix of the text; exact condition for the right cut and for intact UTF-8; counterexamples in C49_counterexample."
 ],
 "C50": [
  "proved",
  "Exact for segmentation; for the forms the break is sufficient and C50_break_needed shows it cannot be dropped."
 ],
 "C51": [
  "proved",
  "Exact fixed points of all four forms; ASCII and Latin corollaries."
 ],
 "C52": [
  "proved",
  "Exact iff for undefined behaviour; closure of normal forms under Unicode scalar values."
 ],
 "C41": [
  "proved",
  "C41_*_octets are about the octets of the checked-in files (Data/Raw*.lean), read and written by the modelled scripts; the other C41 theorems are the same statement on parsed rows. The list of hash keys ranges over every enumeration in every round. C41_reader_inverts_generator: for every table, the C++ reading of the generated text is the table."
 ],
 "C53": [
  "proved",
  "Well-formed is Spec/UcdText (FileText, GcbFile, ExclFile); C53_checked_in_files shows the checked-in files meet every hypothesis. sort's tie-break on whole lines is not modelled, hence distinct first codepoints in the grapheme theorem."
 ],
 "C54": [
  "proved",
  "utf32ne std::distance is pointer subtraction of native iterators and not modelled. The loops are those of libstdc++."
 ],
 "C55": [
  "proved",
  "Any read through the dangling reference is modelled as undefined behaviour."
 ],
 "C56": [
  "proved",
  "Normalizing a string into itself is excluded (iterators are invalidated). Fuel is an artefact: the result is the same for all sufficiently large fuel."
 ],
 "C57": [
  "proved",
  "Models the loops of the example programs over the modelled library; std::cout and std::hex/setw/setfill are modelled by the printed characters."
 ],
 "C58": [
  "proved",
  "Texts are utf32ne strings; the sort is stable (C34 shows that this is needed already for idempotence). Where emoji modifiers do not directly follow emoji bases only the direction canonical-after-compatibility is characterised exactly. C58_canonical_implies_compat_kept and C58_trap_distinguishes are in Properties/NormalSlice."
 ],
 "C59": [
  "proved",
  "Texts are utf32ne strings; C59_exact and C59_exact_decomposed are for all texts, C59_equivalent_texts and C59_compare_by_graphemes are in Properties/NormalSearch. C59_compare_any_form: all four forms and any conforming sort (Properties/NormalSlice)."
 ],
 "C60": [
  "proved",
  "The C60_any_granularity and C60_statements_suffice theorems switch threads between single accesses to string elements (sequentially consistent memory); in the others a statement is one step. That the library has no mutable state of its own (no static but the constant tables) is read off the sources and is the shape of the model."
 ],
 "C61": [
  "proved",
  "An append that throws has no effect (the strong guarantee of std::basic_string::append); only copies and appends allocate. The UTF-8 statement is for normal forms the encoder writes correctly (C10)."
 ],
 "C62": [
  "proved",
  "Which statements invalidate iterators follows the C++ standard's rule for std::basic_string (any store other than through iterators may); the model treats a use after that as undefined even if no reallocation happened."
 ],
 "C73": [
  "proved",
  "libstdc++ 13 (not in /repo), transcribed from the installed headers. Stability beyond 16 elements refuted: C73_seventeen, C73_not_stable."
 ],
 "C75": [
  "proved",
  "A statement is one step, as in C60 (C81 removes that). Sequentially consistent memory."
 ],
 "C76": [
  "proved",
  "Same assumptions as C61: a throwing append has no effect; only copies and appends allocate."
 ],
 "C77": [
  "proved",
  "For a stable sort (C77_stable_needed: the linked std::sort breaks it for graphemes of 17 or more codepoints). The number of codepoints of the decomposition is below 2^31."
 ],
 "C78": [
  "proved",
  "Const and mutable codepoint iterators, grapheme iterators and views. Restrictions as in C64 and C62."
 ],
 "C79": [
  "proved",
  "Restrictions as in C78. The views and iterators of a string to which an append threw are taken to be invalid even if nothing was appended."
 ],
 "C80": [
  "proved",
  "A statement is one step, as in C60 and C75 (C81 removes that). Sequentially consistent memory. Variables are not shared between threads."
 ],
 "C81": [
  "proved",
  "The accesses of a statement are any that stay within the strings the statement names and, undisturbed, have its effect; C81_implementation_exists shows there are some. Memory is sequentially consistent; C81_race_free shows that C++ promises that for these programs. Variables are not shared between threads."
 ],
 "C82": [
  "proved",
  "Texts are utf32ne strings. C82_search_utf8: the same of the octets of utf8_string, where the encoder gets both forms right (C10). C82_linked: with the linked std::sort, graphemes decomposing to at most 16 codepoints. C82_any_form: all four forms and any conforming sort, if the form of each grapheme is one grapheme and neighbours break."
 ],
 "C83": [
  "proved",
  "C83_exact is the iff; C83_cut_then_normalize is the program with grapheme iterators and append. Texts are utf32ne strings (append between grapheme iterators narrows in UTF-8, C39). C83_linked, C83_linked_truncate: with the linked std::sort, graphemes decomposing to at most 16 codepoints. C83_utf8: from utf8_string to utf8_string, where the encoder gets the form right. C83_any_form: the iff for all four forms and any conforming sort."
 ]
}