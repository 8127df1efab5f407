{
 "claims": [
  {
   "property": "C01",
   "status": "proved",
   "theorems": [
    "U5e.C01_forward_iteration",
    "U5e.C01_lean_strings",
    "U5e.C01_post_increment",
    "U5e.C01_forward_iteration_post",
    "U5e.C01_any_octets"
   ],
   "note": ""
  },
  {
   "property": "C02",
   "status": "proved",
   "theorems": [
    "U5e.C02_backward_iteration",
    "U5e.C02_needs_followed",
    "U5e.C02_any_octets"
   ],
   "note": ""
  },
  {
   "property": "C03",
   "status": "proved",
   "theorems": [
    "U5e.C03_deref_resynchronises"
   ],
   "note": ""
  },
  {
   "property": "C04",
   "status": "proved",
   "theorems": [
    "U5e.C04_increment_decrement",
    "U5e.C04_codepoints"
   ],
   "note": ""
  },
  {
   "property": "C05",
   "status": "proved",
   "theorems": [
    "U5e.C05_equality",
    "U5e.C05_utf8",
    "U5e.C05_equivalence",
    "U5e.C05_asymmetric_on_malformed",
    "U5e.C05_end_not_reflexive_for_view",
    "U5e.C05_any_octets"
   ],
   "note": ""
  },
  {
   "property": "C06",
   "status": "proved",
   "theorems": [
    "U5e.C06_backward_exact",
    "U5e.C06_memory_safe",
    "U5e.C06_after_check",
    "U5e.C06_backward",
    "U5e.C06_limits",
    "U5e.C06_exact"
   ],
   "note": "The unrestricted claim (any text accepted by check is safe) fails only for 0xFF; C06_exact gives the iff."
  },
  {
   "property": "C07",
   "status": "proved",
   "theorems": [
    "U5e.C07_backward",
    "U5e.C07_termination",
    "U5e.C07_short_runs",
    "U5e.C07_spins",
    "U5e.C07_check_accepts_spinning_text"
   ],
   "note": "The unrestricted claim (terminates for every text accepted by check) is refuted: C07_check_accepts_spinning_text. C07_termination is the exact condition."
  },
  {
   "property": "C08",
   "status": "proved",
   "theorems": [
    "U5e.C08_encoded_size",
    "U5e.C08_wrong_sizes"
   ],
   "note": "Unrestricted claim refuted: C08_wrong_sizes. Exact set proved."
  },
  {
   "property": "C09",
   "status": "proved",
   "theorems": [
    "U5e.C09_write_read",
    "U5e.C09_exact",
    "U5e.C09_no_room",
    "U5e.C09_lost_codepoint",
    "U5e.C09_assignment_reads_old_content"
   ],
   "note": "Unrestricted claim refuted: C09_lost_codepoint. Exact set proved."
  },
  {
   "property": "C10",
   "status": "proved",
   "theorems": [
    "U5e.C10_append",
    "U5e.C10_append_exact",
    "U5e.C10_wrong_octets"
   ],
   "note": "Unrestricted claim refuted: C10_wrong_octets. Exact set proved."
  },
  {
   "property": "C11",
   "status": "proved",
   "theorems": [
    "U5e.C11_scratch_buffer",
    "U5e.C11_overread_witness",
    "U5e.C11_unicode_range"
   ],
   "note": "Unrestricted claim refuted: C11_overread_witness. Exact set proved."
  },
  {
   "property": "C12",
   "status": "proved",
   "theorems": [
    "U5e.C12_exact",
    "U5e.C12_over_text",
    "U5e.C12_sequential_writes"
   ],
   "note": ""
  },
  {
   "property": "C13",
   "status": "proved",
   "theorems": [
    "U5e.C13_check_window",
    "U5e.C13_check_derefs_end"
   ],
   "note": ""
  },
  {
   "property": "C14",
   "status": "proved",
   "theorems": [
    "U5e.C14_exact",
    "U5e.C14_complete",
    "U5e.C14_sound",
    "U5e.C14_unsound",
    "U5e.C14_decode_stays_inside"
   ],
   "note": "Unrestricted soundness refuted: C14_unsound. Exact iff proved."
  },
  {
   "property": "C15",
   "status": "proved",
   "theorems": [
    "U5e.C15_enforce_then_check",
    "U5e.C15_repaired",
    "U5e.C15_counterexample"
   ],
   "note": "Unrestricted claim refuted: C15_counterexample. Exact iff proved."
  },
  {
   "property": "C16",
   "status": "proved",
   "theorems": [
    "U5e.C16_enforce_effect",
    "U5e.C16_only_bounds",
    "U5e.C16_writes_past_view",
    "U5e.C16_agrees_with_check"
   ],
   "note": ""
  },
  {
   "property": "C17",
   "status": "proved",
   "theorems": [
    "U5e.C17_idempotent",
    "U5e.C17_second_call",
    "U5e.C17_stable_after_two",
    "U5e.C17_counterexample"
   ],
   "note": "Unrestricted claim refuted: C17_counterexample. Exact iff proved."
  },
  {
   "property": "C18",
   "status": "proved",
   "theorems": [
    "U5e.C18_append_whole_units",
    "U5e.C18_append_codepoints",
    "U5e.C18_append_utf32"
   ],
   "note": ""
  },
  {
   "property": "C19",
   "status": "proved",
   "theorems": [
    "U5e.C19_C20_segmentation_utf32",
    "U5e.C19_C20_C22_segmentation_utf8",
    "U5e.C19_partition_utf8_string",
    "U5e.C19_partition_utf32_string",
    "U5e.C19_C20_C22_loop",
    "U5e.C19_C20_loop_utf32",
    "U5e.C19_cut_utf32",
    "U5e.C19_view_utf8",
    "U5e.C19_cut_marks",
    "U5e.C19_cut_flag"
   ],
   "note": ""
  },
  {
   "property": "C20",
   "status": "proved",
   "theorems": [
    "U5e.C19_C20_segmentation_utf32",
    "U5e.C19_C20_C22_segmentation_utf8",
    "U5e.C20_boundary_positions",
    "U5e.C20_rules",
    "U5e.C19_C20_C22_loop",
    "U5e.C19_C20_loop_utf32"
   ],
   "note": ""
  },
  {
   "property": "C21",
   "status": "proved",
   "theorems": [
    "U5e.C21_exact_deviation",
    "U5e.C21_never_splits_clusters",
    "U5e.C21_uax29",
    "U5e.C21_flags_merge"
   ],
   "note": "Unrestricted conformance refuted: C21_flags_merge. Exact iff proved."
  },
  {
   "property": "C22",
   "status": "proved",
   "theorems": [
    "U5e.C19_C20_C22_segmentation_utf8",
    "U5e.C22_encoding_independent",
    "U5e.C19_C20_C22_loop"
   ],
   "note": ""
  },
  {
   "property": "C23",
   "status": "proved",
   "theorems": [
    "U5e.C23_locate_utf32",
    "U5e.C23_locate_utf8",
    "U5e.C23_start_exact",
    "U5e.C23_any_octet",
    "U5e.C23_base_and_marks",
    "U5e.C23_counterexample"
   ],
   "note": "Unrestricted claim refuted: C23_counterexample. Exact condition proved."
  },
  {
   "property": "C24",
   "status": "proved",
   "theorems": [
    "U5e.C24_equality_utf32",
    "U5e.C24_equality_utf8"
   ],
   "note": ""
  },
  {
   "property": "C25",
   "status": "proved",
   "theorems": [
    "U5e.C25_grapheme_end_utf32",
    "U5e.C25_grapheme_end_utf8",
    "U5e.C25_strings",
    "U5e.C25_end_of_memory",
    "U5e.C25_counterexample",
    "U5e.C25_any_octets"
   ],
   "note": "Unrestricted claim refuted for views: C25_counterexample. Exact condition proved, for UTF-8 text with any octets after it: C25_any_octets."
  },
  {
   "property": "C26",
   "status": "proved",
   "theorems": [
    "U5e.C26_throwing_utf32",
    "U5e.C26_throwing_utf8",
    "U5e.C26_throwing_graphemes",
    "U5e.C26_sum_utf8",
    "U5e.C26_overflow_utf8",
    "U5e.C26_filter_codepoints_utf32",
    "U5e.C26_filter_codepoints_utf8",
    "U5e.C26_sum",
    "U5e.C26_overflow",
    "U5e.C26_filter_graphemes",
    "U5e.C26_filter_graphemes_utf8"
   ],
   "note": ""
  },
  {
   "property": "C27",
   "status": "proved",
   "theorems": [
    "U5e.C27_search_defined",
    "U5e.C27_ccc_row",
    "U5e.C27_row_shapes",
    "U5e.C27_ccc_default",
    "U5e.C27_ccc_iff",
    "U5e.C27_dec_row",
    "U5e.C27_dec_iff",
    "U5e.C27_kdec_row",
    "U5e.C27_kdec_iff",
    "U5e.C27_comp_iff",
    "U5e.C27_gcb_range",
    "U5e.C27_gcb_default"
   ],
   "note": ""
  },
  {
   "property": "C28",
   "status": "proved",
   "theorems": [
    "U5e.C28_canonical_mapping",
    "U5e.C28_compatibility_mapping",
    "U5e.C28_expansion_bound",
    "U5e.C28_decomposition_call",
    "U5e.C28_twice_is_once"
   ],
   "note": ""
  },
  {
   "property": "C29",
   "status": "proved",
   "theorems": [
    "U5e.C29_form_d_kd",
    "U5e.C29_form_d_kd_utf8",
    "U5e.C29_C33_text",
    "U5e.C29_form_d_kd_into_utf8"
   ],
   "note": ""
  },
  {
   "property": "C30",
   "status": "proved",
   "theorems": [
    "U5e.C30_in_place_composition",
    "U5e.C30_count_accumulates"
   ],
   "note": ""
  },
  {
   "property": "C31",
   "status": "proved",
   "theorems": [
    "U5e.C31_nothing_left_to_compose"
   ],
   "note": ""
  },
  {
   "property": "C32",
   "status": "proved",
   "theorems": [
    "U5e.C32_composition_preserves_decomposition",
    "U5e.C32_nfc_decomposes_to_nfd"
   ],
   "note": ""
  },
  {
   "property": "C33",
   "status": "proved",
   "theorems": [
    "U5e.C33_form_c_kc",
    "U5e.C29_C33_text"
   ],
   "note": ""
  },
  {
   "property": "C34",
   "status": "proved",
   "theorems": [
    "U5e.C34_idempotent_iff",
    "U5e.C34_idempotent",
    "U5e.C34_counterexamples",
    "U5e.C34_needs_stability"
   ],
   "note": "Unrestricted claim refuted: C34_counterexamples, C34_needs_stability. Exact iff proved for stable sorts."
  },
  {
   "property": "C35",
   "status": "proved",
   "theorems": [
    "U5e.C35_canonical_order_exists_unique",
    "U5e.C35_conforms_iff",
    "U5e.C35_counterexamples"
   ],
   "note": "Unrestricted claim refuted: C35_counterexamples. Exact iff proved for stable sorts."
  },
  {
   "property": "C36",
   "status": "proved",
   "theorems": [
    "U5e.C36_conforms_iff",
    "U5e.C36_counterexamples",
    "U5e.C36_spec_output_has_no_pair",
    "U5e.C36_conforms_without_marks"
   ],
   "note": "Unrestricted claim refuted: C36_counterexamples. Exact iff proved for stable sorts."
  },
  {
   "property": "C37",
   "status": "proved",
   "theorems": [
    "U5e.C37_equal_class_order",
    "U5e.C37_not_guaranteed",
    "U5e.C37_exact",
    "U5e.C37_distinct_classes",
    "U5e.C37_short_graphemes"
   ],
   "note": "Unrestricted claim refuted: C37_not_guaranteed."
  },
  {
   "property": "C38",
   "status": "proved",
   "theorems": [
    "U5e.C38_encodings_agree",
    "U5e.C38_restriction_needed",
    "U5e.C38_exact"
   ],
   "note": ""
  },
  {
   "property": "C39",
   "status": "proved",
   "theorems": [
    "U5e.C39_append_utf32",
    "U5e.C39_append_utf8",
    "U5e.C39_counterexample"
   ],
   "note": "Unrestricted claim refuted for UTF-8: C39_counterexample. Exact iff proved."
  },
  {
   "property": "C40",
   "status": "proved",
   "theorems": [
    "U5e.C40_order_independent",
    "U5e.C40_fully_expanded",
    "U5e.C40_terminates_iff",
    "U5e.C40_circular_never_ends",
    "U5e.C40_decomposition_output"
   ],
   "note": ""
  },
  {
   "property": "C41",
   "status": "proved",
   "theorems": [
    "U5e.C41_reader_inverts_generator",
    "U5e.C41_reader_inverts_generator_ranges",
    "U5e.C41_compiler_reads_tables",
    "U5e.C41_combining_class",
    "U5e.C41_canonical_decomposition",
    "U5e.C41_compatibility_decomposition",
    "U5e.C41_composition",
    "U5e.C41_grapheme_cluster_break",
    "U5e.C41_unicode_data_well_formed",
    "U5e.C41_other_files_well_formed",
    "U5e.C41_headers_are_tables",
    "U5e.C41_combining_class_octets",
    "U5e.C41_canonical_decomposition_octets",
    "U5e.C41_compatibility_decomposition_octets",
    "U5e.C41_composition_octets",
    "U5e.C41_grapheme_cluster_break_octets",
    "U5e.C41_lookup_combining_class",
    "U5e.C41_lookup_canonical",
    "U5e.C41_lookup_compatibility",
    "U5e.C41_lookup_composition",
    "U5e.C41_lookup_grapheme_cluster_break"
   ],
   "note": "C41_*_octets are about the octets of the checked-in files (Data/Raw*.lean), read and written by the modelled scripts; the other C41 theorems are the same statement on parsed rows. The list of hash keys ranges over every enumeration in every round. C41_reader_inverts_generator: for every table, the C++ reading of the generated text is the table."
  },
  {
   "property": "C42",
   "status": "proved",
   "theorems": [
    "U5e.C42_refinement",
    "U5e.C42_passes"
   ],
   "note": ""
  },
  {
   "property": "C43",
   "status": "proved",
   "theorems": [
    "U5e.C43_composition_inverse",
    "U5e.C43_composes_iff",
    "U5e.C43_exclusions",
    "U5e.C43_injective"
   ],
   "note": ""
  },
  {
   "property": "C44",
   "status": "proved",
   "theorems": [
    "U5e.C44_decode_any_unit",
    "U5e.C44_walk_any_units",
    "U5e.C44_overlong_accepted"
   ],
   "note": ""
  },
  {
   "property": "C45",
   "status": "proved",
   "theorems": [
    "U5e.C45_interchange_iff",
    "U5e.C45_interchange",
    "U5e.C45_nfc_is_composed_nfd",
    "U5e.C45_counterexamples"
   ],
   "note": "Unrestricted claim refuted: C45_counterexamples. Exact iff proved for stable sorts."
  },
  {
   "property": "C46",
   "status": "proved",
   "theorems": [
    "U5e.C46_canonical_decomposition_iff",
    "U5e.C46_compatibility_decomposition_iff",
    "U5e.C46_other_tags",
    "U5e.C46_nfd_conforms_iff",
    "U5e.C46_nfkd_conforms_iff",
    "U5e.C46_nfc_conforms_iff",
    "U5e.C46_nfkc_conforms_iff",
    "U5e.C46_spec_exists_unique",
    "U5e.C46_counterexamples"
   ],
   "note": "Unrestricted NFKD/NFKC conformance refuted: C46_counterexamples. Exact iffs proved."
  },
  {
   "property": "C47",
   "status": "proved",
   "theorems": [
    "U5e.C47_same_sizes",
    "U5e.C47_post_increment_write",
    "U5e.C47_exact",
    "U5e.C47_destroys_text",
    "U5e.C47_ascii"
   ],
   "note": "The naive claim (*it++ = c writes text like std::copy) is refuted: C47_destroys_text. Exact condition proved."
  },
  {
   "property": "C48",
   "status": "proved",
   "theorems": [
    "U5e.C48_normalization_safe",
    "U5e.C48_normalization_terminates",
    "U5e.C48_graphemes_safe",
    "U5e.C48_graphemes_terminate",
    "U5e.C48_after_check",
    "U5e.C48_like_iteration",
    "U5e.C48_lost_codepoint",
    "U5e.C48_limits",
    "U5e.C48_into_utf8",
    "U5e.C48_into_utf8_stuck"
   ],
   "note": "Exact termination condition; output theorem under Separate with witness C48_lost_codepoint that it is needed."
  },
  {
   "property": "C49",
   "status": "proved",
   "theorems": [
    "U5e.C49_truncate_utf32",
    "U5e.C49_truncate_utf8",
    "U5e.C49_at_end",
    "U5e.C49_base_and_marks",
    "U5e.C49_counterexample"
   ],
   "note": "Always a prefix of the text; exact condition for the right cut and for intact UTF-8; counterexamples in C49_counterexample."
  },
  {
   "property": "C50",
   "status": "proved",
   "theorems": [
    "U5e.C50_segmentation",
    "U5e.C50_piecewise",
    "U5e.C50_piecewise_utf8",
    "U5e.C50_break_needed"
   ],
   "note": "Exact for segmentation; for the forms the break is sufficient and C50_break_needed shows it cannot be dropped."
  },
  {
   "property": "C51",
   "status": "proved",
   "theorems": [
    "U5e.C51_unchanged_decomposed",
    "U5e.C51_unchanged_composed",
    "U5e.C51_latin",
    "U5e.C51_ascii"
   ],
   "note": "Exact fixed points of all four forms; ASCII and Latin corollaries."
  },
  {
   "property": "C52",
   "status": "proved",
   "theorems": [
    "U5e.C52_scalar_values",
    "U5e.C52_undefined_iff",
    "U5e.C52_emoji_undefined"
   ],
   "note": "Exact iff for undefined behaviour; closure of normal forms under Unicode scalar values."
  },
  {
   "property": "C53",
   "status": "proved",
   "theorems": [
    "U5e.C53_combining_class",
    "U5e.C53_decomposition",
    "U5e.C53_decomposition_circular",
    "U5e.C53_composition",
    "U5e.C53_exclusion_one_blank",
    "U5e.C53_grapheme_cluster_break",
    "U5e.C53_enumerations_exist",
    "U5e.C53_checked_in_files"
   ],
   "note": "Well-formed is Spec/UcdText (FileText, GcbFile, ExclFile); C53_checked_in_files shows the checked-in files meet every hypothesis. sort's tie-break on whole lines is not modelled, hence distinct first codepoints in the grapheme theorem."
  },
  {
   "property": "C54",
   "status": "proved",
   "theorems": [
    "U5e.C54_single_range_utf8",
    "U5e.C54_single_range_utf32",
    "U5e.C54_distance_overflow",
    "U5e.C54_two_ranges_utf8",
    "U5e.C54_two_ranges_mixed",
    "U5e.C54_overlong_equal"
   ],
   "note": "utf32ne std::distance is pointer subtraction of native iterators and not modelled. The loops are those of libstdc++."
  },
  {
   "property": "C55",
   "status": "proved",
   "theorems": [
    "U5e.C55_reverse_utf32",
    "U5e.C55_reverse_utf8"
   ],
   "note": "Any read through the dangling reference is modelled as undefined behaviour."
  },
  {
   "property": "C56",
   "status": "proved",
   "theorems": [
    "U5e.C56_programs",
    "U5e.C56_deterministic",
    "U5e.C56_allowed_checkable",
    "U5e.C56_restrictions_needed"
   ],
   "note": "Normalizing a string into itself is excluded (iterators are invalidated). Fuel is an artefact: the result is the same for all sufficiently large fuel."
  },
  {
   "property": "C57",
   "status": "proved",
   "theorems": [
    "U5e.C57_format",
    "U5e.C57_format_faithful",
    "U5e.C57_simple_iteration",
    "U5e.C57_simple_iteration_any",
    "U5e.C57_grapheme_iteration",
    "U5e.C57_normalization",
    "U5e.C57_smallest_code",
    "U5e.C57_normalization_utf32",
    "U5e.C57_truncation",
    "U5e.C57_normalization_limit"
   ],
   "note": "Models the loops of the example programs over the modelled library; std::cout and std::hex/setw/setfill are modelled by the printed characters."
  },
  {
   "property": "C58",
   "status": "proved",
   "theorems": [
    "U5e.C58_canonical_equals_compat_after_compat",
    "U5e.C58_canonical_after_compat_iff",
    "U5e.C58_compat_after_canonical_iff",
    "U5e.C58_compat_after_canonical",
    "U5e.C58_counterexamples",
    "U5e.C58_same_comparison",
    "U5e.C58_canonical_implies_compat",
    "U5e.C58_compat_after_canonical_kept",
    "U5e.C58_canonical_implies_compat_kept",
    "U5e.C58_trap_distinguishes"
   ],
   "note": "Texts are utf32ne strings; the sort is stable (C34 shows that this is needed already for idempotence). Where emoji modifiers do not directly follow emoji bases only the direction canonical-after-compatibility is characterised exactly. C58_canonical_implies_compat_kept and C58_trap_distinguishes are in Properties/NormalSlice."
  },
  {
   "property": "C59",
   "status": "proved",
   "theorems": [
    "U5e.C59_graphemes_of_normal_form",
    "U5e.C59_counterexamples",
    "U5e.C59_exact",
    "U5e.C59_exact_decomposed",
    "U5e.C59_equivalent_texts",
    "U5e.C59_compare_by_graphemes",
    "U5e.C59_equivalent_texts_counterexample",
    "U5e.C59_compare_any_form"
   ],
   "note": "Texts are utf32ne strings; C59_exact and C59_exact_decomposed are for all texts, C59_equivalent_texts and C59_compare_by_graphemes are in Properties/NormalSearch. C59_compare_any_form: all four forms and any conforming sort (Properties/NormalSlice)."
  },
  {
   "property": "C60",
   "status": "proved",
   "theorems": [
    "U5e.C60_any_granularity",
    "U5e.C60_statements_suffice",
    "U5e.C60_implementation_exists",
    "U5e.C60_each_thread_as_alone",
    "U5e.C60_no_undefined_behaviour",
    "U5e.C60_schedule_irrelevant",
    "U5e.C60_ideal_under_every_schedule",
    "U5e.C60_needs_race_freedom"
   ],
   "note": "The C60_any_granularity and C60_statements_suffice theorems switch threads between single accesses to string elements (sequentially consistent memory); in the others a statement is one step. That the library has no mutable state of its own (no static but the constant tables) is read off the sources and is the shape of the model."
  },
  {
   "property": "C61",
   "status": "proved",
   "theorems": [
    "U5e.C61_utf32",
    "U5e.C61_utf8",
    "U5e.C61_programs_utf8",
    "U5e.C61_programs_utf32"
   ],
   "note": "An append that throws has no effect (the strong guarantee of std::basic_string::append); only copies and appends allocate. The UTF-8 statement is for normal forms the encoder writes correctly (C10)."
  },
  {
   "property": "C62",
   "status": "proved",
   "theorems": [
    "U5e.C62_programs_with_iterators",
    "U5e.C62_invalid_iterators_undefined",
    "U5e.C62_deterministic",
    "U5e.C62_permitted_checkable",
    "U5e.C62_restrictions_needed"
   ],
   "note": "Which statements invalidate iterators follows the C++ standard's rule for std::basic_string (any store other than through iterators may); the model treats a use after that as undefined even if no reallocation happened."
  },
  {
   "property": "C63",
   "status": "proved",
   "theorems": [
    "U5e.C63_forward",
    "U5e.C63_backward",
    "U5e.C63_directions_agree",
    "U5e.C63_directions_differ"
   ],
   "note": ""
  },
  {
   "property": "C64",
   "status": "proved",
   "theorems": [
    "U5e.C64_programs",
    "U5e.C64_deterministic",
    "U5e.C64_encodings_irrelevant",
    "U5e.C64_permitted_checkable",
    "U5e.C64_restrictions_needed"
   ],
   "note": ""
  },
  {
   "property": "C65",
   "status": "proved",
   "theorems": [
    "U5e.C65_same_everywhere",
    "U5e.C65_this_model",
    "U5e.C65_unsigned_char",
    "U5e.C65_programs",
    "U5e.C65_programs_with_iterators",
    "U5e.C65_signed_char_strict",
    "U5e.C65_ascii",
    "U5e.C65_restrictions_needed"
   ],
   "note": ""
  },
  {
   "property": "C66",
   "status": "proved",
   "theorems": [
    "U5e.C66_same_functions",
    "U5e.C66_lookups",
    "U5e.C66_lookups_attained",
    "U5e.C66_forward_any_octets",
    "U5e.C66_backward_any_octets",
    "U5e.C66_forward_exact",
    "U5e.C66_graphemes",
    "U5e.C66_normalization",
    "U5e.C66_equality_multiplies"
   ],
   "note": ""
  },
  {
   "property": "C67",
   "status": "proved",
   "theorems": [
    "U5e.C67_glibc_conforms",
    "U5e.C67_values",
    "U5e.C67_pointers",
    "U5e.C67_decomposition",
    "U5e.C67_placements_exist",
    "U5e.C67_pointer_first_needed"
   ],
   "note": ""
  },
  {
   "property": "C68",
   "status": "proved",
   "theorems": [
    "U5e.C68_equivalence_is_same_decomposition",
    "U5e.C68_canonical_output_equivalent_iff",
    "U5e.C68_compat_output_equivalent_iff",
    "U5e.C68_equivalent_iff_same_decomposition",
    "U5e.C68_same_output_implies_equivalent",
    "U5e.C68_same_output_iff_equivalent",
    "U5e.C68_canonical_same_output_iff_equivalent",
    "U5e.C68_equivalent_same_graphemes",
    "U5e.C68_compat_same_output_iff_equivalent",
    "U5e.C68_utf8_equivalent_same_output",
    "U5e.C68_counterexamples"
   ],
   "note": ""
  },
  {
   "property": "C69",
   "status": "proved",
   "theorems": [
    "U5e.C69_decomposition_conforms_iff",
    "U5e.C69_composition_conforms",
    "U5e.C69_counterexamples",
    "U5e.C69_codepoint_by_codepoint",
    "U5e.C69_utf8",
    "U5e.C69_unchanged_iff"
   ],
   "note": ""
  },
  {
   "property": "C70",
   "status": "proved",
   "theorems": [
    "U5e.C70_intermediate",
    "U5e.C70_codepoints",
    "U5e.C70_nfc_stable",
    "U5e.C70_octets",
    "U5e.C70_tight_codepoints",
    "U5e.C70_tight_octets"
   ],
   "note": ""
  },
  {
   "property": "C71",
   "status": "proved",
   "theorems": [
    "U5e.C71_order",
    "U5e.C71_search",
    "U5e.C71_search_mixed",
    "U5e.C71_wellformed_needed"
   ],
   "note": ""
  },
  {
   "property": "C72",
   "status": "proved",
   "theorems": [
    "U5e.C72_increment",
    "U5e.C72_decrement",
    "U5e.C72_read",
    "U5e.C72_equal",
    "U5e.C72_write",
    "U5e.C72_append",
    "U5e.C72_append_range",
    "U5e.C72_append_range_utf32"
   ],
   "note": ""
  },
  {
   "property": "C73",
   "status": "proved",
   "theorems": [
    "U5e.C73_sorts",
    "U5e.C73_needs_strict_weak",
    "U5e.C73_conforming",
    "U5e.C73_stable_up_to_16",
    "U5e.C73_comparisons_only",
    "U5e.C73_short_graphemes",
    "U5e.C73_short_uax_d",
    "U5e.C73_short_uax_c",
    "U5e.C73_short_idempotent",
    "U5e.C73_seventeen",
    "U5e.C73_not_stable",
    "U5e.C73_comparisons",
    "U5e.C73_normalization_work"
   ],
   "note": "libstdc++ 13 (not in /repo), transcribed from the installed headers. Stability beyond 16 elements refuted: C73_seventeen, C73_not_stable."
  },
  {
   "property": "C74",
   "status": "proved",
   "theorems": [
    "U5e.C74_any_two_forms",
    "U5e.C74_idempotent",
    "U5e.C74_graphemes",
    "U5e.C74_same_octets",
    "U5e.C74_needs_encodable"
   ],
   "note": ""
  },
  {
   "property": "C75",
   "status": "proved",
   "theorems": [
    "U5e.C75_each_thread_as_alone",
    "U5e.C75_no_undefined_behaviour",
    "U5e.C75_schedule_irrelevant",
    "U5e.C75_ideal_under_every_schedule",
    "U5e.C75_needs_race_freedom"
   ],
   "note": "A statement is one step, as in C60 (C81 removes that). Sequentially consistent memory."
  },
  {
   "property": "C76",
   "status": "proved",
   "theorems": [
    "U5e.C76_programs"
   ],
   "note": "Same assumptions as C61: a throwing append has no effect; only copies and appends allocate."
  },
  {
   "property": "C77",
   "status": "proved",
   "theorems": [
    "U5e.C77_neighbours",
    "U5e.C77_pieces",
    "U5e.C77_join",
    "U5e.C77_join_at_break",
    "U5e.C77_seam_needed",
    "U5e.C77_stable_needed",
    "U5e.C77_truncate_utf8",
    "U5e.C77_pieces_of_result"
   ],
   "note": "For a stable sort (C77_stable_needed: the linked std::sort breaks it for graphemes of 17 or more codepoints). The number of codepoints of the decomposition is below 2^31."
  },
  {
   "property": "C78",
   "status": "proved",
   "theorems": [
    "U5e.C78_programs",
    "U5e.C78_deterministic",
    "U5e.C78_encodings_irrelevant",
    "U5e.C78_dangling_undefined",
    "U5e.C78_allowed_checkable",
    "U5e.C78_restrictions_needed"
   ],
   "note": "Const and mutable codepoint iterators, grapheme iterators and views. Restrictions as in C64 and C62."
  },
  {
   "property": "C79",
   "status": "proved",
   "theorems": [
    "U5e.C79_programs",
    "U5e.C79_deterministic",
    "U5e.C79_allowed_checkable"
   ],
   "note": "Restrictions as in C78. The views and iterators of a string to which an append threw are taken to be invalid even if nothing was appended."
  },
  {
   "property": "C80",
   "status": "proved",
   "theorems": [
    "U5e.C80_threads",
    "U5e.C80_schedule_irrelevant",
    "U5e.C80_allowed_checkable",
    "U5e.C80_needs_owners"
   ],
   "note": "A statement is one step, as in C60 and C75 (C81 removes that). Sequentially consistent memory. Variables are not shared between threads."
  },
  {
   "property": "C81",
   "status": "proved",
   "theorems": [
    "U5e.C81_any_granularity",
    "U5e.C81_statements_suffice",
    "U5e.C81_race_free",
    "U5e.C81_progress",
    "U5e.C81_implementation_exists",
    "U5e.C81_needs_owners",
    "U5e.C81_accesses"
   ],
   "note": "The accesses of a statement are any that stay within the strings the statement names and, undisturbed, have its effect; C81_implementation_exists shows there are some. Memory is sequentially consistent; C81_race_free shows that C++ promises that for these programs. Variables are not shared between threads."
  },
  {
   "property": "C82",
   "status": "proved",
   "theorems": [
    "U5e.C82_linked",
    "U5e.C82_search",
    "U5e.C82_occurs",
    "U5e.C82_counterexample",
    "U5e.C82_search_utf8",
    "U5e.C82_any_form"
   ],
   "note": "Texts are utf32ne strings. C82_search_utf8: the same of the octets of utf8_string, where the encoder gets both forms right (C10). C82_linked: with the linked std::sort, graphemes decomposing to at most 16 codepoints. C82_any_form: all four forms and any conforming sort, if the form of each grapheme is one grapheme and neighbours break."
  },
  {
   "property": "C83",
   "status": "proved",
   "theorems": [
    "U5e.C83_linked",
    "U5e.C83_linked_truncate",
    "U5e.C83_utf8",
    "U5e.C83_exact",
    "U5e.C83_cut_then_normalize",
    "U5e.C83_truncate",
    "U5e.C83_any_form",
    "U5e.C83_counterexamples"
   ],
   "note": "C83_exact is the iff; C83_cut_then_normalize is the program with grapheme iterators and append. Texts are utf32ne strings (append between grapheme iterators narrows in UTF-8, C39). C83_linked, C83_linked_truncate: with the linked std::sort, graphemes decomposing to at most 16 codepoints. C83_utf8: from utf8_string to utf8_string, where the encoder gets the form right. C83_any_form: the iff for all four forms and any conforming sort."
  }
 ]
}