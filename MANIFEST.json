{
 "claims": [
  {
   "property": "C01",
   "status": "proved",
   "theorems": [
    "Chomp.Props.C01_left_identity",
    "Chomp.Props.C01_left_identity_then"
   ],
   "note": "Monad left identity"
  },
  {
   "property": "C02",
   "status": "proved",
   "theorems": [
    "Chomp.Props.C02_right_identity",
    "Chomp.Props.C02_right_identity_conv"
   ],
   "note": "Monad right identity"
  },
  {
   "property": "C03",
   "status": "proved",
   "theorems": [
    "Chomp.Props.C03_associativity",
    "Chomp.Props.C03_associativity_same",
    "Chomp.Props.C03_coherence_needed",
    "Chomp.Props.C03_parser_associativity"
   ],
   "note": "Monad associativity"
  },
  {
   "property": "C04",
   "status": "proved",
   "theorems": [
    "Chomp.Props.C04_bind_error",
    "Chomp.Props.C04_bind_incomplete",
    "Chomp.Props.C04_then_error",
    "Chomp.Props.C04_then_incomplete",
    "Chomp.Props.C04_then_is_bind",
    "Chomp.Props.C04_map",
    "Chomp.Props.C04_map_err",
    "Chomp.Props.C04_map_id",
    "Chomp.Props.C04_map_comp",
    "Chomp.Props.C04_map_is_bind",
    "Chomp.Props.C04_inspect",
    "Chomp.Props.C04_inspect_counts",
    "Chomp.Props.C04_from_result",
    "Chomp.Props.C04_unwrap"
   ],
   "note": "Failure short-circuits"
  },
  {
   "property": "C05",
   "status": "proved",
   "theorems": [
    "Chomp.Props.C05_remainder",
    "Chomp.Props.C05_error"
   ],
   "note": "Remainder locality"
  },
  {
   "property": "C06",
   "status": "proved",
   "theorems": [
    "Chomp.Props.C06_no_panic"
   ],
   "note": "No reachable panic"
  },
  {
   "property": "C07",
   "status": "proved",
   "theorems": [
    "Chomp.Props.C07_stable",
    "Chomp.Props.C07_crash"
   ],
   "note": "Verdicts on partial input are stable"
  },
  {
   "property": "C08",
   "status": "proved",
   "theorems": [
    "Chomp.Props.C08_positive",
    "Chomp.Props.C08_truthful"
   ],
   "note": "Incomplete requests are positive and truthful"
  },
  {
   "property": "C09",
   "status": "proved",
   "theorems": [
    "Chomp.Props.C09_peek",
    "Chomp.Props.C09_eof",
    "Chomp.Props.C09_take_remainder",
    "Chomp.Props.C09_many_till"
   ],
   "note": "Which parsers depend on chunk boundaries"
  },
  {
   "property": "C10",
   "status": "proved",
   "theorems": [
    "Chomp.Props.C10_parse_only",
    "Chomp.Props.C10_parse_only_ok"
   ],
   "note": "parse_only runs in end-of-input mode"
  },
  {
   "property": "C11",
   "status": "proved",
   "theorems": [
    "Chomp.Props.C11_any",
    "Chomp.Props.C11_satisfy",
    "Chomp.Props.C11_satisfy_with",
    "Chomp.Props.C11_token",
    "Chomp.Props.C11_not_token",
    "Chomp.Props.C11_peek"
   ],
   "note": "Single item parsers"
  },
  {
   "property": "C12",
   "status": "proved",
   "theorems": [
    "Chomp.Props.C12_take_ok",
    "Chomp.Props.C12_take_short",
    "Chomp.Props.C12_take_add"
   ],
   "note": "take splits exactly"
  },
  {
   "property": "C13",
   "status": "proved",
   "theorems": [
    "Chomp.Props.C13_take_while",
    "Chomp.Props.C13_take_while_iff"
   ],
   "note": "take_while is maximal munch"
  },
  {
   "property": "C14",
   "status": "proved",
   "theorems": [
    "Chomp.Props.C14_take_while1_empty",
    "Chomp.Props.C14_take_while1_err",
    "Chomp.Props.C14_take_while1"
   ],
   "note": "take_while1 is maximal munch of at least one"
  },
  {
   "property": "C15",
   "status": "proved",
   "theorems": [
    "Chomp.Props.C15_take_till",
    "Chomp.Props.C15_take_till_none",
    "Chomp.Props.C15_take_till_take_while"
   ],
   "note": "take_till stops at the first match"
  },
  {
   "property": "C16",
   "status": "proved",
   "theorems": [
    "Chomp.Props.C16_scan",
    "Chomp.Props.C16_scan_none",
    "Chomp.Props.C16_scan_total"
   ],
   "note": "scan and run_scanner fold the state over the match"
  },
  {
   "property": "C17",
   "status": "proved",
   "theorems": [
    "Chomp.Props.C17_string_match",
    "Chomp.Props.C17_string_short",
    "Chomp.Props.C17_string_mismatch",
    "Chomp.Props.C17_string_iff"
   ],
   "note": "string matches literally"
  },
  {
   "property": "C18",
   "status": "proved",
   "theorems": [
    "Chomp.Props.C18_eof",
    "Chomp.Props.C18_then_eof",
    "Chomp.Props.C18_take_remainder"
   ],
   "note": "eof and take_remainder"
  },
  {
   "property": "C19",
   "status": "proved",
   "theorems": [
    "Chomp.Props.C19_option_ok",
    "Chomp.Props.C19_option_err",
    "Chomp.Props.C19_option_incomplete",
    "Chomp.Props.C19_option_crash",
    "Chomp.Props.C19_option_never_errors"
   ],
   "note": "option backtracks"
  },
  {
   "property": "C20",
   "status": "proved",
   "theorems": [
    "Chomp.Props.C20_or_ok",
    "Chomp.Props.C20_or_err",
    "Chomp.Props.C20_or_incomplete",
    "Chomp.Props.C20_or_crash",
    "Chomp.Props.C20_or_assoc",
    "Chomp.Props.C20_or_err_neutral",
    "Chomp.Props.C20_or_ret",
    "Chomp.Props.C20_option_is_or"
   ],
   "note": "or tries the second alternative from the original position"
  },
  {
   "property": "C21",
   "status": "proved",
   "theorems": [
    "Chomp.Props.C21_look_ahead_ok",
    "Chomp.Props.C21_look_ahead_err",
    "Chomp.Props.C21_look_ahead_incomplete",
    "Chomp.Props.C21_look_ahead_consumes_nothing",
    "Chomp.Props.C21_look_ahead_idem"
   ],
   "note": "look_ahead consumes nothing"
  },
  {
   "property": "C22",
   "status": "proved",
   "theorems": [
    "Chomp.Props.C22_built",
    "Chomp.Props.C22_no_panic",
    "Chomp.Props.C22_matched_by_ok",
    "Chomp.Props.C22_matched_by_err",
    "Chomp.Props.C22_matched_by_incomplete",
    "Chomp.Props.C22_matched_by_longer"
   ],
   "note": "matched_by returns exactly the consumed slice"
  },
  {
   "property": "C23",
   "status": "proved",
   "theorems": [
    "Chomp.Props.C23_many",
    "Chomp.Props.C23_many_ok",
    "Chomp.Props.C23_many_never_errors",
    "Chomp.Props.C23_many_incomplete"
   ],
   "note": "many collects greedily"
  },
  {
   "property": "C24",
   "status": "proved",
   "theorems": [
    "Chomp.Props.C24_many_from",
    "Chomp.Props.C24_many1",
    "Chomp.Props.C24_at_least",
    "Chomp.Props.C24_many_from_zero"
   ],
   "note": "many1 / lower-bounded many"
  },
  {
   "property": "C25",
   "status": "proved",
   "theorems": [
    "Chomp.Props.C25_count",
    "Chomp.Props.C25_count_ok",
    "Chomp.Props.C25_count_zero",
    "Chomp.Props.C25_count_fails"
   ],
   "note": "count is exact"
  },
  {
   "property": "C26",
   "status": "proved",
   "theorems": [
    "Chomp.Props.C26_many_range",
    "Chomp.Props.C26_many_to",
    "Chomp.Props.C26_in_range",
    "Chomp.Props.C26_limit"
   ],
   "note": "Half-open ranges a..b and ..b"
  },
  {
   "property": "C27",
   "status": "proved",
   "theorems": [
    "Chomp.Props.C27_empty_is_count",
    "Chomp.Props.C27_empty_skip_is_count",
    "Chomp.Props.C27_empty_till_is_count",
    "Chomp.Props.C27_zero_is_one",
    "Chomp.Props.C27_panics_only_if",
    "Chomp.Props.C27_reversed",
    "Chomp.Props.C27_not_reversed",
    "Chomp.Props.C27_empty_many",
    "Chomp.Props.C27_empty_after",
    "Chomp.Props.C27_zero",
    "Chomp.Props.C27_empty_till",
    "Chomp.Props.C27_empty_till_never"
   ],
   "note": "Degenerate ranges"
  },
  {
   "property": "C28",
   "status": "proved",
   "theorems": [
    "Chomp.Props.C28_skip_many",
    "Chomp.Props.C28_skip_many_unbounded"
   ],
   "note": "skip_many agrees with many"
  },
  {
   "property": "C29",
   "status": "proved",
   "theorems": [
    "Chomp.Props.C29_incomplete_zero"
   ],
   "note": "skip_many exact count and Incomplete(0)"
  },
  {
   "property": "C30",
   "status": "proved",
   "theorems": [
    "Chomp.Props.C30_diverges_iff",
    "Chomp.Props.C30_terminates",
    "Chomp.Props.C30_bounded_terminates",
    "Chomp.Props.C30_non_consuming",
    "Chomp.Props.C30_many",
    "Chomp.Props.C30_skip_many",
    "Chomp.Props.C30_many_till",
    "Chomp.Props.C30_sep_by"
   ],
   "note": "Termination of repetition"
  },
  {
   "property": "C31",
   "status": "proved",
   "theorems": [
    "Chomp.Props.C31_sep_by",
    "Chomp.Props.C31_sep_by_ok",
    "Chomp.Props.C31_never_errors",
    "Chomp.Props.C31_empty"
   ],
   "note": "sep_by grammar"
  },
  {
   "property": "C32",
   "status": "proved",
   "theorems": [
    "Chomp.Props.C32_sep_by1",
    "Chomp.Props.C32_first_fails",
    "Chomp.Props.C32_first_succeeds",
    "Chomp.Props.C32_at_least_one"
   ],
   "note": "sep_by1 grammar"
  },
  {
   "property": "C33",
   "status": "proved",
   "theorems": [
    "Chomp.Props.C33_many_till",
    "Chomp.Props.C33_many_till_ok",
    "Chomp.Props.C33_many_till_error",
    "Chomp.Props.C33_many_till_incomplete"
   ],
   "note": "many_till stops at the first end match"
  },
  {
   "property": "C34",
   "status": "proved",
   "theorems": [
    "Chomp.Props.C34_many_till_from",
    "Chomp.Props.C34_many_till_exactly",
    "Chomp.Props.C34_many_till_range",
    "Chomp.Props.C34_in_range",
    "Chomp.Props.C34_no_panic",
    "Chomp.Props.C34_end_not_called",
    "Chomp.Props.C34_limit"
   ],
   "note": "Bounded many_till"
  },
  {
   "property": "C35",
   "status": "proved",
   "theorems": [
    "Chomp.Props.C35_many_till_to",
    "Chomp.Props.C35_panics",
    "Chomp.Props.C35_panics_at_once",
    "Chomp.Props.C35_success",
    "Chomp.Props.C35_success_at"
   ],
   "note": "many_till with ..n panics on an early end"
  },
  {
   "property": "C36",
   "status": "proved",
   "theorems": [
    "Chomp.Props.C36_upper_many",
    "Chomp.Props.C36_upper_many_till",
    "Chomp.Props.C36_lower_range",
    "Chomp.Props.C36_lower_from",
    "Chomp.Props.C36_lower_exactly",
    "Chomp.Props.C36_lower_till_range",
    "Chomp.Props.C36_lower_till_from",
    "Chomp.Props.C36_lower_till_exactly",
    "Chomp.Props.C36_lower_full",
    "Chomp.Props.C36_lower_to",
    "Chomp.Props.C36_lower_till_full",
    "Chomp.Props.C36_lower_till_to",
    "Chomp.Props.C36_lower_bound_wrong"
   ],
   "note": "size_hint of the repetition iterators"
  },
  {
   "property": "C37",
   "status": "proved",
   "theorems": [
    "Chomp.Props.C37_many",
    "Chomp.Props.C37_count",
    "Chomp.Props.C37_at_least",
    "Chomp.Props.C37_option_stops",
    "Chomp.Props.C37_bounded",
    "Chomp.Props.C37_many_till",
    "Chomp.Props.C37_sep_by"
   ],
   "note": "Early-stopping collections"
  },
  {
   "property": "C38",
   "status": "proved",
   "theorems": [
    "Chomp.Props.C38_classes",
    "Chomp.Props.C38_space",
    "Chomp.Props.C38_relations",
    "Chomp.Props.C38_skip_whitespace",
    "Chomp.Props.C38_skip_whitespace_all",
    "Chomp.Props.C38_digit"
   ],
   "note": "ASCII predicates"
  },
  {
   "property": "C39",
   "status": "proved",
   "theorems": [
    "Chomp.Props.C39_value",
    "Chomp.Props.C39_checked",
    "Chomp.Props.C39_wrapping",
    "Chomp.Props.C39_wraps_unique",
    "Chomp.Props.C39_incomplete",
    "Chomp.Props.C39_error"
   ],
   "note": "decimal computes the value"
  },
  {
   "property": "C40",
   "status": "proved",
   "theorems": [
    "Chomp.Props.C40_decimal",
    "Chomp.Props.C40_signed",
    "Chomp.Props.C40_plus",
    "Chomp.Props.C40_error",
    "Chomp.Props.C40_incomplete",
    "Chomp.Props.C40_any_parser"
   ],
   "note": "decimal/signed round-trip"
  },
  {
   "property": "C41",
   "status": "proved",
   "theorems": [
    "Chomp.Props.C41_checked",
    "Chomp.Props.C41_wrapping",
    "Chomp.Props.C41_exact"
   ],
   "note": "signed cannot parse the minimum value in checked builds"
  },
  {
   "property": "C42",
   "status": "proved",
   "theorems": [
    "Chomp.Props.C42_end_of_input",
    "Chomp.Props.C42_end_only",
    "Chomp.Props.C42_data",
    "Chomp.Props.C42_error",
    "Chomp.Props.C42_incomplete",
    "Chomp.Props.C42_crash",
    "Chomp.Props.C42_history"
   ],
   "note": "SliceStream advances exactly by consumption"
  },
  {
   "property": "C43",
   "status": "proved",
   "theorems": [
    "Chomp.Props.C43_parse_only",
    "Chomp.Props.C43_sequence",
    "Chomp.Props.C43_sequence_back"
   ],
   "note": "SliceStream equals parse_only"
  },
  {
   "property": "C44",
   "status": "proved",
   "theorems": [
    "Chomp.Props.C44_create",
    "Chomp.Props.C44_fifo",
    "Chomp.Props.C44_consume_over"
   ],
   "note": "FixedSizeBuffer is a bounded FIFO"
  },
  {
   "property": "C45",
   "status": "proved",
   "theorems": [
    "Chomp.Props.C45_fifo",
    "Chomp.Props.C45_capacity",
    "Chomp.Props.C45_limit",
    "Chomp.Props.C45_panic"
   ],
   "note": "GrowingBuffer is a FIFO"
  },
  {
   "property": "C46",
   "status": "proved",
   "theorems": [
    "Chomp.Props.C46_debug",
    "Chomp.Props.C46_legal",
    "Chomp.Props.C46_start",
    "Chomp.Props.C46_fixed",
    "Chomp.Props.C46_source_parse",
    "Chomp.Props.C46_source_ops"
   ],
   "note": "Uninitialised memory is never exposed"
  },
  {
   "property": "C47",
   "status": "proved",
   "theorems": [
    "Chomp.Props.C47_growing",
    "Chomp.Props.C47_fixed",
    "Chomp.Props.C47_limited",
    "Chomp.Props.C47_limited_witness"
   ],
   "note": "request_space makes room"
  },
  {
   "property": "C48",
   "status": "proved",
   "theorems": [
    "Chomp.Props.C48_buffer",
    "Chomp.Props.C48_new",
    "Chomp.Props.C48_parse",
    "Chomp.Props.C48_parse_frame",
    "Chomp.Props.C48_parse_step",
    "Chomp.Props.C48_step",
    "Chomp.Props.C48_history",
    "Chomp.Props.C48_stream"
   ],
   "note": "Stream data is neither lost nor duplicated"
  },
  {
   "property": "C49",
   "status": "proved",
   "theorems": [
    "Chomp.Props.C49_fill",
    "Chomp.Props.C49_no_read",
    "Chomp.Props.C49_autofill",
    "Chomp.Props.C49_new"
   ],
   "note": "fill either satisfies the request or signals the end"
  },
  {
   "property": "C50",
   "status": "proved",
   "theorems": [
    "Chomp.Props.C50_real_end",
    "Chomp.Props.C50_growing",
    "Chomp.Props.C50_fixed",
    "Chomp.Props.C50_false_end",
    "Chomp.Props.C50_witness"
   ],
   "note": "End of input is only signalled at the real end when the request fits"
  },
  {
   "property": "C51",
   "status": "proved",
   "theorems": [
    "Chomp.Props.C51_retry",
    "Chomp.Props.C51_new",
    "Chomp.Props.C51_chunking",
    "Chomp.Props.C51_fits",
    "Chomp.Props.C51_growing",
    "Chomp.Props.C51_fixed"
   ],
   "note": "Chunking does not matter"
  },
  {
   "property": "C52",
   "status": "proved",
   "theorems": [
    "Chomp.Props.C52_call",
    "Chomp.Props.C52_crash",
    "Chomp.Props.C52_calls"
   ],
   "note": "Source refines SliceStream"
  },
  {
   "property": "C53",
   "status": "proved",
   "theorems": [
    "Chomp.Props.C53_retry",
    "Chomp.Props.C53_progress",
    "Chomp.Props.C53_terminates",
    "Chomp.Props.C53_spin",
    "Chomp.Props.C53_zero",
    "Chomp.Props.C53_overflow"
   ],
   "note": "Retry makes progress"
  },
  {
   "property": "C54",
   "status": "proved",
   "theorems": [
    "Chomp.Props.C54_reset",
    "Chomp.Props.C54_no_read",
    "Chomp.Props.C54_autofill",
    "Chomp.Props.C54_stuck"
   ],
   "note": "reset disables automatic filling"
  },
  {
   "property": "C55",
   "status": "proved",
   "theorems": [
    "Chomp.Props.C55_truncated",
    "Chomp.Props.C55_end_of_input",
    "Chomp.Props.C55_witness"
   ],
   "note": "A limited GrowingBuffer loses the stream tail"
  },
  {
   "property": "C56",
   "status": "proved",
   "theorems": [
    "Chomp.Props.C56_read",
    "Chomp.Props.C56_no_read",
    "Chomp.Props.C56_end",
    "Chomp.Props.C56_fixed"
   ],
   "note": "Read for Source"
  },
  {
   "property": "C57",
   "status": "proved",
   "theorems": [
    "Chomp.Props.C57_fill_buf",
    "Chomp.Props.C57_consume",
    "Chomp.Props.C57_consume_over",
    "Chomp.Props.C57_full",
    "Chomp.Props.C57_growing",
    "Chomp.Props.C57_fixed",
    "Chomp.Props.C57_growing_used"
   ],
   "note": "BufRead for Source"
  },
  {
   "property": "C58",
   "status": "proved",
   "theorems": [
    "Chomp.Props.C58_read",
    "Chomp.Props.C58_list"
   ],
   "note": "IteratorDataSource delivers the iterator in order"
  },
  {
   "property": "C59",
   "status": "proved",
   "theorems": [
    "Chomp.Props.C59_eq",
    "Chomp.Props.C59_symm",
    "Chomp.Props.C59_trans",
    "Chomp.Props.C59_refl",
    "Chomp.Props.C59_io",
    "Chomp.Props.C59_injective",
    "Chomp.Props.C59_range",
    "Chomp.Props.C59_values"
   ],
   "note": "StreamError equality and conversion"
  },
  {
   "property": "C60",
   "status": "proved",
   "theorems": [
    "Chomp.Props.C60_slice",
    "Chomp.Props.C60_slice_witness",
    "Chomp.Props.C60_exact",
    "Chomp.Props.C60_source",
    "Chomp.Props.C60_source_witness"
   ],
   "note": "Request arithmetic overflow"
  },
  {
   "property": "C61",
   "status": "proved",
   "theorems": [
    "Chomp.Props.C61_complete",
    "Chomp.Props.C61_sound",
    "Chomp.Props.C61_trailing_semicolon",
    "Chomp.Props.C61_unambiguous",
    "Chomp.Props.C61_parse",
    "Chomp.Props.C61_unrolled",
    "Chomp.Props.C61_unrolled_depth",
    "Chomp.Props.C61_limit",
    "Chomp.Props.C61_split_then",
    "Chomp.Props.C61_split_or",
    "Chomp.Props.C61_split_skip",
    "Chomp.Props.C61_split_statement",
    "Chomp.Props.C61_no_operator",
    "Chomp.Props.C61_let_not_last",
    "Chomp.Props.C61_last_statement",
    "Chomp.Props.C61_shr_in_type_witness"
   ],
   "note": "parse! splits at the documented operators"
  },
  {
   "property": "C62",
   "status": "proved",
   "theorems": [
    "Chomp.Props.C62_functional",
    "Chomp.Props.C62_total",
    "Chomp.Props.C62_ret",
    "Chomp.Props.C62_err",
    "Chomp.Props.C62_inline",
    "Chomp.Props.C62_named",
    "Chomp.Props.C62_parens",
    "Chomp.Props.C62_operand_skip",
    "Chomp.Props.C62_operand_or",
    "Chomp.Props.C62_operand_then",
    "Chomp.Props.C62_then",
    "Chomp.Props.C62_skip",
    "Chomp.Props.C62_or",
    "Chomp.Props.C62_let",
    "Chomp.Props.C62_let_typed",
    "Chomp.Props.C62_action",
    "Chomp.Props.C62_block",
    "Chomp.Props.C62_then_assoc",
    "Chomp.Props.C62_skip_assoc",
    "Chomp.Props.C62_or_assoc",
    "Chomp.Props.C62_action_is_then"
   ],
   "note": "parse! means bind, or and skip"
  },
  {
   "property": "C63",
   "status": "proved",
   "theorems": [
    "Chomp.Props.C63_total",
    "Chomp.Props.C63_grammar",
    "Chomp.Props.C63_unambiguous",
    "Chomp.Props.C63_well_formed",
    "Chomp.Props.C63_print",
    "Chomp.Props.C63_round_trip",
    "Chomp.Props.C63_reprint",
    "Chomp.Props.C63_retry"
   ],
   "note": "The HTTP example parser is chunk independent"
  },
  {
   "property": "C64",
   "status": "proved",
   "theorems": [
    "Chomp.Props.C64_uninitialised",
    "Chomp.Props.C64_too_many_debug",
    "Chomp.Props.C64_too_many_release"
   ],
   "note": "A source breaking its contract corrupts safe code"
  },
  {
   "property": "C65",
   "status": "proved",
   "theorems": [
    "Chomp.Props.C65_growing",
    "Chomp.Props.C65_fixed"
   ],
   "note": "consume beyond len in release builds"
  },
  {
   "property": "C66",
   "status": "proved",
   "theorems": [
    "Chomp.Props.C66_request"
   ],
   "note": "Requests are bounded by what was asked for"
  },
  {
   "property": "C67",
   "status": "proved",
   "theorems": [
    "Chomp.Props.C67_empty",
    "Chomp.Props.C67_witness"
   ],
   "note": "An exhausted source may run the parser once more"
  },
  {
   "property": "C68",
   "status": "proved",
   "theorems": [
    "Chomp.Props.C68_records",
    "Chomp.Props.C68_rejects",
    "Chomp.Props.C68_returns",
    "Chomp.Props.C68_collect",
    "Chomp.Props.C68_chunking",
    "Chomp.Props.C68_fits"
   ],
   "note": "The record loop reads the records of the stream"
  },
  {
   "property": "C69",
   "status": "proved",
   "theorems": [
    "Chomp.Props.C69_returns",
    "Chomp.Props.C69_defined",
    "Chomp.Props.C69_consumes",
    "Chomp.Props.C69_empty",
    "Chomp.Props.C69_positive",
    "Chomp.Props.C69_total",
    "Chomp.Props.C69_parse_only",
    "Chomp.Props.C69_retry"
   ],
   "note": "A syntactic check for termination"
  },
  {
   "property": "C70",
   "status": "proved",
   "theorems": [
    "Chomp.Props.C70_counts",
    "Chomp.Props.C70_panics",
    "Chomp.Props.C70_long",
    "Chomp.Props.C70_overflow_debug",
    "Chomp.Props.C70_overflow_release",
    "Chomp.Props.C70_returns",
    "Chomp.Props.C70_exact"
   ],
   "note": "The HTTP example counts requests"
  },
  {
   "property": "C71",
   "status": "proved",
   "theorems": [
    "Chomp.Props.C71_keeps_mode",
    "Chomp.Props.C71_many",
    "Chomp.Props.C71_many1",
    "Chomp.Props.C71_many_from",
    "Chomp.Props.C71_count",
    "Chomp.Props.C71_many_range",
    "Chomp.Props.C71_many_to",
    "Chomp.Props.C71_sep_by1",
    "Chomp.Props.C71_sep_by",
    "Chomp.Props.C71_skip_many",
    "Chomp.Props.C71_many_till",
    "Chomp.Props.C71_many_till_from",
    "Chomp.Props.C71_many_till_exactly",
    "Chomp.Props.C71_many_till_range",
    "Chomp.Props.C71_skip_many_bounded",
    "Chomp.Props.C71_many_till_differs"
   ],
   "note": "Repetition unrolls"
  },
  {
   "property": "C72",
   "status": "proved",
   "theorems": [
    "Chomp.Props.C72_take_while",
    "Chomp.Props.C72_take_while1",
    "Chomp.Props.C72_take_till",
    "Chomp.Props.C72_scan",
    "Chomp.Props.C72_run_scanner",
    "Chomp.Props.C72_satisfy",
    "Chomp.Props.C72_satisfy_with",
    "Chomp.Props.C72_token",
    "Chomp.Props.C72_string",
    "Chomp.Props.C72_map",
    "Chomp.Props.C72_map_err",
    "Chomp.Props.C72_asked",
    "Chomp.Props.C72_pure"
   ],
   "note": "How closures and comparisons are called"
  },
  {
   "property": "C73",
   "status": "proved",
   "theorems": [
    "Chomp.Props.C73_any_collection_till",
    "Chomp.Props.C73_many",
    "Chomp.Props.C73_many_input",
    "Chomp.Props.C73_many_till",
    "Chomp.Props.C73_huge",
    "Chomp.Props.C73_exhausted",
    "Chomp.Props.C73_exhausted_till",
    "Chomp.Props.C73_any_collection"
   ],
   "note": "Memory used by repetitions and arbitrary collections"
  },
  {
   "property": "C74",
   "status": "proved",
   "theorems": [
    "Chomp.Props.C74_is_empty",
    "Chomp.Props.C74_deref_mut_fixed",
    "Chomp.Props.C74_deref_mut_growing",
    "Chomp.Props.C74_eq_true",
    "Chomp.Props.C74_eq_spurious",
    "Chomp.Props.C74_eq_new",
    "Chomp.Props.C74_eq_sizes",
    "Chomp.Props.C74_debug",
    "Chomp.Props.C74_debug_growing"
   ],
   "note": "Comparing, printing and editing buffers"
  },
  {
   "property": "C75",
   "status": "proved",
   "theorems": [
    "Chomp.Props.C75_alike",
    "Chomp.Props.C75_parse_only",
    "Chomp.Props.C75_source",
    "Chomp.Props.C75_slice",
    "Chomp.Props.C75_resume",
    "Chomp.Props.C75_http"
   ],
   "note": "What errors say has no influence on parsing"
  },
  {
   "property": "C76",
   "status": "proved",
   "theorems": [
    "Chomp.Props.C76_token",
    "Chomp.Props.C76_not_token",
    "Chomp.Props.C76_any",
    "Chomp.Props.C76_satisfy_with",
    "Chomp.Props.C76_peek_next",
    "Chomp.Props.C76_take_till",
    "Chomp.Props.C76_scan",
    "Chomp.Props.C76_take_while",
    "Chomp.Props.C76_take_while1",
    "Chomp.Props.C76_matched_by",
    "Chomp.Props.C76_many",
    "Chomp.Props.C76_sep_by",
    "Chomp.Props.C76_skip_many",
    "Chomp.Props.C76_count",
    "Chomp.Props.C76_or_self",
    "Chomp.Props.C76_or_factor",
    "Chomp.Props.C76_look_ahead_self",
    "Chomp.Props.C76_effects"
   ],
   "note": "Laws for rewriting parsers"
  },
  {
   "property": "C77",
   "status": "proved",
   "theorems": [
    "Chomp.Props.C77_recorded",
    "Chomp.Props.C77_runs",
    "Chomp.Props.C77_count",
    "Chomp.Props.C77_reads",
    "Chomp.Props.C77_reads_once"
   ],
   "note": "How often and on what a retried parse runs the parser and reads the source"
  },
  {
   "property": "C78",
   "status": "proved",
   "theorems": [
    "Chomp.Props.C78_fill_first",
    "Chomp.Props.C78_parse_first",
    "Chomp.Props.C78_fill_first_agrees",
    "Chomp.Props.C78_parse_first_agrees",
    "Chomp.Props.C78_new",
    "Chomp.Props.C78_calls"
   ],
   "note": "Filling a Source by hand"
  },
  {
   "property": "C79",
   "status": "proved",
   "theorems": [
    "Chomp.Props.C79_slice",
    "Chomp.Props.C79_source",
    "Chomp.Props.C79_fixed",
    "Chomp.Props.C79_growing"
   ],
   "note": "Parsers which leave a foreign slice"
  },
  {
   "property": "C80",
   "status": "proved",
   "theorems": [
    "Chomp.Props.C80_fixed",
    "Chomp.Props.C80_growing"
   ],
   "note": "A Source is memory safe whatever is done with it"
  },
  {
   "property": "C81",
   "status": "proved",
   "theorems": [
    "Chomp.Props.C81_usize",
    "Chomp.Props.C81_take",
    "Chomp.Props.C81_string",
    "Chomp.Props.C81_string_closure",
    "Chomp.Props.C81_many",
    "Chomp.Props.C81_skip_many",
    "Chomp.Props.C81_many_till",
    "Chomp.Props.C81_sep_by",
    "Chomp.Props.C81_sep_by1",
    "Chomp.Props.C81_matched_by",
    "Chomp.Props.C81_assembled",
    "Chomp.Props.C81_matched_by_assembled",
    "Chomp.Props.C81_http"
   ],
   "note": "Release builds of parsers"
  },
  {
   "property": "C82",
   "status": "proved",
   "theorems": [
    "Chomp.Props.C82_name",
    "Chomp.Props.C82_missiles",
    "Chomp.Props.C82_ip",
    "Chomp.Props.C82_ip_panics",
    "Chomp.Props.C82_log",
    "Chomp.Props.C82_log_waits",
    "Chomp.Props.C82_streaming"
   ],
   "note": "The parsers in the documentation"
  },
  {
   "property": "C83",
   "status": "proved",
   "theorems": [
    "Chomp.Props.C83_new",
    "Chomp.Props.C83_from",
    "Chomp.Props.C83_new_retry",
    "Chomp.Props.C83_alike",
    "Chomp.Props.C83_read_source",
    "Chomp.Props.C83_iterator",
    "Chomp.Props.C83_reader_returns",
    "Chomp.Props.C83_layer",
    "Chomp.Props.C83_delivers",
    "Chomp.Props.C83_nested"
   ],
   "note": "Ready-made sources, and sources on top of sources"
  },
  {
   "property": "C84",
   "status": "proved",
   "theorems": [
    "Chomp.Props.C84_agree_fill",
    "Chomp.Props.C84_agree_read",
    "Chomp.Props.C84_agree_fillBuf",
    "Chomp.Props.C84_agree_consume",
    "Chomp.Props.C84_agree_parse",
    "Chomp.Props.C84_fill",
    "Chomp.Props.C84_read",
    "Chomp.Props.C84_fillBuf",
    "Chomp.Props.C84_consume",
    "Chomp.Props.C84_parse",
    "Chomp.Props.C84_parse_again",
    "Chomp.Props.C84_parse_refill",
    "Chomp.Props.C84_step",
    "Chomp.Props.C84_history",
    "Chomp.Props.C84_fixed",
    "Chomp.Props.C84_growing",
    "Chomp.Props.C84_safe_fixed",
    "Chomp.Props.C84_safe_growing",
    "Chomp.Props.C84_agree_slice",
    "Chomp.Props.C84_slice",
    "Chomp.Props.C84_agree_iterator",
    "Chomp.Props.C84_agree_reader",
    "Chomp.Props.C84_iterator_loses",
    "Chomp.Props.C84_iterator_loses_item"
   ],
   "note": "Panics leave streams intact"
  },
  {
   "property": "C85",
   "status": "proved",
   "theorems": [
    "Chomp.Props.C85_fragments",
    "Chomp.Props.C85_end_of_line",
    "Chomp.Props.C85_http_version",
    "Chomp.Props.C85_request_line",
    "Chomp.Props.C85_message_header_line",
    "Chomp.Props.C85_message_header",
    "Chomp.Props.C85_request",
    "Chomp.Props.C85_bench",
    "Chomp.Props.C85_bench_requests",
    "Chomp.Props.C85_name",
    "Chomp.Props.C85_name_typed",
    "Chomp.Props.C85_missiles",
    "Chomp.Props.C85_parse_ip",
    "Chomp.Props.C85_log_severity",
    "Chomp.Props.C85_double",
    "Chomp.Props.C85_my_parser",
    "Chomp.Props.C85_readme"
   ],
   "note": "The programs written with parse! are the parsers they look like"
  },
  {
   "property": "C86",
   "status": "proved",
   "theorems": [
    "Chomp.Props.C86_many",
    "Chomp.Props.C86_succeeds",
    "Chomp.Props.C86_stream",
    "Chomp.Props.C86_printed",
    "Chomp.Props.C86_single"
   ],
   "note": "Many requests in a slice"
  },
  {
   "property": "C87",
   "status": "proved",
   "theorems": [
    "Chomp.Props.C87_no_read",
    "Chomp.Props.C87_stays",
    "Chomp.Props.C87_ends",
    "Chomp.Props.C87_fill_ends",
    "Chomp.Props.C87_reached",
    "Chomp.Props.C87_sticky",
    "Chomp.Props.C87_unnoticed",
    "Chomp.Props.C87_resume",
    "Chomp.Props.C87_fill",
    "Chomp.Props.C87_witness"
   ],
   "note": "The end of the input is remembered"
  },
  {
   "property": "C88",
   "status": "proved",
   "theorems": [
    "Chomp.Props.C88_values",
    "Chomp.Props.C88_unique",
    "Chomp.Props.C88_slice",
    "Chomp.Props.C88_source",
    "Chomp.Props.C88_same",
    "Chomp.Props.C88_growing",
    "Chomp.Props.C88_record",
    "Chomp.Props.C88_requests"
   ],
   "note": "Reading to the end, with I/O errors on the way"
  },
  {
   "property": "C89",
   "status": "proved",
   "theorems": [
    "Chomp.Props.C89_settled",
    "Chomp.Props.C89_bound",
    "Chomp.Props.C89_allocations",
    "Chomp.Props.C89_limit",
    "Chomp.Props.C89_steady",
    "Chomp.Props.C89_session",
    "Chomp.Props.C89_records",
    "Chomp.Props.C89_requests"
   ],
   "note": "A GrowingBuffer stays proportional to the largest value, however long the stream is"
  },
  {
   "property": "C90",
   "status": "proved",
   "theorems": [
    "Chomp.Props.C90_exists",
    "Chomp.Props.C90_equation",
    "Chomp.Props.C90_least",
    "Chomp.Props.C90_assembled",
    "Chomp.Props.C90_remainder",
    "Chomp.Props.C90_no_panic",
    "Chomp.Props.C90_stable"
   ],
   "note": "Functions which call themselves or each other are parsers like any other"
  },
  {
   "property": "C91",
   "status": "proved",
   "theorems": [
    "Chomp.Props.C91_returns",
    "Chomp.Props.C91_consumes",
    "Chomp.Props.C91_defined",
    "Chomp.Props.C91_depth",
    "Chomp.Props.C91_unique",
    "Chomp.Props.C91_left",
    "Chomp.Props.C91_depth_reached"
   ],
   "note": "Recursion ends if items are consumed first, and left recursion never does"
  },
  {
   "property": "C92",
   "status": "proved",
   "theorems": [
    "Chomp.Props.C92_deterministic",
    "Chomp.Props.C92_success",
    "Chomp.Props.C92_failure",
    "Chomp.Props.C92_endless",
    "Chomp.Props.C92_safe",
    "Chomp.Props.C92_parse_only",
    "Chomp.Props.C92_streaming",
    "Chomp.Props.C92_decimal",
    "Chomp.Props.C92_signed",
    "Chomp.Props.C92_expressible"
   ],
   "note": "Parsers mean what parsing expression grammars mean"
  },
  {
   "property": "C93",
   "status": "proved",
   "theorems": [
    "Chomp.Props.C93_take_while",
    "Chomp.Props.C93_take_while1",
    "Chomp.Props.C93_take_till",
    "Chomp.Props.C93_take",
    "Chomp.Props.C93_take_remainder",
    "Chomp.Props.C93_string",
    "Chomp.Props.C93_string_fails",
    "Chomp.Props.C93_string_waits",
    "Chomp.Props.C93_benches"
   ],
   "note": "Slice parsers and repetitions of item parsers agree"
  },
  {
   "property": "C94",
   "status": "proved",
   "theorems": [
    "Chomp.Props.C94_mirrors",
    "Chomp.Props.C94_parse_only",
    "Chomp.Props.C94_slice",
    "Chomp.Props.C94_source",
    "Chomp.Props.C94_graph",
    "Chomp.Props.C94_renamed",
    "Chomp.Props.C94_positions",
    "Chomp.Props.C94_collection",
    "Chomp.Props.C94_vec",
    "Chomp.Props.C94_named",
    "Chomp.Props.C94_pure",
    "Chomp.Props.C94_equality"
   ],
   "note": "Parsers see items only through closures and comparisons"
  },
  {
   "property": "C95",
   "status": "proved",
   "theorems": [
    "Chomp.Props.C95_readable",
    "Chomp.Props.C95_integers",
    "Chomp.Props.C95_slices",
    "Chomp.Props.C95_debug",
    "Chomp.Props.C95_parse_error",
    "Chomp.Props.C95_stream_error",
    "Chomp.Props.C95_display",
    "Chomp.Props.C95_display_slices",
    "Chomp.Props.C95_verbose",
    "Chomp.Props.C95_description",
    "Chomp.Props.C95_panics",
    "Chomp.Props.C95_unwrap",
    "Chomp.Props.C95_unwrap_err",
    "Chomp.Props.C95_expect",
    "Chomp.Props.C95_expect_incomplete",
    "Chomp.Props.C95_errors",
    "Chomp.Props.C95_token",
    "Chomp.Props.C95_take"
   ],
   "note": "Messages tell what happened"
  },
  {
   "property": "C96",
   "status": "proved",
   "theorems": [
    "Chomp.Props.C96_order",
    "Chomp.Props.C96_kinds",
    "Chomp.Props.C96_errors",
    "Chomp.Props.C96_slices",
    "Chomp.Props.C96_equal",
    "Chomp.Props.C96_identity",
    "Chomp.Props.C96_hash",
    "Chomp.Props.C96_hash_tells",
    "Chomp.Props.C96_incomparable",
    "Chomp.Props.C96_partial_cmp"
   ],
   "note": "Derived comparisons are orders"
  },
  {
   "property": "C97",
   "status": "proved",
   "theorems": [
    "Chomp.Props.C97_parse",
    "Chomp.Props.C97_fill",
    "Chomp.Props.C97_read",
    "Chomp.Props.C97_fill_buf",
    "Chomp.Props.C97_none",
    "Chomp.Props.C97_retry",
    "Chomp.Props.C97_asks",
    "Chomp.Props.C97_built",
    "Chomp.Props.C97_dialogue"
   ],
   "note": "A Source reads no more than is needed"
  },
  {
   "property": "C98",
   "status": "proved",
   "theorems": [
    "Chomp.Props.C98_read_until_limited",
    "Chomp.Props.C98_split_limited",
    "Chomp.Props.C98_used_up",
    "Chomp.Props.C98_read_exact_limited",
    "Chomp.Props.C98_read_to_end_limited",
    "Chomp.Props.C98_up_to",
    "Chomp.Props.C98_pieces",
    "Chomp.Props.C98_read_until",
    "Chomp.Props.C98_split",
    "Chomp.Props.C98_read_exact",
    "Chomp.Props.C98_read_exact_any",
    "Chomp.Props.C98_read_to_end",
    "Chomp.Props.C98_read_to_end_any",
    "Chomp.Props.C98_then_parse",
    "Chomp.Props.C98_growing",
    "Chomp.Props.C98_read_until_growing",
    "Chomp.Props.C98_split_growing",
    "Chomp.Props.C98_take",
    "Chomp.Props.C98_take_any",
    "Chomp.Props.C98_bytes",
    "Chomp.Props.C98_bytes_any",
    "Chomp.Props.C98_take_limited",
    "Chomp.Props.C98_bytes_limited",
    "Chomp.Props.C98_read_line",
    "Chomp.Props.C98_read_line_growing",
    "Chomp.Props.C98_read_to_string",
    "Chomp.Props.C98_read_to_string_any"
   ],
   "note": "Reading lines, items or everything from a Source between parses"
  },
  {
   "property": "C99",
   "status": "proved",
   "theorems": [
    "Chomp.Props.C99_round",
    "Chomp.Props.C99_decimal",
    "Chomp.Props.C99_exact",
    "Chomp.Props.C99_print",
    "Chomp.Props.C99_range",
    "Chomp.Props.C99_signed",
    "Chomp.Props.C99_inexact",
    "Chomp.Props.C99_order"
   ],
   "note": "Digits into floating point numbers"
  },
  {
   "property": "C100",
   "status": "proved",
   "theorems": [
    "Chomp.Props.C100_history",
    "Chomp.Props.C100_parse",
    "Chomp.Props.C100_end"
   ],
   "note": "A GrowingBuffer of items without a size stays empty"
  },
  {
   "property": "C101",
   "status": "proved",
   "theorems": [
    "Chomp.Props.C101_returns",
    "Chomp.Props.C101_consumes",
    "Chomp.Props.C101_depth",
    "Chomp.Props.C101_total",
    "Chomp.Props.C101_parse_only",
    "Chomp.Props.C101_complete"
   ],
   "note": "A check on the text of a grammar after which its parser always returns"
  },
  {
   "property": "C102",
   "status": "proved",
   "theorems": [
    "Chomp.Props.C102_retry",
    "Chomp.Props.C102_end",
    "Chomp.Props.C102_values",
    "Chomp.Props.C102_growing",
    "Chomp.Props.C102_growing_values"
   ],
   "note": "A stream is parsed as the grammar says, wherever it is cut"
  },
  {
   "property": "C103",
   "status": "proved",
   "theorems": [
    "Chomp.Props.C103_deterministic",
    "Chomp.Props.C103_success",
    "Chomp.Props.C103_failure",
    "Chomp.Props.C103_endless",
    "Chomp.Props.C103_safe",
    "Chomp.Props.C103_parse_only",
    "Chomp.Props.C103_streaming",
    "Chomp.Props.C103_decimal",
    "Chomp.Props.C103_signed",
    "Chomp.Props.C103_expressible",
    "Chomp.Props.C103_returns",
    "Chomp.Props.C103_retry",
    "Chomp.Props.C103_values"
   ],
   "note": "Parsers give the values their grammar says, also if what follows depends on values"
  },
  {
   "property": "C104",
   "status": "proved",
   "theorems": [
    "Chomp.Props.C104_bound",
    "Chomp.Props.C104_parse_only",
    "Chomp.Props.C104_degree",
    "Chomp.Props.C104_nested",
    "Chomp.Props.C104_attained",
    "Chomp.Props.C104_degree_exact",
    "Chomp.Props.C104_recursive",
    "Chomp.Props.C104_recurrences",
    "Chomp.Props.C104_exponential",
    "Chomp.Props.C104_factored",
    "Chomp.Props.C104_stream"
   ],
   "note": "How often closures are called"
  },
  {
   "property": "C105",
   "status": "proved",
   "theorems": [
    "Chomp.Props.C105_parse_only",
    "Chomp.Props.C105_unambiguous",
    "Chomp.Props.C105_only",
    "Chomp.Props.C105_stream",
    "Chomp.Props.C105_records",
    "Chomp.Props.C105_fixed",
    "Chomp.Props.C105_weaken",
    "Chomp.Props.C105_ret",
    "Chomp.Props.C105_any",
    "Chomp.Props.C105_satisfy",
    "Chomp.Props.C105_satisfy_with",
    "Chomp.Props.C105_token",
    "Chomp.Props.C105_not_token",
    "Chomp.Props.C105_string",
    "Chomp.Props.C105_take",
    "Chomp.Props.C105_take_while",
    "Chomp.Props.C105_take_while1",
    "Chomp.Props.C105_take_till",
    "Chomp.Props.C105_scan",
    "Chomp.Props.C105_take_remainder",
    "Chomp.Props.C105_eof",
    "Chomp.Props.C105_skip_whitespace",
    "Chomp.Props.C105_decimal",
    "Chomp.Props.C105_signed",
    "Chomp.Props.C105_bind",
    "Chomp.Props.C105_then",
    "Chomp.Props.C105_followed",
    "Chomp.Props.C105_map",
    "Chomp.Props.C105_map_err",
    "Chomp.Props.C105_inspect",
    "Chomp.Props.C105_or",
    "Chomp.Props.C105_option",
    "Chomp.Props.C105_many",
    "Chomp.Props.C105_many_from",
    "Chomp.Props.C105_many1",
    "Chomp.Props.C105_count",
    "Chomp.Props.C105_sep_by",
    "Chomp.Props.C105_sep_by1",
    "Chomp.Props.C105_many_till",
    "Chomp.Props.C105_skip_many",
    "Chomp.Props.C105_matched_by",
    "Chomp.Props.C105_recursive",
    "Chomp.Props.C105_refuses_weaken",
    "Chomp.Props.C105_refuses_err",
    "Chomp.Props.C105_refuses_satisfy",
    "Chomp.Props.C105_refuses_token",
    "Chomp.Props.C105_refuses_not_token",
    "Chomp.Props.C105_refuses_any",
    "Chomp.Props.C105_refuses_take_while1",
    "Chomp.Props.C105_refuses_decimal",
    "Chomp.Props.C105_refuses_string",
    "Chomp.Props.C105_refuses_bind",
    "Chomp.Props.C105_refuses_first",
    "Chomp.Props.C105_refuses_map",
    "Chomp.Props.C105_refuses_or",
    "Chomp.Props.C105_refuses_many1",
    "Chomp.Props.C105_refuses_sep_by1",
    "Chomp.Props.C105_declines",
    "Chomp.Props.C105_numbers",
    "Chomp.Props.C105_sexp",
    "Chomp.Props.C105_sexp_unambiguous",
    "Chomp.Props.C105_sexp_stream"
   ],
   "note": "What was written is read back"
  },
  {
   "property": "C106",
   "status": "proved",
   "theorems": [
    "Chomp.Props.C106_peek",
    "Chomp.Props.C106_peek_next",
    "Chomp.Props.C106_satisfy_with",
    "Chomp.Props.C106_take_till",
    "Chomp.Props.C106_composed",
    "Chomp.Props.C106_copy",
    "Chomp.Props.C106_built",
    "Chomp.Props.C106_agree"
   ],
   "note": "Which parsers call Clone, and what for"
  },
  {
   "property": "C107",
   "status": "proved",
   "theorems": [
    "Chomp.Props.C107_hygienic",
    "Chomp.Props.C107_parse",
    "Chomp.Props.C107_irrelevant",
    "Chomp.Props.C107_empty",
    "Chomp.Props.C107_capture_witness"
   ],
   "note": "The names parse! uses itself do not meet those of the program"
  },
  {
   "property": "C108",
   "status": "proved",
   "theorems": [
    "Chomp.Props.C108_holds",
    "Chomp.Props.C108_linear",
    "Chomp.Props.C108_work",
    "Chomp.Props.C108_success",
    "Chomp.Props.C108_recursive",
    "Chomp.Props.C108_needed",
    "Chomp.Props.C108_lists",
    "Chomp.Props.C108_lists_linear",
    "Chomp.Props.C108_lists_attained"
   ],
   "note": "If the next item decides, closures are called linearly often"
  },
  {
   "property": "C109",
   "status": "proved",
   "theorems": [
    "Chomp.Props.C109_input_new",
    "Chomp.Props.C109_Input_new",
    "Chomp.Props.C109_Input_ret",
    "Chomp.Props.C109_Input_err",
    "Chomp.Props.C109_Input_incomplete",
    "Chomp.Props.C109_Input_from_result",
    "Chomp.Props.C109_Input_clone",
    "Chomp.Props.C109_Input_buffer",
    "Chomp.Props.C109_Input_replace",
    "Chomp.Props.C109_Input_is_last_slice",
    "Chomp.Props.C109_bind",
    "Chomp.Props.C109_then",
    "Chomp.Props.C109_map",
    "Chomp.Props.C109_map_err",
    "Chomp.Props.C109_inspect",
    "Chomp.Props.C109_unwrap",
    "Chomp.Props.C109_expect",
    "Chomp.Props.C109_unwrap_err",
    "Chomp.Props.C109_parse_only",
    "Chomp.Props.C109_any",
    "Chomp.Props.C109_satisfy",
    "Chomp.Props.C109_satisfy_with",
    "Chomp.Props.C109_token",
    "Chomp.Props.C109_not_token",
    "Chomp.Props.C109_peek",
    "Chomp.Props.C109_peek_next",
    "Chomp.Props.C109_take",
    "Chomp.Props.C109_take_while",
    "Chomp.Props.C109_take_while1",
    "Chomp.Props.C109_take_till",
    "Chomp.Props.C109_scan",
    "Chomp.Props.C109_run_scanner",
    "Chomp.Props.C109_take_remainder",
    "Chomp.Props.C109_string",
    "Chomp.Props.C109_eof",
    "Chomp.Props.C109_option",
    "Chomp.Props.C109_or",
    "Chomp.Props.C109_matched_by",
    "Chomp.Props.C109_look_ahead",
    "Chomp.Props.C109_skip_many",
    "Chomp.Props.C109_skip_many1",
    "Chomp.Props.C109_bounded_skip_many",
    "Chomp.Props.C109_bounded_many",
    "Chomp.Props.C109_count",
    "Chomp.Props.C109_many",
    "Chomp.Props.C109_many1",
    "Chomp.Props.C109_bounded_many_till",
    "Chomp.Props.C109_many_till",
    "Chomp.Props.C109_sep_by",
    "Chomp.Props.C109_sep_by1",
    "Chomp.Props.C109_collect",
    "Chomp.Props.C109_classes",
    "Chomp.Props.C109_skip_whitespace",
    "Chomp.Props.C109_digit",
    "Chomp.Props.C109_decimal",
    "Chomp.Props.C109_signed"
   ],
   "note": "The text of the functions, run as Rust, does what the other properties say of them"
  },
  {
   "property": "C110",
   "status": "proved",
   "theorems": [
    "Chomp.Props.C110_ReadDataSource_new",
    "Chomp.Props.C110_ReadDataSource_into_inner",
    "Chomp.Props.C110_IteratorDataSource_new",
    "Chomp.Props.C110_IteratorDataSource_into_inner",
    "Chomp.Props.C110_ReadDataSource_read",
    "Chomp.Props.C110_IteratorDataSource_read",
    "Chomp.Props.C110_Fixed_with_size",
    "Chomp.Props.C110_Fixed_new",
    "Chomp.Props.C110_Fixed_deref",
    "Chomp.Props.C110_Fixed_deref_mut",
    "Chomp.Props.C110_Fixed_len",
    "Chomp.Props.C110_Fixed_capacity",
    "Chomp.Props.C110_Fixed_consume",
    "Chomp.Props.C110_Fixed_request_space",
    "Chomp.Props.C110_Fixed_fill",
    "Chomp.Props.C110_Fixed_fill_iter",
    "Chomp.Props.C110_Fixed_fill_read",
    "Chomp.Props.C110_Growing_with_limit",
    "Chomp.Props.C110_Growing_new",
    "Chomp.Props.C110_Growing_deref",
    "Chomp.Props.C110_Growing_deref_mut",
    "Chomp.Props.C110_Growing_len",
    "Chomp.Props.C110_Growing_capacity",
    "Chomp.Props.C110_Growing_consume",
    "Chomp.Props.C110_Growing_request_space",
    "Chomp.Props.C110_Growing_fill",
    "Chomp.Props.C110_Growing_fill_iter",
    "Chomp.Props.C110_Growing_fill_read"
   ],
   "note": "The text of the buffers and data sources, run as Rust, does what the other properties say of them"
  },
  {
   "property": "C111",
   "status": "proved",
   "theorems": [
    "Chomp.Props.C111_StreamError_from",
    "Chomp.Props.C111_SliceStream_new",
    "Chomp.Props.C111_into_stream",
    "Chomp.Props.C111_SliceStream_len",
    "Chomp.Props.C111_SliceStream_is_empty",
    "Chomp.Props.C111_SliceStream_parse",
    "Chomp.Props.C111_Source_with_buffer",
    "Chomp.Props.C111_Source_from_read",
    "Chomp.Props.C111_Source_from_iter",
    "Chomp.Props.C111_Source_new",
    "Chomp.Props.C111_Source_len",
    "Chomp.Props.C111_Source_is_empty",
    "Chomp.Props.C111_Source_capacity",
    "Chomp.Props.C111_Source_buffer",
    "Chomp.Props.C111_Source_reset",
    "Chomp.Props.C111_Source_set_autofill",
    "Chomp.Props.C111_Source_consume",
    "Chomp.Props.C111_Source_fill_requested",
    "Chomp.Props.C111_Source_fill",
    "Chomp.Props.C111_Source_read",
    "Chomp.Props.C111_Source_fill_buf",
    "Chomp.Props.C111_Source_parse"
   ],
   "note": "The text of the streams, run as Rust, does what the other properties say of them"
  },
  {
   "property": "C112",
   "status": "proved",
   "theorems": [
    "Chomp.Props.C112_parse",
    "Chomp.Props.C112_parse_only",
    "Chomp.Props.C112_grammar",
    "Chomp.Props.C112_grammar_only",
    "Chomp.Props.C112_parser",
    "Chomp.Props.C112_parser_only",
    "Chomp.Props.C112_meaning",
    "Chomp.Props.C112_internal_witness"
   ],
   "note": "The rules of parse! and parser!, matched as macro_rules! does, expand to what the documented grammar says"
  },
  {
   "property": "C113",
   "status": "proved",
   "theorems": [
    "Chomp.Props.C113_StreamError_eq",
    "Chomp.Props.C113_StreamError_eq_error",
    "Chomp.Props.C113_Buffer_is_empty",
    "Chomp.Props.C113_Error_fmt",
    "Chomp.Props.C113_Error_fmt_terse",
    "Chomp.Props.C113_Error_description",
    "Chomp.Props.C113_Error_description_terse",
    "Chomp.Props.C113_text_injective"
   ],
   "note": "The text of the equality of stream errors, of is_empty of buffers and of the messages of errors, run as Rust, does what the other properties say of them"
  },
  {
   "property": "C114",
   "status": "proved",
   "theorems": [
    "Chomp.Props.C114_is_token",
    "Chomp.Props.C114_is_horizontal_space",
    "Chomp.Props.C114_is_space",
    "Chomp.Props.C114_is_not_space",
    "Chomp.Props.C114_is_end_of_line",
    "Chomp.Props.C114_is_http_version",
    "Chomp.Props.C114_end_of_line",
    "Chomp.Props.C114_http_version",
    "Chomp.Props.C114_request_line",
    "Chomp.Props.C114_message_header_line",
    "Chomp.Props.C114_message_header",
    "Chomp.Props.C114_request",
    "Chomp.Props.C114_reads",
    "Chomp.Props.C114_main",
    "Chomp.Props.C114_counts",
    "Chomp.Props.C114_panics",
    "Chomp.Props.C114_overflow",
    "Chomp.Props.C114_no_argument",
    "Chomp.Props.C114_not_opened",
    "Chomp.Props.C114_end_of_line_block",
    "Chomp.Props.C114_http_version_block",
    "Chomp.Props.C114_request_line_block",
    "Chomp.Props.C114_message_header_line_block",
    "Chomp.Props.C114_message_header_block",
    "Chomp.Props.C114_request_block"
   ],
   "note": "The text of the example program, run as Rust from the command line to the line it prints, counts the requests in the file"
  },
  {
   "property": "C115",
   "status": "proved",
   "theorems": [
    "Chomp.Props.C115_bind",
    "Chomp.Props.C115_then",
    "Chomp.Props.C115_map_err",
    "Chomp.Props.C115_function",
    "Chomp.Props.C115_left_identity",
    "Chomp.Props.C115_right_identity",
    "Chomp.Props.C115_associativity",
    "Chomp.Props.C115_sep_map_err",
    "Chomp.Props.C115_sep_function",
    "Chomp.Props.C115_sep_by",
    "Chomp.Props.C115_discarded",
    "Chomp.Props.C115_once",
    "Chomp.Props.C115_built",
    "Chomp.Props.C115_sep_built",
    "Chomp.Props.C115_text",
    "Chomp.Props.C115_sep_text"
   ],
   "note": "When errors are converted, and conversions which do something"
  },
  {
   "property": "C116",
   "status": "proved",
   "theorems": [
    "Chomp.Props.C116_many",
    "Chomp.Props.C116_many_till",
    "Chomp.Props.C116_sep_by",
    "Chomp.Props.C116_collect",
    "Chomp.Props.C116_release",
    "Chomp.Props.C116_items",
    "Chomp.Props.C116_log",
    "Chomp.Props.C116_text"
   ],
   "note": "Collections which do something while they are filled"
  },
  {
   "property": "C117",
   "status": "proved",
   "theorems": [
    "Chomp.Props.C117_fill",
    "Chomp.Props.C117_read",
    "Chomp.Props.C117_fillBuf",
    "Chomp.Props.C117_parse",
    "Chomp.Props.C117_parse_step",
    "Chomp.Props.C117_step",
    "Chomp.Props.C117_history",
    "Chomp.Props.C117_stream",
    "Chomp.Props.C117_retry",
    "Chomp.Props.C117_chunking",
    "Chomp.Props.C117_new",
    "Chomp.Props.C117_returns",
    "Chomp.Props.C117_parse_returns",
    "Chomp.Props.C117_terminates",
    "Chomp.Props.C117_safe",
    "Chomp.Props.C117_crate",
    "Chomp.Props.C117_needed"
   ],
   "note": "A Source on top of a buffer of one's own"
  },
  {
   "property": "C118",
   "status": "proved",
   "theorems": [
    "Chomp.Props.C118_decimal",
    "Chomp.Props.C118_keys",
    "Chomp.Props.C118_none",
    "Chomp.Props.C118_value",
    "Chomp.Props.C118_signed",
    "Chomp.Props.C118_signed_first",
    "Chomp.Props.C118_signed_value",
    "Chomp.Props.C118_function",
    "Chomp.Props.C118_built",
    "Chomp.Props.C118_signed_built",
    "Chomp.Props.C118_text",
    "Chomp.Props.C118_signed_again"
   ],
   "note": "Reading numbers into a type of one's own"
  },
  {
   "property": "C119",
   "status": "proved",
   "theorems": [
    "Chomp.Props.C119_fill",
    "Chomp.Props.C119_no_read",
    "Chomp.Props.C119_read",
    "Chomp.Props.C119_fillBuf",
    "Chomp.Props.C119_autofill",
    "Chomp.Props.C119_parse",
    "Chomp.Props.C119_parse_stops",
    "Chomp.Props.C119_parse_step",
    "Chomp.Props.C119_step",
    "Chomp.Props.C119_history",
    "Chomp.Props.C119_buffers",
    "Chomp.Props.C119_pure",
    "Chomp.Props.C119_iterator",
    "Chomp.Props.C119_honest"
   ],
   "note": "Data sources which do something"
  },
  {
   "property": "C120",
   "status": "proved",
   "theorems": [
    "Chomp.C120_fixed",
    "Chomp.C120_growing",
    "Chomp.C120_growing_first",
    "Chomp.C120_left_over",
    "Chomp.C120_blind",
    "Chomp.C120_io_read"
   ],
   "note": "What a data source finds in the slice"
  }
 ]
}