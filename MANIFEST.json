{
 "claims": [
  {
   "property": "C01",
   "status": "proved",
   "theorems": [
    "H2.Matcher.C01_ok_formula",
    "H2.Matcher.C01_allOf",
    "H2.Matcher.C01_anyOf",
    "H2.Matcher.C01_noneOf",
    "H2.Matcher.C01_and",
    "H2.Matcher.C01_or"
   ],
   "note": "Formulas of any depth over matchers that apply to the value; the n-ary and binary forms hold even for matchers that refuse the value."
  },
  {
   "property": "C02",
   "status": "proved",
   "theorems": [
    "H2.Matcher.C02_ko_opposite",
    "H2.Matcher.C02_bang",
    "H2.Matcher.C02_not",
    "H2.Matcher.C02_double_negation",
    "H2.Matcher.C02_refuses"
   ],
   "note": ""
  },
  {
   "property": "C03",
   "status": "partial",
   "theorems": [
    "H2.Matcher.C03_every_partial",
    "H2.Matcher.C03_has_partial",
    "H2.Matcher.C03_has_key_partial",
    "H2.Matcher.C03_every_plain_partial",
    "H2.Matcher.C03_has_plain_partial",
    "H2.Matcher.C03_every_written",
    "H2.Matcher.C03_has_written",
    "H2.Matcher.C03_every_large_false",
    "H2.Matcher.C03_nested_times_false"
   ],
   "note": "Proved for every container, range and inner matcher with the built-in limit of 5413722 elements made explicit. Two parts of the English property are false of the code and refuted: elements past the limit are not examined, and the repetition count of Has leaks into a nested Has."
  },
  {
   "property": "C04",
   "status": "proved",
   "theorems": [
    "H2.Matcher.C04_listOf",
    "H2.Matcher.C04_listOf_from"
   ],
   "note": ""
  },
  {
   "property": "C05",
   "status": "partial",
   "theorems": [
    "H2.Matcher.C05_countOf",
    "H2.Matcher.C05_maxOf",
    "H2.Matcher.C05_minOf",
    "H2.Matcher.C05_avgOf",
    "H2.Matcher.C05_empty",
    "H2.Matcher.C05_extremes_exist",
    "H2.Round.C05_double_avg_partial",
    "H2.Round.C05_double_sum",
    "H2.Round.C05_double_avg_false"
   ],
   "note": "Proved in full with exact numbers. With the rounding of double the average is the true one rounded once for integers, halves and so on with a sum below 2^53, and the sum that is divided is within a proved bound for all; for larger sums the average may be wrong, refuted."
  },
  {
   "property": "C06",
   "status": "partial",
   "theorems": [
    "H2.Matcher.C06_median_odd_partial",
    "H2.Matcher.C06_median_even_false",
    "H2.Matcher.C06_median_two_ub",
    "H2.Matcher.C06_median_even_actual"
   ],
   "note": "True for odd counts; false for even counts (wrong indices, out-of-bounds read for two elements), refuted with witnesses."
  },
  {
   "property": "C07",
   "status": "partial",
   "theorems": [
    "H2.Matcher.C07_range_partial",
    "H2.Matcher.C07_range_int_partial",
    "H2.Matcher.C07_defaults_partial",
    "H2.Matcher.C07_nonpositive_step_hangs",
    "H2.Matcher.C07_countdown_false",
    "H2.Round.C07_double_partial",
    "H2.Round.C07_double_near_partial",
    "H2.Round.C07_drift_false",
    "H2.Round.C07_stuck_false"
   ],
   "note": "Proved for positive steps with exact numbers, and with the rounding of double for integers, halves and so on down to 65536ths of at most 53 digits. False otherwise: with other steps the matcher hangs or rejects, Range(0, 1, 0.1) accepts 1, and from 2^53 on the loop may not advance."
  },
  {
   "property": "C08",
   "status": "proved",
   "theorems": [
    "H2.Memcmp.C08_me",
    "H2.Memcmp.C08_bytes",
    "H2.Memcmp.C08_unspecified",
    "H2.Memcmp.C08_only",
    "H2.Memcmp.C08_reads",
    "H2.Memcmp.C08_binary",
    "H2.Memcmp.C08_hex",
    "H2.Memcmp.C08_text",
    "H2.Memcmp.C08_hex_blank",
    "H2.Memcmp.C08_blank"
   ],
   "note": "Areas are lists of bytes; reading beyond them is a distinct outcome, so the theorems ask for areas that hold what is compared. Recorded findings: a text of 0 and 1 only is binary even if meant as hex; a blank ends a hex text; a prefix 0x makes it the byte 0; a tab is a bit 0; size*width wraps at 64 bits."
  },
  {
   "property": "C09",
   "status": "partial",
   "theorems": [
    "H2.Str.C09_relation",
    "H2.Str.C09_caseless",
    "H2.Str.C09_caseless_insensitive",
    "H2.Str.C09_spaceless_se",
    "H2.Str.C09_spaceless_partial",
    "H2.Str.C09_spaceless_expected_false",
    "H2.Str.C09_squash_content",
    "H2.Str.C09_squash_idempotent",
    "H2.Str.C09_squash_words",
    "H2.Str.C09_spaceless_se_words"
   ],
   "note": "Complete for plain, CaseLess and for Se under SpaceLess. Substr/StartsWith/EndsWith squash only the actual text, so SpaceLess is proved for expected texts already squashed and refuted otherwise."
  },
  {
   "property": "C10",
   "status": "proved",
   "theorems": [
    "H2.Pattern.C10_wildcard"
   ],
   "note": "The built-in matcher (Windows/Cygwin); elsewhere the code calls fnmatch of the C library, not modelled."
  },
  {
   "property": "C11",
   "status": "proved",
   "theorems": [
    "H2.Json.C11_match",
    "H2.Json.C11_order",
    "H2.Json.C11_integers",
    "H2.Json.C11_size",
    "H2.Json.C11_infinities"
   ],
   "note": "How the difference of two doubles is rounded, and the pattern matcher, are parameters. Findings: the number of members is compared although the actual may have more; infinities of different signs match; of repeated keys the first decides."
  },
  {
   "property": "C12",
   "status": "proved",
   "theorems": [
    "H2.Json.C12_reflexive",
    "H2.Json.C12_monotone",
    "H2.Json.C12_repeated_key"
   ],
   "note": "Keys are distinct; a value with a repeated key does not match itself."
  },
  {
   "property": "C13",
   "status": "proved",
   "theorems": [
    "H2.Json.C13_tokens",
    "H2.Json.C13_content",
    "H2.Json.C13_token"
   ],
   "note": "Texts of less than 2^31 characters; bytes above 127 are ordinary characters."
  },
  {
   "property": "C14",
   "status": "proved",
   "theorems": [
    "H2.Json.C14_restore",
    "H2.Json.C14_round_trip",
    "H2.Json.C14_text_unambiguous",
    "H2.Json.C14_parse",
    "H2.Json.C14_unambiguous",
    "H2.Json.C14_ends",
    "H2.Json.C14_backslash_misread",
    "H2.Json.C14_quote_crashes"
   ],
   "note": "The value of numbers is that of C16. The escapes \\/ and \\u are not supported by the code and not part of the texts. Findings: an escaped backslash before b, f, n, r or t is misread; a lone quote or slash makes the parser throw; a trailing comma is accepted; the empty text is well formed."
  },
  {
   "property": "C15",
   "status": "proved",
   "theorems": [
    "H2.Json.C15_path",
    "H2.Json.C15_found",
    "H2.Json.C15_nothing",
    "H2.Json.C15_undefined",
    "H2.Json.C15_child_unique",
    "H2.Json.C15_inner_missing_ub"
   ],
   "note": "Indices within int. Finding: selecting through a missing inner component calls a member function through a null pointer (C15_undefined says exactly when)."
  },
  {
   "property": "C16",
   "status": "proved",
   "theorems": [
    "H2.Json.Expr.C16_value",
    "H2.Json.Expr.C16_unambiguous",
    "H2.Json.Expr.C16_exact",
    "H2.Json.Expr.C16_factorial_wraps"
   ],
   "note": "What the C library computes and rounding are parameters; strtod is modelled on decimal and hexadecimal literals. As the grammar in the source has it, signs bind before ^ and ^ is left-associative. Finding: factorials and permutations are multiplied with 64 bits, so 21! is wrong."
  },
  {
   "property": "C17",
   "status": "proved",
   "theorems": [
    "H2.Json.Dual.C17_height",
    "H2.Json.Dual.C17_left",
    "H2.Json.Dual.C17_right",
    "H2.Json.Dual.C17_whole",
    "H2.Json.Dual.C17_same_row"
   ],
   "note": "How numbers are printed and how similar two nodes are scored (a double) are parameters; less than 2^31 children. The actual side may be in another order, even inside an array that is compared with an object."
  },
  {
   "property": "C18",
   "status": "proved",
   "theorems": [
    "H2.Diff.C18_lcs",
    "H2.Diff.C18_case_sensitive",
    "H2.Diff.C18_all_marked"
   ],
   "note": "For any comparison of elements; lengths below 2^24 (bit-field of the code)."
  },
  {
   "property": "C19",
   "status": "proved",
   "theorems": [
    "H2.Diff.C19_levenshtein",
    "H2.Diff.C19_symmetric",
    "H2.Diff.C19_similarity_one",
    "H2.Diff.C19_similarity_negative"
   ],
   "note": "The score is documented as 0..1 but reaches -1, refuted beside the proof of the property."
  },
  {
   "property": "C20",
   "status": "partial",
   "theorems": [
    "H2.Memory.C20_inside",
    "H2.Memory.C20_aligned_partial",
    "H2.Memory.C20_large_alignment_false",
    "H2.Memory.C20_small_alignment_false",
    "H2.Memory.C20_odd_alignment_false"
   ],
   "note": "Inside its own mapping: always. Aligned and close to the guard page: for powers of two from 8 up to the page size; refuted for others."
  },
  {
   "property": "C21",
   "status": "proved",
   "theorems": [
    "H2.Memory.C21_leak_iff",
    "H2.Memory.C21_leak_report"
   ],
   "note": "Blocks created with noleak never report."
  },
  {
   "property": "C22",
   "status": "proved",
   "theorems": [
    "H2.Memory.C22_double",
    "H2.Memory.C22_asymmetric",
    "H2.Memory.C22_matched",
    "H2.Memory.C22_unknown"
   ],
   "note": "As in the code, exempt call sites are not checked for asymmetry."
  },
  {
   "property": "C23",
   "status": "partial",
   "theorems": [
    "H2.Memory.C23_limit_partial",
    "H2.Memory.C23_never_above",
    "H2.Memory.C23_huge_false",
    "H2.Memory.C23_double_free_false"
   ],
   "note": "Requests below 2^63 in histories without double frees; refuted otherwise (wrap-around, double subtraction)."
  },
  {
   "property": "C24",
   "status": "proved",
   "theorems": [
    "H2.Memory.C24_fill",
    "H2.Memory.C24_calloc",
    "H2.Memory.C24_parse_decimal",
    "H2.Memory.C24_calloc_overflow_false"
   ],
   "note": "calloc products below 2^64; the overflowing product is refuted."
  },
  {
   "property": "C25",
   "status": "proved",
   "theorems": [
    "H2.Memory.C25_detect",
    "H2.Memory.C25_address"
   ],
   "note": ""
  },
  {
   "property": "C26",
   "status": "proved",
   "theorems": [
    "H2.Memory.C26_realloc",
    "H2.Memory.C26_realloc_silent",
    "H2.Memory.C26_null_and_zero",
    "H2.Memory.C26_failed_realloc_false"
   ],
   "note": "Linux behaviour (macOS turns size zero into one). A failing realloc frees the old area, unlike the C library."
  },
  {
   "property": "C27",
   "status": "proved",
   "theorems": [
    "H2.Libc.C27_disjoint",
    "H2.Libc.C27_mapped",
    "H2.Libc.C27_private",
    "H2.Libc.C27_conserved",
    "H2.Libc.C27_released",
    "H2.Libc.C27_aligned",
    "H2.Libc.C27_free_defined",
    "H2.Libc.C27_served",
    "H2.Libc.C27_null_false",
    "H2.Libc.C27_huge_false"
   ],
   "note": "Requests below 2^62 bytes. Findings: requests just below a multiple of 4 MB get a null pointer; sizes within 17 of 2^64 wrap."
  },
  {
   "property": "C28",
   "status": "proved",
   "theorems": [
    "H2.Mock.C28_belongs",
    "H2.Mock.C28_unexpected",
    "H2.Mock.C28_wrong",
    "H2.Mock.C28_effect",
    "H2.Mock.C28_no_overflow",
    "H2.Mock.C28_history",
    "H2.Mock.C28_greed",
    "H2.Mock.C28_sound",
    "H2.Mock.C28_disjoint",
    "H2.Mock.C28_exact",
    "H2.Mock.C28_turns",
    "H2.Mock.C28_beyond_maximum",
    "H2.Mock.C28_maximum_false",
    "H2.Mock.C28_optional_false"
   ],
   "note": "The scan is characterised exactly. Passing is equivalent to an in-order hand-out for exact counts and for disjoint matchers; with overlapping optional expectations it is only sufficient (C28_optional_false)."
  },
  {
   "property": "C29",
   "status": "proved",
   "theorems": [
    "H2.Mock.C29_report",
    "H2.Mock.C29_counts",
    "H2.Mock.C29_reversed_false"
   ],
   "note": "Histories shorter than 2^31 calls; bounds the right way round (Between(3,1) accepts one call)."
  },
  {
   "property": "C30",
   "status": "partial",
   "theorems": [
    "H2.Stub.C30_session_partial",
    "H2.Stub.C30_case_partial",
    "H2.Stub.C30_order",
    "H2.Stub.C30_defined",
    "H2.Stub.C30_unstub",
    "H2.Stub.C30_temporary",
    "H2.Stub.C30_alias_false",
    "H2.Stub.C30_two_lists_false",
    "H2.Stub.C30_overlap_false"
   ],
   "note": "Proved for functions at least 12 bytes apart; functions already stubbed outside the case must be unstubbed newest first. Refuted without these conditions (stale saved bytes, overlapping patches)."
  },
  {
   "property": "C31",
   "status": "proved",
   "theorems": [
    "H2.Stub.C31_jump",
    "H2.Stub.C31_jump_arm",
    "H2.Stub.C31_stub",
    "H2.Stub.C31_call"
   ],
   "note": "x86-64 and arm64; every pair of 64-bit addresses. Line 38 of h2_e9.cpp stores 8 bytes into 4 (undefined behaviour on LP64), modelled by the 4 that matter."
  },
  {
   "property": "C32",
   "status": "proved",
   "theorems": [
    "H2.Runner.C32_counts",
    "H2.Runner.C32_ran",
    "H2.Runner.C32_one",
    "H2.Runner.C32_total",
    "H2.Runner.C32_suites"
   ],
   "note": "Whether a case fails or warns is an oracle depending on everything reported so far. With -l nothing is counted as passed, failed or warned."
  },
  {
   "property": "C33",
   "status": "proved",
   "theorems": [
    "H2.Filter.C33_wanted",
    "H2.Filter.C33_cases",
    "H2.Filter.C33_suite",
    "H2.Filter.C33_builtin",
    "H2.Filter.C33_suite_false"
   ],
   "note": "For any wildcard matcher; instantiated with the built-in one (fnmatch of the C library is not modelled). Finding: a suite whose cases are all filtered is not marked itself when its own description is not rejected."
  },
  {
   "property": "C34",
   "status": "proved",
   "theorems": [
    "H2.Runner.C34_once",
    "H2.Runner.C34_declared",
    "H2.Runner.C34_sorted",
    "H2.Runner.C34_stable",
    "H2.Runner.C34_random_any"
   ],
   "note": "For a start without a record of an earlier failed run (with one, that order wins: C36)."
  },
  {
   "property": "C35",
   "status": "proved",
   "theorems": [
    "H2.Runner.C35_break",
    "H2.Runner.C35_atmost",
    "H2.Runner.C35_runs",
    "H2.Runner.C35_only_last",
    "H2.Runner.C35_exit",
    "H2.Runner.C35_status",
    "H2.Runner.C35_status_false"
   ],
   "note": "Finding: 256 failures give exit status 0 (C35_status_false)."
  },
  {
   "property": "C36",
   "status": "proved",
   "theorems": [
    "H2.Runner.C36_order",
    "H2.Runner.C36_rerun",
    "H2.Runner.C36_stale",
    "H2.Runner.C36_list_false"
   ],
   "note": "End to end over two processes, one round each, through the text of the record file. Findings: a listing run or any run without failures deletes the record; a record is not refreshed by a further failing run (C36_stale); longer names are misread."
  },
  {
   "property": "C37",
   "status": "proved",
   "theorems": [
    "H2.CaseRun.C37_account",
    "H2.CaseRun.C37_trace",
    "H2.CaseRun.C37_first",
    "H2.CaseRun.C37_setup_undefined",
    "H2.CaseRun.C37_cleanup_hangs",
    "H2.CaseRun.C37_exception_hangs",
    "H2.CaseRun.C37_exception_lost",
    "H2.CaseRun.C37_global_lost",
    "H2.CaseRun.C37_message_lost"
   ],
   "note": "C37_account holds of every run that comes to its end; C37_trace gives the run itself when Setup, Cleanup and the global functions raise nothing that ends them and no exception leaves a case of a suite with Cleanup. The findings show what happens otherwise."
  },
  {
   "property": "C38",
   "status": "proved",
   "theorems": [
    "H2.Filter.C38_tags",
    "H2.Filter.C38_plain",
    "H2.Filter.tags_exist"
   ],
   "note": "Descriptions of 512 characters or more overrun the buffers. Blanks before the bracket stay in the name; tags beyond 63 are dropped."
  },
  {
   "property": "C39",
   "status": "proved",
   "theorems": [
    "H2.Cli.C39_total",
    "H2.Cli.C39_sets",
    "H2.Cli.C39_help",
    "H2.Cli.C39_bad_word",
    "H2.Cli.C39_bad_source",
    "H2.Cli.C39_bad_pattern",
    "H2.Cli.C39_keyword",
    "H2.Cli.C39_double_free_rejected",
    "H2.Cli.C39_fold_bare",
    "H2.Cli.C39_long_ub"
   ],
   "note": "Numbers below 2^31 and keys below 64 characters. Findings: the documented -W double_free is rejected; a bare -F sets 0 although the usage text says max; a command line of 256 characters overruns a buffer."
  },
  {
   "property": "C40",
   "status": "proved",
   "theorems": [
    "H2.Link.C40_refines",
    "H2.Link.C40_progress",
    "H2.Link.C40_pop",
    "H2.Link.C40_count",
    "H2.Link.C40_ends",
    "H2.Link.C40_each",
    "H2.Link.C40_sort"
   ],
   "note": "Pointer-level model; histories over any number of lists and nodes."
  },
  {
   "property": "C41",
   "status": "proved",
   "theorems": [
    "H2.Shared.C41_defined",
    "H2.Shared.C41_owners",
    "H2.Shared.C41_alive",
    "H2.Shared.C41_once",
    "H2.Shared.C41_when",
    "H2.Shared.C41_bool",
    "H2.Shared.C41_end"
   ],
   "note": "Histories of construct, copy, assign (including self-assignment), reset and destroy over any number of pointers."
  },
  {
   "property": "C42",
   "status": "proved",
   "theorems": [
    "H2.Sock.C42_received",
    "H2.Sock.C42_once",
    "H2.Sock.C42_order",
    "H2.Sock.C42_nothing",
    "H2.Sock.C42_blocking",
    "H2.Sock.C42_overrun",
    "H2.Sock.C42_sent",
    "H2.Sock.C42_sent_once",
    "H2.Sock.C42_sent_order",
    "H2.Sock.C42_ptx",
    "H2.Sock.C42_attributes",
    "H2.Sock.C42_attributes_blanks"
   ],
   "note": "What the operating system says (own address of a socket, blocking, new descriptors) comes with each call of the history. Findings: a packet longer than the buffer overruns it; accept/connect move their packet to the front, past packets for other sockets; a reused descriptor keeps its first addresses."
  },
  {
   "property": "C43",
   "status": "proved",
   "theorems": [
    "H2.Dns.C43_host",
    "H2.Dns.C43_resolves",
    "H2.Dns.C43_newest",
    "H2.Dns.C43_none",
    "H2.Dns.C43_forgotten",
    "H2.Dns.C43_getaddrinfo",
    "H2.Dns.C43_unknown",
    "H2.Dns.C43_gethostbyname"
   ],
   "note": "inet_pton is a parameter. Findings: more than 32 results overrun the static arrays and exactly 32 addresses leave the array unterminated; names of one letter give way to later ones; what is set outside of cases belongs to the case that ran last."
  },
  {
   "property": "C44",
   "status": "proved",
   "theorems": [
    "H2.Stdio.C44_captured",
    "H2.Stdio.C44_ended",
    "H2.Stdio.C44_through",
    "H2.Stdio.C44_stdout",
    "H2.Stdio.C44_compact",
    "H2.Stdio.C44_extras"
   ],
   "note": "Formatting is a parameter (texts come formatted). Findings: a nested COUT ends the outer capture; fwrite returns bytes, not items."
  },
  {
   "property": "C45",
   "status": "proved",
   "theorems": [
    "H2.Layout.C45_break",
    "H2.Layout.C45_too_wide",
    "H2.Layout.C45_text",
    "H2.Layout.C45_side_by_side",
    "H2.Layout.C45_columns",
    "H2.Layout.C45_title",
    "H2.Layout.C45_unified"
   ],
   "note": "Words are texts of characters (C46 connects them with bytes). A character two columns wide on a line of one column makes the program throw: C45_too_wide says exactly when. The style of a character is the control word before it; how + and - styles accumulate is not part of it."
  },
  {
   "property": "C46",
   "status": "partial",
   "theorems": [
    "H2.Misc.C46_join_partial",
    "H2.Misc.C46_utf8_partial",
    "H2.Misc.C46_width_partial",
    "H2.Misc.C46_truncated_ub"
   ],
   "note": "Proved for every UTF-8 text; a truncated multi-byte character at the end makes the code read past the terminator (refuted)."
  },
  {
   "property": "C47",
   "status": "partial",
   "theorems": [
    "H2.Catch.C47_catch_partial",
    "H2.Catch.C47_type_partial",
    "H2.Catch.C47_nothrow",
    "H2.Catch.C47_undefined",
    "H2.Catch.C47_after",
    "H2.Catch.C47_nested",
    "H2.Catch.C47_promise_unique",
    "H2.Catch.C47_promise_total"
   ],
   "note": "The full statement is false: for a class derived from std::exception, Catch(T) calls what() on a null pointer when nothing is thrown, and on an object of another kind when something else is (C47_undefined). Proved for all other cases. Findings: a Catch inside of another ends the outer one (C47_nested); exceptions handled inside of the block count as thrown; destructors of the block are not run (longjmp); only the exact type is accepted, not derived ones."
  },
  {
   "property": "C48",
   "status": "partial",
   "theorems": [
    "H2.Misc.C48_not2n_partial",
    "H2.Misc.C48_mask2n_partial",
    "H2.Misc.C48_align2n_partial",
    "H2.Misc.C48_digits_partial",
    "H2.Misc.C48_digits_hex_hangs",
    "H2.Misc.C48_digits_decimal_false",
    "H2.Misc.C48_hex_partial",
    "H2.Misc.C48_hex_roundtrip_partial",
    "H2.Misc.C48_basefile_partial",
    "H2.Misc.C48_centre_partial"
   ],
   "note": "Digit counting is wrong or never ends for numbers close to 2^64 (refuted); everything else holds on the stated domains."
  },
  {
   "property": "C49",
   "status": "proved",
   "theorems": [
    "H2.Nm.C49_exact",
    "H2.Nm.C49_functions",
    "H2.Nm.C49_functions_unique",
    "H2.Nm.C49_called",
    "H2.Nm.C49_no_name",
    "H2.Nm.C49_mangled",
    "H2.Nm.C49_anonymous"
   ],
   "note": "The output of nm is a parameter. Findings: symbols are cut after 127 characters; functions in anonymous namespaces are not found by their own name (C49_anonymous); a symbol beginning with a single colon makes the lookup read one byte before the name."
  },
  {
   "property": "C50",
   "status": "partial",
   "theorems": [
    "H2.Matcher.C50_default_partial",
    "H2.Matcher.C50_absolute_partial",
    "H2.Matcher.C50_percent_partial",
    "H2.Matcher.C50_large_margin_false",
    "H2.Matcher.C50_large_percent_false",
    "H2.Round.C50_double_default",
    "H2.Round.C50_double_absolute_partial",
    "H2.Round.C50_double_percent_partial",
    "H2.Round.C50_itself_false",
    "H2.Round.C50_small_margin_false",
    "H2.Round.C50_zero_percent_false"
   ],
   "note": "Proved with exact numbers, and with the rounding of double and long double up to one part in 2^51 and a margin smaller by 1e-14, for margins below the limits of the encoding. Otherwise it is false: Eq(0.0, 0.1) rejects 0.1 and Eq(0.0, 0.29) rejects 0.29, margins below 1e-14 are taken for 0, 0% for 0.00001, and margins from 174467.44 and 10000% wrap around."
  },
  {
   "property": "C51",
   "status": "proved",
   "theorems": [
    "H2.Listing.C51_suites",
    "H2.Listing.C51_cases",
    "H2.Listing.C51_in_suite",
    "H2.Listing.C51_order",
    "H2.Listing.C51_tags",
    "H2.Listing.C51_no_tags",
    "H2.Listing.C51_counts"
   ],
   "note": "Findings: with several rounds (-r) every round is listed again; tags beyond 1024 are dropped."
  },
  {
   "property": "C52",
   "status": "partial",
   "theorems": [
    "H2.Matcher.C52_int_eq_partial",
    "H2.Matcher.C52_comparisons_partial",
    "H2.Matcher.C52_mixed_sign_false"
   ],
   "note": "Same signedness, without the types of the numbers (C85 has them); across signedness the comparison is modulo 2^64, refuted by a witness."
  },
  {
   "property": "C53",
   "status": "partial",
   "theorems": [
    "H2.Matcher.C53_array_whole_partial",
    "H2.Matcher.C53_pointer_prefix_partial",
    "H2.Matcher.C53_pointer_offset_false",
    "H2.Matcher.C53_pointer_unsized_ub"
   ],
   "note": "True for arrays and pointers with a range from zero; false for pointer ranges with another start."
  },
  {
   "property": "C54",
   "status": "proved",
   "theorems": [
    "H2.Matcher.C54_allOf",
    "H2.Matcher.C54_noneOf",
    "H2.Matcher.C54_listOf",
    "H2.Matcher.C54_anyOf"
   ],
   "note": ""
  },
  {
   "property": "C55",
   "status": "proved",
   "theorems": [
    "H2.Memory.C55_forbidden",
    "H2.Memory.C55_recorded",
    "H2.Memory.C55_action"
   ],
   "note": "POSIX fault handler."
  },
  {
   "property": "C56",
   "status": "proved",
   "theorems": [
    "H2.Mock.C56_reply",
    "H2.Mock.C56_return",
    "H2.Mock.C56_body",
    "H2.Mock.C56_th",
    "H2.Mock.C56_bare_return"
   ],
   "note": ""
  },
  {
   "property": "C57",
   "status": "proved",
   "theorems": [
    "H2.MemDiff.C57_shown",
    "H2.MemDiff.C57_complete",
    "H2.MemDiff.C57_coloured",
    "H2.MemDiff.C57_other_width"
   ],
   "note": "Less than 16^15 units, and a console at least ten columns wider than the number of the last row. Finding: areas compared in units of a width other than 1, 8, 16, 32 and 64 bits are not shown at all (C57_other_width)."
  },
  {
   "property": "C58",
   "status": "proved",
   "theorems": [
    "H2.FailTree.C58_append",
    "H2.FailTree.C58_below",
    "H2.FailTree.C58_assert",
    "H2.FailTree.C58_mock",
    "H2.FailTree.C58_mocks",
    "H2.FailTree.C58_walk",
    "H2.FailTree.C58_deleted",
    "H2.FailTree.C58_case",
    "H2.FailTree.C58_first",
    "H2.FailTree.C58_printed",
    "H2.FailTree.C58_below_again"
   ],
   "note": "C58_below_again: putting failures below a failure that has explanations already would nest them further; no caller does so."
  },
  {
   "property": "C59",
   "status": "partial",
   "theorems": [
    "H2.Split.C59_lossless",
    "H2.Split.C59_two_partial",
    "H2.Split.C59_greater_partial",
    "H2.Split.C59_less_partial",
    "H2.Split.C59_whole",
    "H2.Split.C59_refuted"
   ],
   "note": "The full statement is false (C59_refuted): an arrow is taken for the operator > or hides <, a shift hides >, an escaped quotation mark or one as a character hides the operator. Proved: nothing is lost for any text; the operands are named when the operator does not occur in the left one outside of string literals (two-character operators), when the angle brackets of the left (>) or right (<) one are balanced."
  },
  {
   "property": "C60",
   "status": "partial",
   "theorems": [
    "H2.Abbrev.C60_whole",
    "H2.Abbrev.C60_shortened",
    "H2.Abbrev.C60_fits",
    "H2.Abbrev.C60_marked_partial",
    "H2.Abbrev.C60_silent",
    "H2.Abbrev.C60_no_window",
    "H2.Abbrev.C60_styles",
    "H2.Abbrev.C60_quotes",
    "H2.Abbrev.C60_unquoted",
    "H2.Abbrev.C60_quoted",
    "H2.Abbrev.C60_samesize",
    "H2.Abbrev.C60_escape_character"
   ],
   "note": "The full statement is false: the dots are left out when a character of two columns stands in their column (C60_silent); a width less than the tail plus three cuts nothing (C60_no_window); an escape character in the text can make what follows vanish (C60_escape_character). Everything else is proved for all lines, widths and tails; the mark for texts of one-column characters."
  },
  {
   "property": "C61",
   "status": "partial",
   "theorems": [
    "H2.Color.C61_plain",
    "H2.Color.C61_text",
    "H2.Color.C61_nested_partial",
    "H2.Color.C61_inner_color",
    "H2.Color.C61_same_style",
    "H2.Color.C61_ninth",
    "H2.Color.C61_order"
   ],
   "note": "The full statement is false: a part in a colour of its own ends the styles around it (C61_inner_color), a style nested in itself ends too early (C61_same_style), a ninth style is dropped (C61_ninth), styles that are not nested can change order (C61_order). Proved: the text is never changed; proper nestings look as they should."
  },
  {
   "property": "C62",
   "status": "partial",
   "theorems": [
    "H2.Junit.C62_cases_partial",
    "H2.Junit.C62_suites_partial",
    "H2.Junit.C62_times_partial",
    "H2.Junit.C62_counts_zero",
    "H2.Junit.C62_no_messages",
    "H2.Junit.C62_special",
    "H2.Junit.C62_stale",
    "H2.Junit.C62_two_reasons"
   ],
   "note": "The full statement is false: special characters are not escaped (C62_special); failures and skipped are always 0, being written when the suite starts (C62_counts_zero); the failures are not shown, print(FILE*) being empty for every kind (C62_no_messages); an ignored case shows a failure if it failed in an earlier round (C62_stale); a case left out for two reasons is counted for one and reported for the other (C62_two_reasons). Proved for names without < & and quotation marks: the document is readable, with one element per suite and case, names, number of cases, and status; a failure is shown for cases that ran just when they failed."
  },
  {
   "property": "C63",
   "status": "partial",
   "theorems": [
    "H2.Console.C63_cases",
    "H2.Console.C63_text",
    "H2.Console.C63_verdict",
    "H2.Console.C63_counts",
    "H2.Console.C63_totals",
    "H2.Console.C63_percentage_partial",
    "H2.Console.C63_percentage_rounds"
   ],
   "note": "All parts but one are proved for all suites, orders, rounds, outcomes and verbosities. With several rounds the percentage exceeds 100 (C63_percentage_rounds), because cases are counted once but visits in every round; for one round it is right. The line about a suite (verbosity 9) and the text of durations and volumes are in C91."
  },
  {
   "property": "C64",
   "status": "partial",
   "theorems": [
    "H2.Message.C64_two",
    "H2.Message.C64_values",
    "H2.Message.C64_one",
    "H2.Message.C64_within",
    "H2.Message.C64_json_partial",
    "H2.Message.C64_json_hidden",
    "H2.Message.C64_cout",
    "H2.Message.C64_normal",
    "H2.Message.C64_twice"
   ],
   "note": "Proved for OK and KO and for failures within others, for all texts without escape characters. False of the code: a failed JE with a short document shows neither document (C64_json_hidden); a failed COUT shows neither the expected text nor the output (C64_cout); failures of NoneOf, and of Me without a size, drop the message of the user (C64_normal); printed again, a failure has a comma more (C64_twice)."
  },
  {
   "property": "C65",
   "status": "partial",
   "theorems": [
    "H2.TextDiff.C65_coloured_partial",
    "H2.TextDiff.C65_plain",
    "H2.TextDiff.C65_short",
    "H2.TextDiff.C65_blank",
    "H2.TextDiff.C65_find"
   ],
   "note": "Proved for all texts without escape characters, down to what a terminal shows, with one exception: with colours a blank is a small dark dot whether in common or not, so that texts that differ in blanks only show no difference (C65_blank)."
  },
  {
   "property": "C66",
   "status": "partial",
   "theorems": [
    "H2.MemText.C66_leak",
    "H2.MemText.C66_sizes",
    "H2.MemText.C66_frames",
    "H2.MemText.C66_stray",
    "H2.MemText.C66_access_partial",
    "H2.MemText.C66_double",
    "H2.MemText.C66_asymmetric",
    "H2.MemText.C66_after_free_far"
   ],
   "note": "Proved for every history of the checked heap. Missing: distances of 2 GiB and more are told wrong, since they are printed as 32-bit integers; C66_after_free_far is a released area of three gigabytes read in its middle, reported as an access before it. Whether the access is called a read or a write is C55. The names of the frames are inputs."
  },
  {
   "property": "C67",
   "status": "partial",
   "theorems": [
    "H2.Lookup.C67_unique",
    "H2.Lookup.C67_not_unique",
    "H2.Lookup.C67_empty",
    "H2.Lookup.C67_told",
    "H2.Lookup.C67_report",
    "H2.Lookup.C67_round",
    "H2.Lookup.C67_stub",
    "H2.Lookup.C67_left_alone",
    "H2.Lookup.C67_silent"
   ],
   "note": "Proved for all symbol tables, load addresses, names and histories. Missing: outside a case (a global setup, say) nothing is told when the name stands for no function or for several (C67_silent). The output of nm is an input."
  },
  {
   "property": "C68",
   "status": "partial",
   "theorems": [
    "H2.Lookup.C68_plain",
    "H2.Lookup.C68_object",
    "H2.Lookup.C68_made",
    "H2.Lookup.C68_making",
    "H2.Lookup.C68_not_made",
    "H2.Lookup.C68_plain_untouched",
    "H2.Lookup.C68_ten_false",
    "H2.Lookup.C68_table",
    "H2.Lookup.C68_unknown",
    "H2.Lookup.C68_typeinfo",
    "H2.Lookup.C68_many_false",
    "H2.Lookup.C68_second_base_false",
    "H2.Lookup.C68_data_false"
   ],
   "note": "Proved for methods of the first (or only) base and at most 1000 virtual methods (100 on ARM). False of the code otherwise: the pointer to a later method is taken for an address (C68_many_false); a method inherited from another base than the first is looked for in the first table (C68_second_base_false); with a symbol for the type only, a word behind the type is taken for the function (C68_typeinfo); a table nm lists as data is not found (C68_data_false)."
  },
  {
   "property": "C69",
   "status": "partial",
   "theorems": [
    "H2.Stringify.C69_looks",
    "H2.Stringify.C69_told_apart",
    "H2.Stringify.C69_numbers",
    "H2.Stringify.C69_near",
    "H2.Stringify.C69_alike_numbers_false",
    "H2.Stringify.C69_large_false",
    "H2.Stringify.C69_quote_false",
    "H2.Stringify.C69_nul_false",
    "H2.Stringify.C69_wide_false"
   ],
   "note": "Proved for all types of values and any nesting under the stated conditions. Without them it is false of the code: numbers less than a millionth apart look alike (C69_alike_numbers_false), so do containers of more than 100 elements (C69_large_false), texts with quotation marks in containers (C69_quote_false), texts that differ behind a character 0 (C69_nul_false) and wide characters (C69_wide_false). User-defined printing (operator<<, tostring) is an input text."
  },
  {
   "property": "C70",
   "status": "partial",
   "theorems": [
    "H2.Backtrace.C70_listed",
    "H2.Backtrace.C70_exempt_partial",
    "H2.Backtrace.C70_charged",
    "H2.Backtrace.C70_full_false",
    "H2.Backtrace.C70_deep_false",
    "H2.Backtrace.C70_hidden_false",
    "H2.Backtrace.C70_stubbed_false"
   ],
   "note": "Proved for up to 4095 functions named, and callers among the innermost hundred frames that the system can describe. Otherwise it is false of the code: further functions are ignored (C70_full_false), callers behind the hundredth frame are not seen (C70_deep_false), nor are functions that are not exported (C70_hidden_false), and naming a stubbed function exempts its substitute (C70_stubbed_false)."
  },
  {
   "property": "C71",
   "status": "partial",
   "theorems": [
    "H2.Backtrace.C71_print",
    "H2.Backtrace.C71_same",
    "H2.Backtrace.C71_deep_false"
   ],
   "note": "Proved for the innermost hundred frames. Frames behind are neither printed nor compared, so that two call sites may be taken for one (C71_deep_false)."
  },
  {
   "property": "C72",
   "status": "partial",
   "theorems": [
    "H2.Json.Je.C72_text",
    "H2.Json.Je.C72_fold",
    "H2.Json.Je.C72_whole",
    "H2.Json.Je.C72_selected_partial",
    "H2.Json.Je.C72_nothing",
    "H2.Json.Je.C72_illformed_expected",
    "H2.Json.Je.C72_illformed_actual",
    "H2.Json.Je.C72_undefined",
    "H2.Json.Je.C72_key_false",
    "H2.Json.Je.C72_quote_false",
    "H2.Json.Je.C72_backslash_false",
    "H2.Json.Je.C72_large_false"
   ],
   "note": "Proved for selected values whose texts have no quotation mark and no backslash, whose keys are not empty and whose numbers survive six decimals; without selector for all. Otherwise it is false of the code, because the selected value is written without escapes: C72_key_false, C72_quote_false, C72_backslash_false, C72_large_false; a missing inner step is undefined behaviour (C72_undefined)."
  },
  {
   "property": "C73",
   "status": "partial",
   "theorems": [
    "H2.Json.Je.C73_literal_partial",
    "H2.Json.Je.C73_one_line",
    "H2.Json.Je.C73_double_false",
    "H2.Json.Je.C73_backslash_false",
    "H2.Json.Je.C73_newline_false"
   ],
   "note": "Proved for the quotation marks \\\" and ', and values whose texts have no quotation marks, backslashes and new lines and whose numbers survive six decimals. It is false of the code otherwise: with plain double quotation marks no string is printed as a literal (C73_double_false), backslashes and new lines are not escaped (C73_backslash_false, C73_newline_false)."
  },
  {
   "property": "C74",
   "status": "partial",
   "theorems": [
    "H2.Attrs.C74_attributes_partial",
    "H2.Attrs.C74_limit",
    "H2.Attrs.C74_fill",
    "H2.Attrs.C74_flag_false",
    "H2.Attrs.C74_word_false",
    "H2.Attrs.C74_long_fill_false",
    "H2.Attrs.C74_largest_false"
   ],
   "note": "Proved for all lists of the documented attributes with values that fit (fills up to 32 bytes, numbers that fit into 64 bits after rounding to double). It is false of the code otherwise: flags cannot be given the value false (C74_flag_false), words that contain a key are taken for it (C74_word_false), longer fills overrun their place (C74_long_fill_false), the largest limit is undefined (C74_largest_false)."
  },
  {
   "property": "C75",
   "status": "partial",
   "theorems": [
    "H2.Scope.C75_continue_partial",
    "H2.Scope.C75_first_partial",
    "H2.Scope.C75_case_partial",
    "H2.Scope.C75_fail_outside",
    "H2.Scope.C75_off",
    "H2.Scope.C75_lookup_false",
    "H2.Scope.C75_nested_false",
    "H2.Scope.C75_free_false",
    "H2.Scope.C75_left_false",
    "H2.Scope.C75_cleanup_false"
   ],
   "note": "Proved for all programs in which unmem blocks contain no lookups (call stacks, symbols, regular expressions) and no further unmem blocks and free only what was allocated in them, and for cases in which no assertion fails inside of a block. It is false of the code otherwise: lookups and nested unmem blocks switch tracking on (C75_lookup_false, C75_nested_false), foreign memory freed in an unmem block goes to the C library (C75_free_false), the jump of a failing assertion does not end its block (C75_left_false) and leaves tracking off in Cleanup (C75_cleanup_false)."
  },
  {
   "property": "C76",
   "status": "partial",
   "theorems": [
    "H2.SuiteFn.C76_enumerate",
    "H2.SuiteFn.C76_kept",
    "H2.SuiteFn.C76_run_partial",
    "H2.SuiteFn.C76_cleanup_partial",
    "H2.SuiteFn.C76_names",
    "H2.SuiteFn.C76_names2",
    "H2.SuiteFn.C76_index",
    "H2.SuiteFn.C76_test_names",
    "H2.SuiteFn.C76_test_names2",
    "H2.SuiteFn.C76_test_name",
    "H2.SuiteFn.C76_test_tags",
    "H2.SuiteFn.C76_alone",
    "H2.SuiteFn.C76_one_list",
    "H2.SuiteFn.C76_cleanup_false",
    "H2.SuiteFn.C76_late_false",
    "H2.SuiteFn.C76_convert_false",
    "H2.SuiteFn.C76_bracket_false",
    "H2.SuiteFn.C76_number_false",
    "H2.SuiteFn.C76_alone_false"
   ],
   "note": "The tests found, their order and their names are proved for all suites. That a run executes exactly the one test with its values is proved for suites without Cleanup whose lists have values of one type, and for a Case behind a Cleanup. It is false of the code otherwise: a Cases or Casess behind a Cleanup is repeated for ever (C76_cleanup_false), a Cleanup behind the test is a jump into a frame that is gone (C76_late_false), all values are converted to the type of the first (C76_convert_false), a value written with brackets loses them to the tags (C76_bracket_false), and from the thirty-fourth value on names have no number (C76_number_false)."
  },
  {
   "property": "C77",
   "status": "partial",
   "theorems": [
    "H2.Lifetime.C77_case",
    "H2.Lifetime.C77_suite_partial",
    "H2.Lifetime.C77_run_partial",
    "H2.Lifetime.C77_end_partial",
    "H2.Lifetime.C77_checked",
    "H2.Lifetime.C77_suite_setup_false",
    "H2.Lifetime.C77_case_cleanup_false",
    "H2.Lifetime.C77_enumerate_false",
    "H2.Lifetime.C77_cleanup_false"
   ],
   "note": "That a case undoes what it did is proved for every case in every state. The history of the whole run is proved for programs whose suite setup, suite cleanup and case cleanup functions neither stub nor mock, and the end for those whose global cleanup does not either. It is false of the code otherwise: current_case stays at a case that has ended, so that what these functions stub goes to its list and stays (C77_suite_setup_false, C77_case_cleanup_false, C77_cleanup_false). Stubs of a suite outside of blocks are in force in all suites (C77_enumerate_false). Code of users is a sequence of stubs and mocks; how a function is patched is C30 and C31."
  },
  {
   "property": "C78",
   "status": "partial",
   "theorems": [
    "H2.MockText.C78_says",
    "H2.MockText.C78_expect",
    "H2.MockText.C78_end",
    "H2.MockText.C78_unexpected",
    "H2.MockText.C78_arguments",
    "H2.MockText.C78_ordinal",
    "H2.MockText.C78_ordinal_false",
    "H2.MockText.C78_child_false"
   ],
   "note": "Proved for all mocks whose names have no escape character, whose least count is not above the most, at the end of a case, at a call no expectation is for and at arguments that do not match. False of the code: failures below the first one about an argument mark the type at the position of an element (C78_child_false), and from the 21st expectation on positions are not English (C78_ordinal_false)."
  },
  {
   "property": "C79",
   "status": "partial",
   "theorems": [
    "H2.Hooks.C79_called",
    "H2.Hooks.C79_trace",
    "H2.Hooks.C79_ends",
    "H2.Hooks.C79_suite_times",
    "H2.Hooks.C79_case_partial",
    "H2.Hooks.C79_many_false",
    "H2.Hooks.C79_lost_false",
    "H2.Hooks.C79_suite_false",
    "H2.Hooks.C79_jump_false"
   ],
   "note": "When the functions are called is proved for fewer than 1024 functions of a kind; the 1024th is never called (C79_many_false). That a failing check is a failure of its case is proved with -c for the setups and cleanups of cases. It is false otherwise: a failing check in a GlobalSetup is lost (C79_lost_false), one in a later GlobalSuiteSetup is reported for a case that has ended (C79_suite_false), and without -c it is a jump to a buffer that is not valid, also in GlobalCaseSetup (C79_jump_false)."
  },
  {
   "property": "C80",
   "status": "proved",
   "theorems": [
    "H2.Addr.C80_text",
    "H2.Addr.C80_parse",
    "H2.Addr.C80_round",
    "H2.Addr.C80_distinct",
    "H2.Addr.C80_no_port",
    "H2.Addr.C80_stale",
    "H2.Addr.C80_port",
    "H2.Addr.C80_port_false",
    "H2.Addr.C80_fits",
    "H2.Addr.C80_received",
    "H2.Addr.C80_answer"
   ],
   "note": "Texts that are no address are read silently: the bytes of the address are then left as they were (C80_stale) and a port from 65536 on is another port (C80_port_false). inet_pton, inet_ntop and atoi are modelled as in the C library."
  },
  {
   "property": "C81",
   "status": "partial",
   "theorems": [
    "H2.Json.Dual.C81_search",
    "H2.Json.Dual.C81_search_none",
    "H2.Json.Dual.C81_row",
    "H2.Json.Dual.C81_self",
    "H2.Json.Dual.C81_renamed_partial",
    "H2.Json.Dual.C81_scalar",
    "H2.Json.Dual.C81_number_false",
    "H2.Json.Dual.C81_bool_false",
    "H2.Json.Dual.C81_range_false",
    "H2.Json.Dual.C81_weight_false",
    "H2.Json.Dual.C81_absorbed_false"
   ],
   "note": "Proved with the rounding of double in every operation, for objects whose other expected members are all there, names of less than 2^20 characters together and values whose likeness with themselves is at most 1000; in longer values the likeness of the names is lost by rounding (C81_absorbed_false). It is false of the code that a value like the missing one is preferred when it is a number, true or false: all of them are equally like (C81_number_false, C81_bool_false). The likeness is not from 0 to 1 but grows with the number of elements (C81_range_false), so that elements outweigh names (C81_weight_false)."
  },
  {
   "property": "C82",
   "status": "partial",
   "theorems": [
    "H2.Json.Dual.C82_match",
    "H2.Json.Dual.C82_mismatch",
    "H2.Json.Dual.C82_missing",
    "H2.Json.Dual.C82_empty_false",
    "H2.Json.Dual.C82_twice_false",
    "H2.Json.Dual.C82_nameless_false"
   ],
   "note": "Proved for all trees with different keys in every object; that a difference is coloured, for trees with nothing empty in them. The rest is false of the code: brackets are never coloured, so that [] and {} differ without a colour (C82_empty_false); an object with a key that is there twice does not match itself, without a colour (C82_twice_false); a missing member with an empty key is folded away without a colour (C82_nameless_false)."
  },
  {
   "property": "C83",
   "status": "partial",
   "theorems": [
    "H2.Follow.C83_found",
    "H2.Follow.C83_reached",
    "H2.Follow.C83_exempted",
    "H2.Follow.C83_plt_partial",
    "H2.Follow.C83_plt_add_partial",
    "H2.Follow.C83_literal_partial",
    "H2.Follow.C83_stub_arm",
    "H2.Follow.C83_rounds_arm",
    "H2.Follow.C83_pages",
    "H2.Follow.C83_negative_false",
    "H2.Follow.C83_literal_false",
    "H2.Follow.C83_vector_false"
   ],
   "note": "Proved on x86_64 for all jumps the code knows. On arm64 it is proved for displacements that are not negative and false of the code otherwise: the sign is extended to the wrong bits (C83_negative_false) or not at all (C83_literal_false), and an instruction that loads a vector register is taken for one that loads the register of the jump (C83_vector_false)."
  },
  {
   "property": "C84",
   "status": "partial",
   "theorems": [
    "H2.Macro.C84_empty",
    "H2.Macro.C84_count",
    "H2.Macro.C84_vcall",
    "H2.Macro.C84_parenthesis",
    "H2.Macro.C84_remove",
    "H2.Macro.C84_foreach",
    "H2.Macro.C84_fullmesh",
    "H2.Macro.C84_h2foreach",
    "H2.Macro.C84_h2fullmesh",
    "H2.Macro.C84_function",
    "H2.Macro.C84_calls",
    "H2.Macro.C84_pairs",
    "H2.Macro.C84_several_false",
    "H2.Macro.C84_many_false",
    "H2.Macro.C84_name_false",
    "H2.Macro.C84_last_false",
    "H2.Macro.C84_index_false"
   ],
   "note": "Proved about a model of the preprocessor and a table of the macros generated from the headers, for up to 63 arguments without names of macros left in them, and numbers of elements up to 33. The rest is false of the code: several arguments without parentheses around them (C84_several_false), more arguments than can be counted (C84_many_false), an argument that is the name of a macro with arguments (C84_name_false), an empty last element (C84_last_false), the number of the 34th element (C84_index_false)."
  },
  {
   "property": "C85",
   "status": "partial",
   "theorems": [
    "H2.Typed.C85_plain_partial",
    "H2.Typed.C85_plain_modulo",
    "H2.Typed.C85_plain_rounded",
    "H2.Typed.C85_order_widths",
    "H2.Typed.C85_plain_floating",
    "H2.Typed.C85_plain_whole_partial",
    "H2.Typed.C85_plain_actual_floating_partial",
    "H2.Typed.C85_eq",
    "H2.Typed.C85_eq_partial",
    "H2.Typed.C85_ne_partial",
    "H2.Typed.C85_order_partial",
    "H2.Typed.C85_order_mixed",
    "H2.Typed.C85_bool",
    "H2.Typed.C85_truth",
    "H2.Typed.C85_flag",
    "H2.Typed.C85_opposite",
    "H2.Typed.C85_both",
    "H2.Typed.C85_castOf",
    "H2.Typed.C85_castOf_int",
    "H2.Typed.C85_castOf_bool",
    "H2.Typed.C85_both_number",
    "H2.Typed.C85_nan",
    "H2.Typed.C85_narrow_false",
    "H2.Typed.C85_fraction_false",
    "H2.Typed.C85_eq_false",
    "H2.Typed.C85_neither_false",
    "H2.Typed.C85_order_false",
    "H2.Typed.C85_bool_false",
    "H2.Typed.C85_held_false",
    "H2.Typed.C85_order_floating",
    "H2.Typed.C85_infinity_apart",
    "H2.Typed.C85_infinity_false"
   ],
   "note": "Proved for all pairs of types as far as it is true, with what happens otherwise. The rest is false of the code: an expected number is first converted to the type of the actual one, so OK(300, c) passes for an unsigned char 44 (C85_narrow_false), OK(3.7, 3) passes (C85_fraction_false), and OK(300 == c) and OK(300 != c) both fail (C85_neither_false); numbers of different sign are compared modulo 2^64 or as the compiler converts them (C85_eq_false, C85_order_false); OK(true == 5) passes (C85_bool_false); a matcher in a variable of type h2_matcher<int> drops the fraction of what it is given (C85_held_false); infinity does not equal infinity (C85_infinity_false)."
  },
  {
   "property": "C86",
   "status": "partial",
   "theorems": [
    "H2.Typed.C86_even",
    "H2.Typed.C86_divable_partial",
    "H2.Typed.C86_divable_mixed",
    "H2.Typed.C86_divable_power",
    "H2.Typed.C86_integer_partial",
    "H2.Typed.C86_nan",
    "H2.Typed.C86_user",
    "H2.Typed.C86_message_partial",
    "H2.Typed.C86_divable_ub_false",
    "H2.Typed.C86_divable_false",
    "H2.Typed.C86_integer_false",
    "H2.Typed.C86_message_false"
   ],
   "note": "IsEven, IsOdd, IsNaN and the verdicts of matchers of the user are proved completely; the rest as far as it is true. False of the code: IsDivable(3u) does not accept -3 (C86_divable_false) and has undefined behaviour with 0 (C86_divable_ub_false); IsInteger accepts infinity (C86_integer_false); the message of a matcher of the user is overwritten by the assertion and never printed by OK(matcher, a), only inside AllOf and the like (C86_message_false, C86_message_partial)."
  },
  {
   "property": "C87",
   "status": "partial",
   "theorems": [
    "H2.Timer.C87_once",
    "H2.Timer.C87_fails_partial",
    "H2.Timer.C87_text",
    "H2.Timer.C87_jumps_false",
    "H2.Timer.C87_text_false"
   ],
   "note": "Proved for every way to leave the block but a failed assertion, which leaves it without looking at the clock (C87_jumps_false). The text says \"expect < 5 ms, but actually cost 5 ms\" for 5.001 ms while 5 ms pass (C87_text_false)."
  },
  {
   "property": "C88",
   "status": "partial",
   "theorems": [
    "H2.Ptr.C88_text",
    "H2.Ptr.C88_caseless",
    "H2.Ptr.C88_spaceless_partial",
    "H2.Ptr.C88_null_actual_partial",
    "H2.Ptr.C88_null_expected",
    "H2.Ptr.C88_pointer",
    "H2.Ptr.C88_shared",
    "H2.Ptr.C88_number",
    "H2.Ptr.C88_integers",
    "H2.Ptr.C88_number_actual",
    "H2.Ptr.C88_truth",
    "H2.Ptr.C88_flag",
    "H2.Ptr.C88_order_text",
    "H2.Ptr.C88_order_pointer",
    "H2.Ptr.C88_parts",
    "H2.Ptr.C88_opposite",
    "H2.Ptr.C88_takes",
    "H2.Ptr.C88_spaceless_false",
    "H2.Ptr.C88_null_actual_false",
    "H2.Ptr.C88_null_string_false",
    "H2.Ptr.C88_order_false",
    "H2.Ptr.C88_order_null_false"
   ],
   "note": "False of the code in four cases: a null char* is equal to the text \"(null)\" (C88_null_actual_false); a null char* expected of a std::string is undefined behaviour (C88_null_string_false); two char* are ordered by address (C88_order_false); what follows a NUL in a std::string is not compared by *Eq (C88_spaceless_false). Everything else is proved."
  },
  {
   "property": "C89",
   "status": "partial",
   "theorems": [
    "H2.Expect.C89_failure_partial",
    "H2.Expect.C89_text_partial",
    "H2.Expect.C89_expected_partial",
    "H2.Expect.C89_unique",
    "H2.Expect.C89_same",
    "H2.Expect.C89_bare",
    "H2.Expect.C89_value_false",
    "H2.Expect.C89_pair_false",
    "H2.Expect.C89_every_false",
    "H2.Expect.C89_text_false",
    "H2.Expect.C89_caseless_false",
    "H2.Expect.C89_squash_false",
    "H2.Expect.C89_quote_false"
   ],
   "note": "Proved for all nestings of matchers of numbers, texts and containers with negations, ~ and *, but for seven kinds, where it is false of the code: AllOf(Nq(3)) is written \"AllOf(3)\" (C89_value_false); Not(Pair(Eq(1), Eq(2))) is written \"!(≠1, ≠2)\" (C89_pair_false), and Not(Every(Eq(1), Eq(2))) \"!Every(≠1, ≠2)\" (C89_every_false); ~AllOf(\"Abc\") is written without ~ (C89_text_false), and so is ~Has(Se(\"A\")) (C89_caseless_false); *Substr(\"a  b\") does not ignore the blanks of its own text (C89_squash_false); a quotation mark in a text is not marked (C89_quote_false). times and ranges are in C108; what wildcards and regular expressions mean is a parameter here (C10 treats wildcards)."
  },
  {
   "property": "C90",
   "status": "partial",
   "theorems": [
    "H2.Nest.C90_scope_partial",
    "H2.Nest.C90_latest_partial",
    "H2.Nest.C90_once_partial",
    "H2.Nest.C90_left_partial",
    "H2.Nest.C90_checked_partial",
    "H2.Nest.C90_free_partial",
    "H2.Nest.C90_free_covers",
    "H2.Nest.C90_free_latest_partial",
    "H2.Nest.C90_free_once_partial",
    "H2.Nest.C90_free_left_partial",
    "H2.Nest.C90_free_checked_partial",
    "H2.Nest.C90_twice_false",
    "H2.Nest.C90_two_false",
    "H2.Nest.C90_failed_false",
    "H2.Nest.C90_stub_inside_false"
   ],
   "note": "Proved for functions, fakes and reactions that mock and stub as well, to any depth (the C90_free theorems), where no function is mocked or stubbed while its own mock is at work and no place of the source mocks two functions; C90_checked_partial also needs that no place is come by twice. Elsewhere it is false of the code: a MOCK come by twice drops the expectations of the first time (C90_twice_false); a place that mocks two functions answers calls of the first with the second (C90_two_false); a failed assertion in a reaction leaves the function unmocked in the cleanup (C90_failed_false); STUB of a function from its own reaction is undone (C90_stub_inside_false)."
  },
  {
   "property": "C91",
   "status": "proved",
   "theorems": [
    "H2.Amount.C91_duration",
    "H2.Amount.C91_duration_order",
    "H2.Amount.C91_volume",
    "H2.Amount.C91_volume_order",
    "H2.Amount.C91_detail",
    "H2.Amount.C91_suite"
   ],
   "note": "For all amounts below 10^12 (milliseconds or bytes; the order for all amounts), all counts, names and combinations of parts. What printf does with %.1f and its like of a quotient is a parameter: off by less than one unit of the last digit, monotone, right for whole numbers; rounding to nearest is shown to do that (nearest_ok). Colours are left out."
  },
  {
   "property": "C92",
   "status": "partial",
   "theorems": [
    "H2.Whole.C92_once",
    "H2.Whole.C92_runs",
    "H2.Whole.C92_test",
    "H2.Whole.C92_code",
    "H2.Whole.C92_status",
    "H2.Whole.C92_lines",
    "H2.Whole.C92_messages",
    "H2.Whole.C92_verdict",
    "H2.Whole.C92_order",
    "H2.Whole.C92_junit_partial",
    "H2.Whole.C92_agree",
    "H2.Whole.C92_seen",
    "H2.Whole.C92_lists_only",
    "H2.Whole.C92_listed",
    "H2.Whole.C92_reports_false"
   ],
   "note": "Proved for all programs whose cases come to an end and all correct command lines of less than 256 characters. Restrictions: fewer than seven reports of the user (with seven, nothing of the library is printed: C92_reports_false); for JUnit, fewer than six, and names without <, & and quotes (C62_special); the exit status is taken modulo 256 (C35_status_false). Global setups and cleanups of the user outside of cases, and -d, are left out."
  },
  {
   "property": "C93",
   "status": "partial",
   "theorems": [
    "H2.Around.C93_most",
    "H2.Around.C93_sockets_partial",
    "H2.Around.C93_calls_partial",
    "H2.Around.C93_restored",
    "H2.Around.C93_start",
    "H2.Around.C93_own",
    "H2.Around.C93_clock_off",
    "H2.Around.C93_stub_in_sock_false",
    "H2.Around.C93_nested_sock_false",
    "H2.Around.C93_stub_malloc_false",
    "H2.Around.C93_stub_memory_false",
    "H2.Around.C93_after_unmem_false",
    "H2.Around.C93_clock_false",
    "H2.Around.C93_time"
   ],
   "note": "Proved in full for all functions other than those of memory and sockets; for sockets where they are not stubbed inside of SOCK and SOCK is not nested; for memory functions where they are not stubbed. Restoring after a case is proved for all programs, for memory functions that are not stubbed. It is false otherwise (witnesses), and false of the functions of time, which give a fixed date unless -m is used. Stubs of suites are left out (C77)."
  },
  {
   "property": "C94",
   "status": "partial",
   "theorems": [
    "H2.Debug.C94_traced",
    "H2.Debug.C94_once",
    "H2.Debug.C94_asks",
    "H2.Debug.C94_trap",
    "H2.Debug.C94_told",
    "H2.Debug.C94_looks",
    "H2.Debug.C94_off",
    "H2.Debug.C94_again_false",
    "H2.Debug.C94_name_false"
   ],
   "note": "Proved except for the last sentence, which is false: after the debugger has gone the next failure waits without end and without asking, and the prompt names LLDB where GDB is started and the other way round. A debugger that goes between the look and the breakpoint is left out. The search for lldb in the list of processes (macOS) is not modelled."
  },
  {
   "property": "C95",
   "status": "partial",
   "theorems": [
    "H2.Printer.C95_compiles",
    "H2.Printer.C95_shows",
    "H2.Printer.C95_two_false",
    "H2.Printer.C95_container_false",
    "H2.Printer.C95_Tostring_false"
   ],
   "note": "Proved for all types that have one way to print at most at each depth, and exactly those compile. The last sentence is false: a class with a method and operator<< (std::bitset), an exception or container with operator<<, and a class with Tostring() alone do not compile. More than 100 elements are shown as [...]. The rules of C++ for choosing a partial specialisation are taken as: exactly one may match."
  },
  {
   "property": "C96",
   "status": "partial",
   "theorems": [
    "H2.Calls.C96_single",
    "H2.Calls.C96_containers",
    "H2.Calls.C96_in_turn",
    "H2.Calls.C96_any_rest",
    "H2.Calls.C96_any_all",
    "H2.Calls.C96_has_rest",
    "H2.Calls.C96_has_all",
    "H2.Calls.C96_stat",
    "H2.Calls.C96_negation",
    "H2.Calls.C96_ko",
    "H2.Calls.C96_settled",
    "H2.Calls.C96_message_partial",
    "H2.Calls.C96_message_after",
    "H2.Calls.C96_message_false"
   ],
   "note": "Proved except for the message with KO, where it is false: it is made when the assertion passes, and a failing KO has none. With Has * n, n is positive. Exceptions thrown by the functions, null pointers, MedianOf, and the functions by which the types of the user are printed and compared are not modelled."
  },
  {
   "property": "C97",
   "status": "partial",
   "theorems": [
    "H2.Screen.C97_screen",
    "H2.Screen.C97_collecting",
    "H2.Screen.C97_quiet",
    "H2.Screen.C97_run",
    "H2.Screen.C97_written",
    "H2.Screen.C97_output",
    "H2.Screen.C97_todo_false",
    "H2.Screen.C97_collect_false"
   ],
   "note": "Proved for texts without control sequences of their own and names without line ends and styles; a character takes one or two columns. The last sentence is false: with a verbosity of 5 the line about a case left to do is overwritten by what comes next, and so is the last row of what suites write while being collected. Colours and the reactions of a terminal to them are left out."
  },
  {
   "property": "C98",
   "status": "partial",
   "theorems": [
    "H2.Memory.C98_peak_partial",
    "H2.Memory.C98_inner_false",
    "H2.Memory.C98_double_free_false",
    "H2.Memory.C98_left_false"
   ],
   "note": "Proved for memory allocated in the case itself, in histories without double frees and with limits of at most 2^63; the last sentence is false: memory of an inner BLOCK is not counted, a double free is subtracted twice, and after a failed assertion inside of a BLOCK the footprint of the BLOCK is told. What is printed for a number of bytes is C91."
  },
  {
   "property": "C99",
   "status": "partial",
   "theorems": [
    "H2.Count.C99_run",
    "H2.Count.C99_suite",
    "H2.Count.C99_case_partial",
    "H2.Count.C99_case_false"
   ],
   "note": "Proved for runs and suites in full; for cases if there is one round or if setups and cleanups of suites make no checks. Otherwise it is false: checks there are counted for the case that ran last and told with it in the next round. Counters are numbers without a bound; that a failed check ends its case is in the choice of the checks that are made."
  },
  {
   "property": "C100",
   "status": "partial",
   "theorems": [
    "H2.Thrown.C100_text",
    "H2.Thrown.C100_told",
    "H2.Thrown.C100_verdict",
    "H2.Thrown.C100_own_partial",
    "H2.Thrown.C100_uncaught",
    "H2.Thrown.C100_types_false",
    "H2.Thrown.C100_long_false"
   ],
   "note": "C100_told says for every case what is printed, with the type of the last exception in the place of each type. So the property holds if the exceptions of a case have one type name (C100_own_partial) and is false for two exceptions of different types with -W exception (C100_types_false), as reports have a pointer to one shared buffer; names of 1024 characters or more are undefined (C100_long_false). Blocks Catch are not nested in this model (C47 has those); Setup and Cleanup blocks are not apart from the steps of the case."
  },
  {
   "property": "C101",
   "status": "partial",
   "theorems": [
    "H2.TypeName.C101_text_partial",
    "H2.TypeName.C101_signature_partial",
    "H2.TypeName.C101_types_partial",
    "H2.TypeName.C101_arguments_partial",
    "H2.TypeName.C101_volatile_false",
    "H2.TypeName.C101_long_false"
   ],
   "note": "Proved for all types without volatile of their own whose text has less than 512 characters. It is false otherwise: volatile is not shown (C101_volatile_false), and longer texts overrun their buffer (C101_long_false). Pointers to functions and arrays and the arguments of templates are parts of names; how the C++ library writes types (demangled) is modelled, not proved."
  },
  {
   "property": "C102",
   "status": "partial",
   "theorems": [
    "H2.TypeName.C102_types_partial",
    "H2.TypeName.C102_qualified",
    "H2.TypeName.C102_one",
    "H2.TypeName.C102_message_partial",
    "H2.TypeName.C102_enum_false",
    "H2.TypeName.C102_chars_false",
    "H2.TypeName.C102_array_false",
    "H2.TypeName.C102_function_false"
   ],
   "note": "Proved for classes, numbers and pointers other than char*. It is false for enumerations (accepted as their number type), char* (accepted as const char*), arrays and functions (accepted as pointers). The message is partial as C101 is: types that differ in volatile only, and long types. That names are equal just if types are is part of the model of types."
  },
  {
   "property": "C103",
   "status": "partial",
   "theorems": [
    "H2.SuiteFn.C103_found",
    "H2.SuiteFn.C103_describe_partial",
    "H2.SuiteFn.C103_run",
    "H2.SuiteFn.C103_number_false"
   ],
   "note": "Which tests there are and what they run is proved for lists of any length; the descriptions for lists of up to 33 values, as the numbers behind are names of macros (C103_number_false). That the macros go over their lists like this is in C84, that is for as many values as it says; what a block does is not looked into; declarations of suites between are C76."
  },
  {
   "property": "C104",
   "status": "partial",
   "theorems": [
    "H2.Cli.C104_letters",
    "H2.Cli.C104_nothing",
    "H2.Cli.C104_number",
    "H2.Cli.C104_default",
    "H2.Cli.C104_several",
    "H2.Cli.C104_one_partial",
    "H2.Cli.C104_one_false",
    "H2.Cli.C104_words",
    "H2.Cli.C104_patterns",
    "H2.Cli.C104_warnings_partial",
    "H2.Cli.C104_warnings",
    "H2.Cli.C104_warnings_false",
    "H2.Cli.C104_shuffle_false",
    "H2.Cli.C104_fold_false",
    "H2.Cli.C104_source",
    "H2.Cli.C104_source_false",
    "H2.Cli.C104_page",
    "H2.Cli.C104_silent",
    "H2.Cli.C104_aligned"
   ],
   "note": "False of the text: -s takes several words though shown with one, and takes name and file but not the alphabet that is named; -W does not take double_free; -F without a number is the smallest fold, not the largest; the default of -S is written in another way of quoting than its words. The sentences about the effect of an option are not looked into (the effects are C39 and the properties of each). OneLine is asked of the version, the date and the revision only."
  },
  {
   "property": "C105",
   "status": "partial",
   "theorems": [
    "H2.Macro.C105_mock",
    "H2.Macro.C105_repeat",
    "H2.Macro.C105_bool",
    "H2.Macro.C105_equal",
    "H2.Macro.C105_last",
    "H2.Macro.C105_ncall",
    "H2.Macro.C105_equal_false"
   ],
   "note": "Proved about the model of the preprocessor and the table of macros of C84, for counts and numbers as far as the tables of the library reach. Beyond it is false: 32 is not told to equal 32 (C105_equal_false). Lists whose last element is empty are left out."
  },
  {
   "property": "C106",
   "status": "partial",
   "theorems": [
    "H2.Macro.C106_first",
    "H2.Macro.C106_lists",
    "H2.Macro.C106_comma_false"
   ],
   "note": "Proved about the model of the preprocessor of C84 and the macros H2_An, H2_XAn, H2_YAn. The last sentence is false of the code: parentheses around the first value are taken for those of a list, so that a value written in parentheses because of a comma in braces is torn at that comma (C106_comma_false). The statements around these macros, that is the loops of Cases and Todos, are in C76."
  },
  {
   "property": "C107",
   "status": "partial",
   "theorems": [
    "H2.Inet.C107_received",
    "H2.Inet.C107_sent",
    "H2.Inet.C107_answer",
    "H2.Inet.C107_again",
    "H2.Inet.C107_distinct",
    "H2.Inet.C107_no_port",
    "H2.Inet.C107_address",
    "H2.Inet.C107_resolved",
    "H2.Inet.C107_no_address",
    "H2.Inet.C107_sender_false",
    "H2.Inet.C107_port_false",
    "H2.Inet.C107_family_false"
   ],
   "note": "Proved for all addresses and ports below 65536. False otherwise: a sender that is not given (or is a pattern) leaves the address as it was in the memory of the program (C107_sender_false, C107_no_address); ports from 65536 on are taken modulo 65536 (C107_port_false); the structures of getaddrinfo have the family 0 inside (C107_family_false). inet_pton, inet_ntop, atoi and htons are modelled after glibc; that their models are those functions is not proved."
  },
  {
   "property": "C108",
   "status": "partial",
   "theorems": [
    "H2.Times.C108_says_partial",
    "H2.Times.C108_unique",
    "H2.Times.C108_same_partial",
    "H2.Times.C108_range_hidden",
    "H2.Times.C108_range_false",
    "H2.Times.C108_long_false"
   ],
   "note": "Proved for matchers without ranges, of any depth, around integers, Ge, Gt, Le and Lt, and containers of at most 5413722 elements. With a range it is false: the text does not show ranges (C108_range_hidden, C108_range_false). With longer containers it is false: elements behind these are not looked at (C108_long_false). Has of one argument on maps (where it looks at keys), !Every of two arguments (C89_every_false) and the other matchers with amounts are not in this model."
  }
 ]
}