# Design

This directory holds a Lean 4 model of h2unit (source under /repo/source) and
machine-checked theorems about it. Nothing in /repo is built or run: the model
was written by reading the source, and every definition cites the file and
lines it models.

## Method

* One folder per area under `lean/Verif/`. `Model.lean` holds the transcription
  of the code, `Spec.lean` (or the head of `Props.lean`) the independent
  specification, `Lemmas.lean` the proofs, `Props.lean` the property theorems with
  a concrete example beside each. The theorem for property Cnn is named `Cnn_…`.
* Loops become structural recursion, recursion on a decreasing measure, or
  recursion with fuel where the loop may not end; in the last case the theorems
  speak about every sufficient fuel, and "hangs" means that no fuel is enough.
* Pointers become indices, list positions or addresses of an explicit heap. C++
  undefined behaviour (null dereference, out-of-bounds read, buffer overrun,
  longjmp to a buffer that was not set) is a distinct outcome, never a value.
* What the operating system, the C library or the program under test decides is a
  parameter or comes with each operation of a history; the theorems hold for
  every value of it.
* Specifications do not use the helpers of the model. They are lists, relations
  and inductive predicates that can be read without the model.
* Where the code violates the English property, the violation is proved on a
  concrete witness (`…_false`, `…_ub`, `…_hangs`) and the part that does hold is kept
  as a `_partial` theorem with its conditions in the statement.

## Trusted base

1. Lean's kernel (4.33.0) and the three axioms `propext`, `Classical.choice` and
   `Quot.sound`, see the list below. No compiled code is trusted.
2. That the definitions in the `Model` files say what the C++ says. They were
   transcribed function by function from the text at the pinned commit; each
   carries a citation and names its simplifications.
3. That the specifications say what the English says. They are short and apart
   from the proofs; the mutation log shows that they are sensitive to changes.
4. Semantics of C++ as assumed: integers of the widths of an LP64 platform with
   wrap-around for unsigned ones; `char` texts as lists of characters without NUL
   where the code treats them as C strings; no data races (the code is used by one
   thread); memory allocation of the library itself succeeds.

Parameters (oracles), over which the theorems quantify: what `mmap` returns; the
page size; the kernel's socket answers (own address, blocking flag, new
descriptors); the output of `nm`; `fnmatch` and the regular expression engine;
formatting by `printf`; rounding of floating-point operations and mathematical
functions in JSON expressions; what a
test case does (a list or a tree of events), the random numbers of the shuffle.

## What is modelled, by source file

| source | modelled in | not modelled |
|---|---|---|
| assert/h2_assert, h2_timer | Matcher (OK/KO), CaseRun, Split, Typed, Timer | JE macro text |
| core/h2_case, h2_suite, h2_core | CaseRun, Runner, SuiteFn, Lifetime | that the text of the macros of cases is what SuiteFn takes it to be (FOREACH and FULLMESH are recursions on lists there; Macro justifies this) |
| core/h2_filter, h2_test | Filter | |
| core/h2_runner | Runner, CaseRun, Lifetime, Hooks, Whole (`main`), Count | time measurement |
| except/h2_exception | Catch, CaseRun, Thrown | the interception of `__cxa_throw` itself (an event of the model) |
| except/h2_crash | Memory (fault handler, C55) | printing of crashes |
| except/h2_debug | Debug | macOS: the list of processes; Windows |
| json/* | Json | - |
| matcher/* | Matcher, Str, Memcmp, Json, Typed, Ptr, Expect, Calls (own matchers and Member), Round (margins, Range, AvgOf with rounding), TypeName (TypeEq) | the choice of a matcher by type for containers and Member; `unique_ptr`, `weak_ptr`, pointers to const |
| memory/h2_piece, h2_block, h2_stack, h2_leaky, h2_memory, h2_override | Memory, Attrs, Scope | the override of `operator new` by the platform, backtraces |
| memory/h2_exempt | Memory (flag "exempt" of a call), Backtrace (which functions are exempt), Around (the functions that are replaced, and those of time) | |
| mock/* | Mock, Lifetime, MockText, Nest | template machinery for signatures |
| net/* | Sock, Dns, Inet (addresses as text and bytes) | the C library: `inet_pton`, `inet_ntop`, `atoi` are models |
| option/* | Cli | - |
| report/h2_failure | Matcher (trees), Layout, MemDiff, FailTree, Message, TextDiff, MemText, Lookup (symbols), Thrown (exceptions) | |
| report/h2_layout | Layout | |
| report/h2_report, h2_report_list | Whole (choice of the reports), Listing | |
| report/h2_report_console, h2_report_junit | Junit, Console, Amount, Screen (progress) | |
| stdio/* | Stdio, Color (h2_console), Screen | the width of the terminal is a parameter |
| stub/* | Stub, Follow (pages that are patched), Lookup (finding functions and methods) | which calls of constructors have a meaning (a parameter) |
| symbol/h2_nm, h2_load | Nm, Lookup | running `nm` |
| symbol/h2_backtrace, h2_cxa | Follow (jumps), MemText (lines of a backtrace), Backtrace (parts of a frame, comparing, printing), TypeName (names of types) | stack unwinding, demangling (a parameter), the call of addr2line |
| utils/h2_libc | Libc | |
| utils/h2_macro | Macro | the macros for debugging; `#` and white space in the preprocessor |
| utils/h2_list | Link | |
| utils/h2_shared_ptr | Shared | |
| utils/h2_diff | Diff | |
| utils/h2_pattern | Pattern | `fnmatch`, `std::regex` |
| utils/h2_line, h2_color, h2_string, h2_misc, h2_numberfy | Abbrev, Color, Layout, Str, Misc, Filter, Sock, Stringify, Printer (choosing a printer by type) | |

## Axioms each theorem depends on

Printed by `#print axioms` for every theorem named in MANIFEST.json. No theorem depends on anything but the three axioms of Lean's own library; no `sorry`, `admit`, own axiom, `native_decide`, `bv_decide` or `implemented_by` occurs in the sources.

* no axiom at all: Libc.C27_null_false, Libc.C27_huge_false, Mock.C28_maximum_false, Mock.C29_reversed_false, Dns.C43_unknown, Catch.C47_promise_total, Misc.C48_digits_decimal_false, Nm.C49_functions_unique, FailTree.C58_append, FailTree.C58_below, Lookup.C68_ten_false, Lifetime.C77_suite_setup_false, Lifetime.C77_cleanup_false, Debug.C94_name_false.
* `propext`: Memcmp.C08_unspecified, Memory.C20_large_alignment_false, Memory.C20_small_alignment_false, Memory.C20_odd_alignment_false, Memory.C23_huge_false, Memory.C23_double_free_false, Memory.C24_calloc_overflow_false, Memory.C26_failed_realloc_false, Mock.C28_optional_false, Stub.C30_order, Stub.C30_alias_false, Stub.C30_two_lists_false, Stub.C30_overlap_false, CaseRun.C37_first, CaseRun.C37_exception_hangs, CaseRun.C37_exception_lost, CaseRun.C37_global_lost, CaseRun.C37_message_lost, Dns.C43_forgotten, Catch.C47_catch_partial, Catch.C47_nothrow, Catch.C47_undefined, Catch.C47_after, Catch.C47_nested, Catch.C47_promise_unique, Matcher.C52_mixed_sign_false, Memory.C55_recorded, Mock.C56_return, Mock.C56_bare_return, FailTree.C58_assert, FailTree.C58_mock, FailTree.C58_mocks, FailTree.C58_walk, FailTree.C58_deleted, FailTree.C58_first, FailTree.C58_below_again, Backtrace.C71_same, Scope.C75_free_false, Scope.C75_cleanup_false, SuiteFn.C76_one_list, Lifetime.C77_case_cleanup_false, Lifetime.C77_enumerate_false, Nest.C90_twice_false, Nest.C90_two_false, Nest.C90_failed_false, Nest.C90_stub_inside_false, Around.C93_stub_in_sock_false, Around.C93_nested_sock_false, Around.C93_stub_malloc_false, Around.C93_stub_memory_false, Around.C93_after_unmem_false, Memory.C98_inner_false, Memory.C98_double_free_false, Memory.C98_left_false, Count.C99_case_false, Inet.C107_sender_false.
* `Quot.sound`, `propext`: Memcmp.C08_reads, Pattern.C10_wildcard, Json.Expr.C16_factorial_wraps, Memory.C24_fill, Memory.C24_calloc, Memory.C24_parse_decimal, Memory.C26_null_and_zero, Mock.C28_greed, Filter.C33_wanted, Filter.C33_cases, Filter.C33_suite, CaseRun.C37_trace, CaseRun.C37_setup_undefined, CaseRun.C37_cleanup_hangs, Filter.tags_exist, Sock.C42_ptx, Dns.C43_resolves, Dns.C43_getaddrinfo, Dns.C43_gethostbyname, Misc.C46_join_partial, Misc.C46_utf8_partial, Misc.C46_truncated_ub, Catch.C47_type_partial, Misc.C48_digits_hex_hangs, Misc.C48_hex_roundtrip_partial, Misc.C48_basefile_partial, Misc.C48_centre_partial, Nm.C49_called, Matcher.C52_int_eq_partial, Matcher.C52_comparisons_partial, Matcher.C53_array_whole_partial, Matcher.C53_pointer_prefix_partial, Matcher.C53_pointer_unsized_ub, Mock.C56_body, Mock.C56_th, FailTree.C58_case, FailTree.C58_printed, Lookup.C68_plain_untouched, Lookup.C68_second_base_false, Backtrace.C71_deep_false, Scope.C75_lookup_false, Scope.C75_nested_false, Scope.C75_left_false, Hooks.C79_called, Hooks.C79_trace, Hooks.C79_ends, Hooks.C79_case_partial, Hooks.C79_many_false, Hooks.C79_lost_false, Hooks.C79_suite_false, Hooks.C79_jump_false, Follow.C83_found, Follow.C83_reached, Follow.C83_exempted, Follow.C83_rounds_arm, Follow.C83_negative_false, Follow.C83_literal_false, Follow.C83_vector_false, Macro.C84_function, Macro.C84_several_false, Macro.C84_many_false, Macro.C84_name_false, Macro.C84_last_false, Typed.C85_truth, Around.C93_calls_partial, Around.C93_start, Around.C93_clock_false, Printer.C95_compiles, Printer.C95_two_false, Printer.C95_container_false, Printer.C95_Tostring_false, Count.C99_run, Count.C99_suite, Count.C99_case_partial, Cli.C104_aligned, Macro.C105_equal_false.
* `Classical.choice`, `Quot.sound`, `propext`: the other 690 theorems of MANIFEST.json.

## Plan and result per property

For each property: what is modelled, how it is proved, and the result. Theorem names are listed in MANIFEST.json.

* **C01 Matcher combinators are Boolean connectives** — proved (`Matcher`).
  *Modelled*: matcher trees as an inductive type evaluated with the code's configuration record (negation, caseless, ...), returning the optional failure tree.
  *Proved by*: structural induction against a Bool semantics of formulas.
  *Result*: Formulas of any depth over matchers that apply to the value; the n-ary and binary forms hold even for matchers that refuse the value.
* **C02 KO is the exact opposite of OK** — proved (`Matcher`).
  *Modelled*: `stash()` of OK/KO on an optional failure.
  *Proved by*: case analysis over the configuration record.
* **C03 Every and Has are the bounded universal and existential quantifiers** — partial (`Matcher`).
  *Modelled*: the element loops with the start/stop/step of the range and the hard-coded element limit.
  *Proved by*: induction on the container with the index as accumulator; witnesses for the two refutations.
  *Result*: Proved for every container, range and inner matcher with the built-in limit of 5413722 elements made explicit. Two parts of the English property are false of the code and refuted: elements past the limit are not examined, and the repetition count of Has leaks into a nested Has.
* **C04 ListOf accepts exactly when each listed matcher accepts the element at its offset** — proved (`Matcher`).
  *Modelled*: the same loops.
  *Proved by*: induction over the listed matchers.
* **C05 CountOf, MaxOf, MinOf and AvgOf apply the inner matcher to the true statistic** — partial (`Matcher, Round`).
  *Modelled*: statistics over exact rationals; the average once more with rounded sums and quotient (Round).
  *Proved by*: induction; the extreme element is shown to exist and be extreme; sums of multiples of one power of two are exact.
  *Result*: Proved in full with exact numbers. With the rounding of double the average is the true one rounded once for integers, halves and so on with a sum below 2^53, and the sum that is divided is within a proved bound for all; for larger sums the average may be wrong, refuted.
* **C06 MedianOf applies the inner matcher to the median** — partial (`Matcher`).
  *Modelled*: insertion sort and the index expression of the code, out-of-bounds as a distinct outcome.
  *Proved by*: sorted permutation lemma; witnesses for even counts.
  *Result*: True for odd counts; false for even counts (wrong indices, out-of-bounds read for two elements), refuted with witnesses.
* **C07 Range matches like a Python range** — partial (`Matcher, Round`).
  *Modelled*: the Range loop with fuel; divergence is "no fuel is enough"; once more with rounded additions (Round).
  *Proved by*: arithmetic-progression invariant against ∃k; additions of multiples of one power of two are exact.
  *Result*: Proved for positive steps with exact numbers, and with the rounding of double for integers, halves and so on down to 65536ths of at most 53 digits. False otherwise: with other steps the matcher hangs or rejects, Range(0, 1, 0.1) accepts 1, and from 2^53 on the loop may not advance.
* **C08 Me compares exactly the first size*width bits** — proved (`Memcmp`).
  *Modelled*: areas as lists of bytes, the bit and byte loops, the decoding of binary and hex texts.
  *Proved by*: induction on the number of bits; reading beyond an area is a distinct outcome.
  *Result*: Areas are lists of bytes; reading beyond them is a distinct outcome, so the theorems ask for areas that hold what is compared. Recorded findings: a text of 0 and 1 only is binary even if meant as hex; a blank ends a hex text; a prefix 0x makes it the byte 0; a tab is a bit 0; size*width wraps at 64 bits.
* **C09 String matchers decide the textbook relations** — partial (`Str`).
  *Modelled*: byte strings as lists; the squash state machine.
  *Proved by*: prefix/suffix/infix specifications by induction.
  *Result*: Complete for plain, CaseLess and for Se under SpaceLess. Substr/StartsWith/EndsWith squash only the actual text, so SpaceLess is proved for expected texts already squashed and refuted otherwise.
* **C10 The built-in wildcard matcher decides ?/* patterns** — proved (`Pattern`).
  *Modelled*: the single-backtrack loop with its own termination measure.
  *Proved by*: equivalence with an inductive match relation.
  *Result*: The built-in matcher (Windows/Cygwin); elsewhere the code calls fnmatch of the C library, not modelled.
* **C11 JE compares objects by key, arrays by position** — proved (`Json`).
  *Modelled*: JSON trees, `h2_json_match` as a recursive function.
  *Proved by*: mutual induction against a specification relation.
  *Result*: How the difference of two doubles is rounded, and the pattern matcher, are parameters. Findings: the number of members is compared although the actual may have more; infinities of different signs match; of repeated keys the first decides.
* **C12 JE is reflexive on ordinary JSON** — proved (`Json`).
  *Modelled*: the same.
  *Proved by*: tree induction.
  *Result*: Keys are distinct; a value with a repeated key does not match itself.
* **C13 JSON text is split into tokens without losing or merging content** — proved (`Json`).
  *Modelled*: the six-state lexer as a fold.
  *Proved by*: content preservation by induction over the text.
  *Result*: Texts of less than 2^31 characters; bytes above 127 are ordinary characters.
* **C14 The JSON parser restores every value from its text** — proved (`Json`).
  *Modelled*: recursive descent with the code's own cursor; a printer with free choice of blanks and quotes as the specification.
  *Proved by*: round trip by induction over the printed value; soundness of every accepting parse.
  *Result*: The value of numbers is that of C16. The escapes \/ and \u are not supported by the code and not part of the texts. Findings: an escaped backslash before b, f, n, r or t is misread; a lone quote or slash makes the parser throw; a trailing comma is accepted; the empty text is well formed.
* **C15 The JSON selector follows keys and indices, negative from the end** — proved (`Json`).
  *Modelled*: path splitting and `select`, null dereference as an outcome.
  *Proved by*: induction over the path.
  *Result*: Indices within int. Finding: selecting through a missing inner component calls a member function through a null pointer (C15_undefined says exactly when).
* **C16 Arithmetic in JSON follows the documented precedence** — proved (`Json.Expr`).
  *Modelled*: the tinyexpr recursive descent and evaluation over an abstract arithmetic structure.
  *Proved by*: grammar derivations: completeness and soundness, unambiguity.
  *Result*: What the C library computes and rounding are parameters; strtod is modelled on decimal and hexadecimal literals. As the grammar in the source has it, signs bind before ^ and ^ is left-associative. Finding: factorials and permutations are multiplied with 64 bits, so 21! is wrong.
* **C17 JSON diff pairs up every member once and keeps the two sides aligned** — proved (`Json.Dual`).
  *Modelled*: the pairing loop and rendering of both sides.
  *Proved by*: invariants over the pairing; permutation of members.
  *Result*: How numbers are printed and how similar two nodes are scored (a double) are parameters; less than 2^31 children. The actual side may be in another order, even inside an array that is compared with an object.
* **C18 The string diff marks a longest common subsequence** — proved (`Diff`).
  *Modelled*: the table and trace-back of the LCS.
  *Proved by*: optimality by induction over the table.
  *Result*: For any comparison of elements; lengths below 2^24 (bit-field of the code).
* **C19 The similarity score is one minus edit distance** — proved (`Diff`).
  *Modelled*: the row recurrence.
  *Proved by*: equality with the least cost of an edit script.
  *Result*: The score is documented as 0..1 but reaches -1, refuted beside the proof of the property.
* **C20 Every allocation lies inside its own mapping, ends at the guard page and is aligned** — partial (`Memory`).
  *Modelled*: the arithmetic of the piece constructor.
  *Proved by*: modular arithmetic over Nat for all sizes, alignments and page sizes.
  *Result*: Inside its own mapping: always. Aligned and close to the guard page: for powers of two from 8 up to the page size; refuted for others.
* **C21 A block reports a leak exactly when something is still allocated** — proved (`Memory`).
  *Modelled*: stack of blocks and pieces, every allocating function.
  *Proved by*: refinement to a ledger, invariant over all histories.
  *Result*: Blocks created with noleak never report.
* **C22 Double and mismatched frees are always reported, matched single frees never** — proved (`Memory`).
  *Modelled*: the same machine.
  *Proved by*: the same refinement.
  *Result*: As in the code, exempt call sites are not checked for asymmetry.
* **C23 BLOCK(limit=n) injects failure exactly when the limit would be exceeded** — partial (`Memory`).
  *Modelled*: the same machine with 64-bit wrap-around.
  *Proved by*: invariant over histories; witnesses for the two refutations.
  *Result*: Requests below 2^63 in histories without double frees; refuted otherwise (wrap-around, double subtraction).
* **C24 BLOCK(fill=...) initialises the whole area with the repeated pattern** — proved (`Memory`).
  *Modelled*: the fill loops and the parsing of the attribute.
  *Proved by*: induction over the area.
  *Result*: calloc products below 2^64; the overflowing product is refuted.
* **C25 Writes just outside an allocation are detected at free** — proved (`Memory`).
  *Modelled*: the patterns around an area.
  *Proved by*: pointwise characterisation of the check.
* **C26 realloc preserves the common prefix** — proved (`Memory`).
  *Modelled*: realloc on contents.
  *Proved by*: case analysis with the content invariant.
  *Result*: Linux behaviour (macOS turns size zero into one). A failing realloc frees the old area, unlike the C library.
* **C27 The internal allocator never hands out overlapping memory** — proved (`Libc`).
  *Modelled*: the free list of (address, size) blocks, first fit, splitting, merging.
  *Proved by*: disjointness and conservation invariants over histories.
  *Result*: Requests below 2^62 bytes. Findings: requests just below a multiple of 4 MB get a null pointer; sizes within 17 of 2^64 wrap.
* **C28 Mock expectations are consumed in order** — proved (`Mock`).
  *Modelled*: expectation list and the scan of a call.
  *Proved by*: exact characterisation of the scan, then invariants over call sequences and equivalence with in-order hand-outs.
  *Result*: The scan is characterised exactly. Passing is equivalent to an in-order hand-out for exact counts and for disjoint matchers; with overlapping optional expectations it is only sufficient (C28_optional_false).
* **C29 At the end of a case an expectation passes exactly when its count is in its bounds** — proved (`Mock`).
  *Modelled*: the check at the end.
  *Proved by*: the same invariants.
  *Result*: Histories shorter than 2^31 calls; bounds the right way round (Between(3,1) accepts one call).
* **C30 All original functions are restored when a case ends** — partial (`Stub`).
  *Modelled*: code memory as a function from addresses to bytes; stubs with saved bytes.
  *Proved by*: invariant over histories (saved bytes are the original ones); witnesses for the refutations.
  *Result*: Proved for functions at least 12 bytes apart; functions already stubbed outside the case must be unstubbed newest first. Refuted without these conditions (stale saved bytes, overlapping patches).
* **C31 A stubbed function jumps to its fake** — proved (`Stub`).
  *Modelled*: the byte encoder of the jump over 64-bit words; a small decoder of x86-64/arm64 as specification.
  *Proved by*: bit-vector arithmetic without any bound on addresses.
  *Result*: x86-64 and arm64; every pair of 64-bit addresses. Line 38 of h2_e9.cpp stores 8 bytes into 4 (undefined behaviour on LP64), modelled by the 4 that matter.
* **C32 Every case falls in exactly one outcome bucket** — proved (`Runner`).
  *Modelled*: suites and cases as lists, the run loop, all counters.
  *Proved by*: induction over rounds, suites and cases.
  *Result*: Whether a case fails or warns is an oracle depending on everything reported so far. With -l nothing is counted as passed, failed or warned.
* **C33 Filtering selects a case exactly when an include matches and no exclude matches** — proved (`Filter`).
  *Modelled*: `h2_filter` decisions and their use.
  *Proved by*: decision logic stated outright.
  *Result*: For any wildcard matcher; instantiated with the built-in one (fnmatch of the C library is not modelled). Finding: a suite whose cases are all filtered is not marked itself when its own description is not rejected.
* **C34 Shuffling only permutes and sorting options sort** — proved (`Runner`).
  *Modelled*: the sorting and shuffling of lists.
  *Proved by*: stable-sort lemma; permutation.
  *Result*: For a start without a record of an earlier failed run (with one, that order wins: C36).
* **C35 -b n stops after n failing cases and exit code reflects failures** — proved (`Runner`).
  *Modelled*: the break test, the exit code.
  *Proved by*: induction over the run.
  *Result*: Finding: 256 failures give exit status 0 (C35_status_false).
* **C36 The last-failed record restores order and selection** — proved (`Runner`).
  *Modelled*: writing, reading and applying the record, character by character.
  *Proved by*: text round trip, then list reordering.
  *Result*: End to end over two processes, one round each, through the text of the record file. Findings: a listing run or any run without failures deletes the record; a record is not refreshed by a further failing run (C36_stale); longer names are misread.
* **C37 A case fails exactly when some check fails** — proved (`CaseRun`).
  *Modelled*: the case protocol: setjmp/longjmp as jumps of a small machine with fuel.
  *Proved by*: exact trace and account of every ending run; witnesses for the findings.
  *Result*: C37_account holds of every run that comes to its end; C37_trace gives the run itself when Setup, Cleanup and the global functions raise nothing that ends them and no exception leaves a case of a suite with Cleanup. The findings show what happens otherwise.
* **C38 Descriptions split into name and tags** — proved (`Filter`).
  *Modelled*: the description splitter.
  *Proved by*: round trip with a specification of descriptions.
  *Result*: Descriptions of 512 characters or more overrun the buffers. Blanks before the bracket stay in the name; tags beyond 63 are dropped.
* **C39 Command line options mean what the manual says** — proved (`Cli`).
  *Modelled*: the getopt-like cursor machine and every option.
  *Proved by*: total characterisation of the outcome for every command line.
  *Result*: Numbers below 2^31 and keys below 64 characters. Findings: the documented -W double_free is rejected; a bare -F sets 0 although the usage text says max; a command line of 256 characters overruns a buffer.
* **C40 Intrusive lists behave like sequences** — proved (`Link`).
  *Modelled*: a heap of next/prev pointers.
  *Proved by*: refinement to sequences over histories of operations.
  *Result*: Pointer-level model; histories over any number of lists and nodes.
* **C41 Shared objects are destroyed exactly once, when the last owner goes** — proved (`Shared`).
  *Modelled*: pointers with a shared count; destruction recorded in a ghost history.
  *Proved by*: invariant over histories.
  *Result*: Histories of construct, copy, assign (including self-assignment), reset and destroy over any number of pointers.
* **C42 SOCK delivers injected packets in order and records sent ones in order** — proved (`Sock`).
  *Modelled*: the socket substitution: packets, sockets, every call.
  *Proved by*: invariants over histories with ghost packet ids.
  *Result*: What the operating system says (own address of a socket, blocking, new descriptors) comes with each call of the history. Findings: a packet longer than the buffer overruns it; accept/connect move their packet to the front, past packets for other sockets; a reused descriptor keeps its first addresses.
* **C43 DNS returns the newest matching entry and forgets a case's entries at its end** — proved (`Dns`).
  *Modelled*: entries, lookup functions, end of case.
  *Proved by*: invariant over histories.
  *Result*: inet_pton is a parameter. Findings: more than 32 results overrun the static arrays and exactly 32 addresses leave the array unterminated; names of one letter give way to later ones; what is set outside of cases belongs to the case that ran last.
* **C44 COUT captures exactly what is written inside the block** — proved (`Stdio`).
  *Modelled*: the capture flags and every output function.
  *Proved by*: induction over histories.
  *Result*: Formatting is a parameter (texts come formatted). Findings: a nested COUT ends the outer capture; fwrite returns bytes, not items.
* **C45 Line wrapping preserves text and fits the width** — proved (`Layout`).
  *Modelled*: line breaking, columns, titles over width-annotated characters.
  *Proved by*: measure induction on the breaking loop.
  *Result*: Words are texts of characters (C46 connects them with bytes). A character two columns wide on a line of one column makes the program throw: C45_too_wide says exactly when. The style of a character is the control word before it; how + and - styles accumulate is not part of it.
* **C46 UTF-8 text splits into characters without loss** — partial (`Misc`).
  *Modelled*: UTF-8 splitting over bytes with the terminator explicit.
  *Proved by*: induction over encoded texts.
  *Result*: Proved for every UTF-8 text; a truncated multi-byte character at the end makes the code read past the terminator (refuted).
* **C47 Catch reports exactly the promised mismatch** — partial (`Catch`).
  *Modelled*: programs that throw and catch; the Catch macro.
  *Proved by*: induction over programs.
  *Result*: The full statement is false: for a class derived from std::exception, Catch(T) calls what() on a null pointer when nothing is thrown, and on an object of another kind when something else is (C47_undefined). Proved for all other cases. Findings: a Catch inside of another ends the outer one (C47_nested); exceptions handled inside of the block count as thrown; destructors of the block are not run (longjmp); only the exact type is accepted, not derived ones.
* **C48 Numeric helpers round correctly** — partial (`Misc`).
  *Modelled*: 32/64-bit arithmetic of the helpers.
  *Proved by*: modular arithmetic.
  *Result*: Digit counting is wrong or never ends for numbers close to 2^64 (refuted); everything else holds on the stated domains.
* **C49 Function lookup by name finds exactly the matching symbols** — proved (`Nm`).
  *Modelled*: the symbol table and its lookups.
  *Proved by*: index arithmetic on names; exact characterisation.
  *Result*: The output of nm is a parameter. Findings: symbols are cut after 127 characters; functions in anonymous namespaces are not found by their own name (C49_anonymous); a symbol beginning with a single colon makes the lookup read one byte before the name.
* **C50 Floating comparisons use the stated margin** — partial (`Matcher, Round`).
  *Modelled*: exact rationals (Matcher), and once more with every operation rounded to nearest with 53 or 64 digits (Round; shown to be nearest).
  *Proved by*: decision logic; witnesses for the encoding limits; relative errors of each operation added up.
  *Result*: Proved with exact numbers, and with the rounding of double and long double up to one part in 2^51 and a margin smaller by 1e-14, for margins below the limits of the encoding. Otherwise it is false: Eq(0.0, 0.1) rejects 0.1 and Eq(0.0, 0.29) rejects 0.29, margins below 1e-14 are taken for 0, 0% for 0.00001, and margins from 174467.44 and 10000% wrap around.
* **C51 Report lists count each suite, case, todo and tag once** — proved (`Listing`).
  *Modelled*: the list report.
  *Proved by*: induction over the visited tree.
  *Result*: Findings: with several rounds (-r) every round is listed again; tags beyond 1024 are dropped.
* **C52 Integer Eq and the comparison forms of OK decide the arithmetic relations** — partial (`Matcher`).
  *Modelled*: integers of every width and signedness converted as C++ does.
  *Proved by*: case analysis over conversions.
  *Result*: Same signedness, without the types of the numbers (C85 has them); across signedness the comparison is modulo 2^64, refuted by a witness.
* **C53 Container matchers on native arrays and pointers see exactly the selected elements** — partial (`Matcher`).
  *Modelled*: arrays and pointers as value lists with the range.
  *Proved by*: induction; out-of-bounds as an outcome.
  *Result*: True for arrays and pointers with a range from zero; false for pointer ranges with another start.
* **C54 A failed AllOf/AnyOf/NoneOf/ListOf names exactly the members to blame** — proved (`Matcher`).
  *Modelled*: failure trees of the combinators.
  *Proved by*: induction over the operands.
* **C55 Access to released memory and writes past the end are reported when the block ends** — proved (`Memory`).
  *Modelled*: accessibility of pages and the fault handler.
  *Proved by*: invariant over histories.
  *Result*: POSIX fault handler.
* **C56 A mocked call runs the reaction of the expectation it is charged to** — proved (`Mock`).
  *Modelled*: the reply of a mocked call.
  *Proved by*: the invariants of C28.
* **C57 A failed memory comparison shows every compared unit of both areas, coloured exactly where they differ** — proved (`MemDiff`).
  *Modelled*: the bit and number loops, the styles of the words, the table.
  *Proved by*: a segment calculus for what a line shows; the rows are the chunks of the list of units; C45 for the table.
  *Result*: Less than 16^15 units, and a console at least ten columns wider than the number of the last row. Finding: areas compared in units of a width other than 1, 8, 16, 32 and 64 bits are not shown at all (C57_other_width).
* **C58 All failures of a case are shown, in order, below what they explain** — proved (`FailTree`).
  *Modelled*: pointers to failures as the values reached through them; append, walk, delete, stash, the mock checks, h2_case::failing.
  *Proved by*: a relation between chains and ordered trees; induction over chains and over the failures a case is told of.
  *Result*: C58_below_again: putting failures below a failure that has explanations already would nest them further; no caller does so.
* **C59 A failed comparison names its operands as written** — partial (`Split`).
  *Modelled*: the three search loops and the stripping.
  *Proved by*: induction along the grammar of operands (plain characters, string literals, bracket pairs), forwards and backwards.
  *Result*: The full statement is false (C59_refuted): an arrow is taken for the operator > or hides <, a shift hides >, an escaped quotation mark or one as a character hides the operator. Proved: nothing is lost for any text; the operands are named when the operator does not occur in the left one outside of string literals (two-character operators), when the angle brackets of the left (>) or right (<) one are balanced.
* **C60 Long texts are shortened, short ones are shown completely** — partial (`Abbrev`).
  *Modelled*: the loops of abbreviate and gray_quote over words and characters, size_t subtraction modulo 2^64.
  *Proved by*: flattening to one pass over the characters; case analysis by column.
  *Result*: The full statement is false: the dots are left out when a character of two columns stands in their column (C60_silent); a width less than the tail plus three cuts nothing (C60_no_window); an escape character in the text can make what follows vanish (C60_escape_character). Everything else is proved for all lines, widths and tails; the mark for texts of one-column characters.
* **C61 Colours do not change what is written and apply to what they enclose** — partial (`Color`).
  *Modelled*: the array of styles, parsing of style words, what is written.
  *Proved by*: a terminal as specification; the array is a stack for nested parts; induction over the nesting.
  *Result*: The full statement is false: a part in a colour of its own ends the styles around it (C61_inner_color), a style nested in itself ends too early (C61_same_style), a ninth style is dropped (C61_ninth), styles that are not nested can change order (C61_order). Proved: the text is never changed; proper nestings look as they should.
* **C62 The JUnit report tells what happened** — partial (`Junit`).
  *Modelled*: what is written at each callback of the runner model, to the character.
  *Proved by*: an XML reader as specification; tags and elements compose; induction over rounds; names are kept by shuffling and running.
  *Result*: The full statement is false: special characters are not escaped (C62_special); failures and skipped are always 0, being written when the suite starts (C62_counts_zero); the failures are not shown, print(FILE*) being empty for every kind (C62_no_messages); an ignored case shows a failure if it failed in an earlier round (C62_stale); a case left out for two reasons is counted for one and reported for the other (C62_two_reasons). Proved for names without < & and quotation marks: the document is readable, with one element per suite and case, names, number of cases, and status; a failure is shown for cases that ran just when they failed.
* **C63 The console tells what happened** — partial (`Console`).
  *Modelled*: what is printed at each callback of the runner model, to the character for the case and last lines.
  *Proved by*: lines expected for each event as specification; induction over cases, suites and rounds; the last line is cut into words and read back.
  *Result*: All parts but one are proved for all suites, orders, rounds, outcomes and verbosities. With several rounds the percentage exceeds 100 (C63_percentage_rounds), because cases are counted once but visits in every round; for one round it is right. The line about a suite (verbosity 9) and the text of durations and volumes are in C91.
* **C64 The line about a failed assertion tells what was expected and what was found** — partial (`Message`).
  *Modelled*: h2_fail_unexpect::print with all its parts, the synonyms, what h2_fail_json and h2_cout make of it.
  *Proved by*: the text of each part, by the theorems about shortening and dimming; case analysis.
  *Result*: Proved for OK and KO and for failures within others, for all texts without escape characters. False of the code: a failed JE with a short document shows neither document (C64_json_hidden); a failed COUT shows neither the expected text nor the output (C64_cout); failures of NoneOf, and of Me without a size, drop the message of the user (C64_normal); printed again, a failure has a comma more (C64_twice).
* **C65 Two texts that differ are shown with their differences** — partial (`TextDiff`).
  *Modelled*: fmt_char, the two lines of marked characters, titles, unified and seperate, writing the lines one by one with the styles in force.
  *Proved by*: styles that depend on the last style word only survive breaking; composition of the theorems about common subsequences (C18), breaking (C45) and the terminal (C61).
  *Result*: Proved for all texts without escape characters, down to what a terminal shows, with one exception: with colours a blank is a small dark dot whether in common or not, so that texts that differ in blanks only show no difference (C65_blank).
* **C66 What is printed about a memory failure is what happened** — partial (`MemText`).
  *Modelled*: MemText/Model: the print functions of the five kinds of memory failures as lists of words, with 64-bit and 32-bit conversions of distances; the backtraces are lists of names given from outside
  *Proved by*: MemText/Spec gives the plain text in terms of the history of areas (Memory/Spec); the leaks of a block are shown to be one group per call site by induction over its pieces; the texts follow word by word
  *Result*: Proved for every history of the checked heap. Missing: distances of 2 GiB and more are told wrong, since they are printed as 32-bit integers; C66_after_free_far is a released area of three gigabytes read in its middle, reported as an access before it. Whether the access is called a read or a write is C55. The names of the frames are inputs.
* **C67 A name stands for one function, or nothing is stubbed** — partial (`Lookup`).
  *Modelled*: Lookup/Model: h2_fp<>::get of a text, h2_load with its remembered offsets, h2_fail_symbol::print, and STUB and UNSTUB on top of the model of stubs; the symbol table is that of Nm
  *Proved by*: an invariant of all histories (the offsets are unset or right), then the theorems about names (C49) and stubs (C30, C31).
  *Result*: Proved for all symbol tables, load addresses, names and histories. Missing: outside a case (a global setup, say) nothing is told when the name stands for no function or for several (C67_silent). The output of nm is an input.
* **C68 A method stands for the function that a call would run** — partial (`Lookup`).
  *Modelled*: Lookup/Model: get1 and get2 on a memory of words, with pointers to members as the C++ ABI has them; Lookup/Making: the choice of a constructor
  *Proved by*: arithmetic of the tagged offset, the invariant of C67, and the theorem about mangled names (C49).
  *Result*: Proved for methods of the first (or only) base and at most 1000 virtual methods (100 on ARM). False of the code otherwise: the pointer to a later method is taken for an address (C68_many_false); a method inherited from another base than the first is looked for in the first table (C68_second_base_false); with a symbol for the type only, a word behind the type is taken for the function (C68_typeinfo); a table nm lists as data is not found (C68_data_false).
* **C69 Values are printed so that different values look different** — partial (`Stringify`).
  *Modelled*: Stringify/Model: values as trees, h2_stringify_impl for each kind, std::to_string of integers and of rationals rounded to six decimals, trimming
  *Proved by*: Stringify/Spec says how a value looks and which values are whole; the print of a value of a type followed by a comma or a closing bracket is shown to determine the value, by induction over types.
  *Result*: Proved for all types of values and any nesting under the stated conditions. Without them it is false of the code: numbers less than a millionth apart look alike (C69_alike_numbers_false), so do containers of more than 100 elements (C69_large_false), texts with quotation marks in containers (C69_quote_false), texts that differ behind a character 0 (C69_nul_false) and wide characters (C69_wide_false). User-defined printing (operator<<, tostring) is an input text.
* **C70 Exactly the memory allocated by exempted functions is left out of leak checks and limits** — partial (`Backtrace`).
  *Modelled*: Backtrace/Model: the scanf patterns that take the description of a frame apart, the list of exempted functions in its fixed array, following jumps, the look into the callers; the names as in C67
  *Proved by*: extract is shown to give name and start of every description that backtrace_symbols makes; the array holds the functions named, in order, by induction on the history; both together with the model of blocks (C01).
  *Result*: Proved for up to 4095 functions named, and callers among the innermost hundred frames that the system can describe. Otherwise it is false of the code: further functions are ignored (C70_full_false), callers behind the hundredth frame are not seen (C70_deep_false), nor are functions that are not exported (C70_hidden_false), and naming a stubbed function exempts its substitute (C70_stubbed_false).
* **C71 A call stack is printed in order, from the call up to main, and call sites are told apart by it** — partial (`Backtrace`).
  *Modelled*: Backtrace/Model: dump, operator== and print
  *Proved by*: induction on the frames; Backtrace/Spec says what is told of a frame.
  *Result*: Proved for the innermost hundred frames. Frames behind are neither printed nor compared, so that two call sites may be taken for one (C71_deep_false).
* **C72 Je with a selector compares with the part it leads to** — partial (`Json.Je`).
  *Modelled*: Json/Je: format of a tree (folded or not) and its text, selection, the verdict of the matcher
  *Proved by*: the text is shown not to depend on folding and to be one of the texts of the value (Text of SyntaxSpec), which C14 reads back; C15 tells where the selector leads and C11 what is accepted.
  *Result*: Proved for selected values whose texts have no quotation mark and no backslash, whose keys are not empty and whose numbers survive six decimals; without selector for all. Otherwise it is false of the code, because the selected value is written without escapes: C72_key_false, C72_quote_false, C72_backslash_false, C72_large_false; a missing inner step is undefined behaviour (C72_undefined).
* **C73 JSON printed for use in a program is a string literal of the same value** — partial (`Json.Je`).
  *Modelled*: Json/Dump: the lines of a value with quotation marks, padding and backslashes, and how they are printed; string literals of C in DumpSpec
  *Proved by*: the words that are not blank do not depend on layout; any text with these words and any blanks between them is a text of the value (Text of SyntaxSpec), and the words of the source mean the words of the value.
  *Result*: Proved for the quotation marks \" and ', and values whose texts have no quotation marks, backslashes and new lines and whose numbers survive six decimals. It is false of the code otherwise: with plain double quotation marks no string is printed as a literal (C73_double_false), backslashes and new lines are not escaped (C73_backslash_false, C73_newline_false).
* **C74 A block has the attributes that are written for it** — partial (`Attrs`).
  *Modelled*: Attrs: the constructor of the attributes on the text of the arguments, with strtod, strtoull, hex2bytes; a separate grammar of attribute lists
  *Proved by*: the search for a key passes every other attribute, since no key is inside of another, the second letter of every key is no character of a value, and names end before a character that is no letter; then the value is read by the lemmas on literals (C13), digits and hexadecimal bytes.
  *Result*: Proved for all lists of the documented attributes with values that fit (fills up to 32 bytes, numbers that fit into 64 bits after rounding to double). It is false of the code otherwise: flags cannot be given the value false (C74_flag_false), words that contain a key are taken for it (C74_word_false), longer fills overrun their place (C74_long_fill_false), the largest limit is undefined (C74_largest_false).
* **C75 Memory belongs to the block or case in which it is allocated** — partial (`Scope`).
  *Modelled*: Scope: the hook, the stack of blocks and the jumps, for programs with nested blocks; the meaning of blocks as a separate function on the structure of programs
  *Proved by*: induction on programs: what the machine with its flag and stack does is what the structure says, until the first message or with -c to the end.
  *Result*: Proved for all programs in which unmem blocks contain no lookups (call stacks, symbols, regular expressions) and no further unmem blocks and free only what was allocated in them, and for cases in which no assertion fails inside of a block. It is false of the code otherwise: lookups and nested unmem blocks switch tracking on (C75_lookup_false, C75_nested_false), foreign memory freed in an unmem block goes to the C library (C75_free_false), the jump of a failing assertion does not end its block (C75_left_false) and leaves tracking off in Cleanup (C75_cleanup_false).
* **C76 Every value of a Cases, and every pair of a Casess, is one test with exactly that value** — partial (`SuiteFn`).
  *Modelled*: SuiteFn: the suite function as a machine on the sequence of its items with case_, cleanup_hole and the static variables; FOREACH and FULLMESH as recursions; the declared tests as a separate comprehension
  *Proved by*: items that do not declare the test are passed over with a known effect (induction on the sequence); the door opens for exactly the index of the test, since indices differ; an invariant over all calls fixes what is registered; names after the tags are cut: the label before the value is passed over by the scan for brackets, and labels are told apart by their point.
  *Result*: The tests found, their order and their names are proved for all suites. That a run executes exactly the one test with its values is proved for suites without Cleanup whose lists have values of one type, and for a Case behind a Cleanup. It is false of the code otherwise: a Cases or Casess behind a Cleanup is repeated for ever (C76_cleanup_false), a Cleanup behind the test is a jump into a frame that is gone (C76_late_false), all values are converted to the type of the first (C76_convert_false), a value written with brackets loses them to the tags (C76_bracket_false), and from the thirty-fourth value on names have no number (C76_number_false).
* **C77 Stubs and mocks last as long as the code they are made in** — partial (`Lifetime`).
  *Modelled*: Lifetime: the runner with current_suite and current_case, the lists of stubs and mocks of runner, suites and cases, and the code every function executes; what a sequence of statements means as a separate function that looks at the last statement about a function
  *Proved by*: an invariant for the owner of the statements (its entries saved what was before, functions without entry are as before) gives the undoing of a case; induction over cases, suites and rounds gives the history.
  *Result*: That a case undoes what it did is proved for every case in every state. The history of the whole run is proved for programs whose suite setup, suite cleanup and case cleanup functions neither stub nor mock, and the end for those whose global cleanup does not either. It is false of the code otherwise: current_case stays at a case that has ended, so that what these functions stub goes to its list and stays (C77_suite_setup_false, C77_case_cleanup_false, C77_cleanup_false). Stubs of a suite outside of blocks are in force in all suites (C77_enumerate_false). Code of users is a sequence of stubs and mocks; how a function is patched is C30 and C31.
* **C78 What is said about mocks is what happened** — partial (`MockText`).
  *Modelled*: MockText: the lines of h2_checkin and h2_mocker as lists of words with styles, the trees of failures of FailTree and their printing of Message; phrases with their meaning as a separate inductive definition
  *Proved by*: the phrases are cut into words and numbers and compared, so that a phrase has one meaning; the tree at the end of a case is the list of unmet expectations; what is seen and what is shown in a style is computed word by word
  *Result*: Proved for all mocks whose names have no escape character, whose least count is not above the most, at the end of a case, at a call no expectation is for and at arguments that do not match. False of the code: failures below the first one about an argument mark the type at the position of an element (C78_child_false), and from the 21st expectation on positions are not English (C78_ordinal_false).
* **C79 Global setups and cleanups are called when they should be** — partial (`Hooks`).
  *Modelled*: Hooks: the arrays of functions, the loops of main and enumerate, current_case, and failing outside of a case, with undefined jumps as an outcome; the calls there should be as a separate comprehension
  *Proved by*: what every loop adds to the trace by induction, put together; an array filled by appends is a prefix of what was appended
  *Result*: When the functions are called is proved for fewer than 1024 functions of a kind; the 1024th is never called (C79_many_false). That a failing check is a failure of its case is proved with -c for the setups and cleanups of cases. It is false otherwise: a failing check in a GlobalSetup is lost (C79_lost_false), one in a later GlobalSuiteSetup is reported for a case that has ended (C79_suite_false), and without -c it is a jump to a buffer that is not valid, also in GlobalCaseSetup (C79_jump_false).
* **C80 An address of a socket is the same address as text** — proved (`Addr`).
  *Modelled*: Addr: iport_parse and iport_tostring over a structure with bytes in memory, with inet_pton as the state machine of the C library and atoi with its limits; the numbers people write as a separate structure
  *Proved by*: numerals are read digit by digit by induction on their value; the state machine accepts exactly four numbers by an invariant on what was read; histories of calls through C42
  *Result*: Texts that are no address are read silently: the bytes of the address are then left as they were (C80_stale) and a port from 65536 on is another port (C80_port_false). inet_pton, inet_ntop and atoi are modelled as in the C library.
* **C81 A missing JSON member is shown beside the additional one most like it** — partial (`Json.Dual`).
  *Modelled*: Json/Sim: similarity of nodes as a recursion over both trees, every operation rounded to double (Round), used as the score of the comparison of Json/Dual; likeness of names by the edit distance of C19
  *Proved by*: the loop of search by induction; what is left after the members with the same keys are taken away, by induction over the expected ones; a value is most like itself by induction on trees, the recurrence and rounding being monotone (Round/Order); different ratios of short names stay apart by more than the rounding errors; the row of a pair from C17
  *Result*: Proved with the rounding of double in every operation, for objects whose other expected members are all there, names of less than 2^20 characters together and values whose likeness with themselves is at most 1000; in longer values the likeness of the names is lost by rounding (C81_absorbed_false). It is false of the code that a value like the missing one is preferred when it is a number, true or false: all of them are equally like (C81_number_false, C81_bool_false). The likeness is not from 0 to 1 but grows with the number of elements (C81_range_false), so that elements outweigh names (C81_weight_false).
* **C82 Colours in a JSON comparison tell what differs** — partial (`Json.Dual`).
  *Modelled*: Json/Dual (already modelled: head lines, styles, folding); a small specification of marked and plain lines
  *Proved by*: marks survive folding and alignment; by induction over both trees a pair that does not match has a marked word inside; by induction a pair that matches has pairs inside that match or have nothing expected
  *Result*: Proved for all trees with different keys in every object; that a difference is coloured, for trees with nothing empty in them. The rest is false of the code: brackets are never coloured, so that [] and {} differ without a colour (C82_empty_false); an object with a key that is there twice does not match itself, without a colour (C82_twice_false); a missing member with an empty key is folded away without a colour (C82_nameless_false).
* **C83 A function is found behind the jumps that lead to it** — partial (`Follow`).
  *Modelled*: Follow: memory as a function from addresses to bytes; the rounds of follow_jmp for both processors, with the bit operations on the instructions; the pages that are opened before patching. The specification is a single-step semantics of the few instructions involved
  *Proved by*: induction over the chain of jumps; masks and shifts as division and remainder; the processor is stepped through the instructions and arrives at the address that was computed
  *Result*: Proved on x86_64 for all jumps the code knows. On arm64 it is proved for displacements that are not negative and false of the code otherwise: the sign is extended to the wrong bits (C83_negative_false) or not at all (C83_literal_false), and an instruction that loads a vector register is taken for one that loads the register of the jump (C83_vector_false).
* **C84 Macros with a variable number of arguments choose the form for what is written** — partial (`Macro`).
  *Modelled*: Macro: the preprocessor as a function on tokens by the rules of the standard (arguments are replaced first, the result is scanned again, a macro is not replaced inside its own replacement), and a table of the macros generated from the two headers; the text that comes out is what is reached with enough steps
  *Proved by*: a derived rule for each kind of step; ranks of the macros show that none is met inside its own replacement; a lemma for each macro of the library, by cases on the parts of the list; the rounds of EVAL by induction; the recursion over a list as a number of rounds that is below that of EVAL
  *Result*: Proved about a model of the preprocessor and a table of the macros generated from the headers, for up to 63 arguments without names of macros left in them, and numbers of elements up to 33. The rest is false of the code: several arguments without parentheses around them (C84_several_false), more arguments than can be counted (C84_many_false), an argument that is the name of a macro with arguments (C84_name_false), an empty last element (C84_last_false), the number of the 34th element (C84_index_false).
* **C85 Numbers of different types are compared by their values** — partial (`Typed`).
  *Modelled*: Typed: the arithmetic types of C++ with their conversions, promotions and usual arithmetic conversions; the choice among the templates of matchers as a function of the types; floating values as rationals, infinities and NaN with rounding as a parameter
  *Proved by*: case analysis over the types with linear arithmetic modulo powers of two; negation by induction over matchers
  *Result*: Proved for all pairs of types as far as it is true, with what happens otherwise. The rest is false of the code: an expected number is first converted to the type of the actual one, so OK(300, c) passes for an unsigned char 44 (C85_narrow_false), OK(3.7, 3) passes (C85_fraction_false), and OK(300 == c) and OK(300 != c) both fail (C85_neither_false); numbers of different sign are compared modulo 2^64 or as the compiler converts them (C85_eq_false, C85_order_false); OK(true == 5) passes (C85_bool_false); a matcher in a variable of type h2_matcher<int> drops the fraction of what it is given (C85_held_false); infinity does not equal infinity (C85_infinity_false).
* **C86 Matchers defined by a user, and IsEven, IsOdd, IsDivable, IsInteger and IsNaN, decide what they say** — partial (`Typed`).
  *Modelled*: Typed: the remainder with its conversions and undefined cases; a matcher of the user is its body; Typed/Explain: the failure from the matcher through the assertion to the line of C64
  *Proved by*: divisibility of the converted numbers; the line is that of C64
  *Result*: IsEven, IsOdd, IsNaN and the verdicts of matchers of the user are proved completely; the rest as far as it is true. False of the code: IsDivable(3u) does not accept -3 (C86_divable_false) and has undefined behaviour with 0 (C86_divable_ub_false); IsInteger accepts infinity (C86_integer_false); the message of a matcher of the user is overwritten by the assertion and never printed by OK(matcher, a), only inside AllOf and the like (C86_message_false, C86_message_partial).
* **C87 PF fails exactly when the block takes more than the time that is allowed** — partial (`Timer`).
  *Modelled*: Timer: the loop of PF with its counter, the ways to leave a block, the clock in ticks
  *Proved by*: evaluation of the loop; order of rationals
  *Result*: Proved for every way to leave the block but a failed assertion, which leaves it without looking at the clock (C87_jumps_false). The text says "expect < 5 ms, but actually cost 5 ms" for 5.001 ms while 5 ms pass (C87_text_false).
* **C88 Texts, pointers and integers compared with one another decide what they say** — partial (`Ptr`).
  *Modelled*: Ptr: values with their types (nullptr, char*, std::string, raw and shared pointers, integers); the choice among the templates of h2_equation and the conversions of h2_matcher_cast as functions of the types
  *Proved by*: case analysis over the pairs of types; negation by induction over matchers
  *Result*: False of the code in four cases: a null char* is equal to the text "(null)" (C88_null_actual_false); a null char* expected of a std::string is undefined behaviour (C88_null_string_false); two char* are ordered by address (C88_order_false); what follows a NUL in a std::string is not compared by *Eq (C88_spaceless_false). Everything else is proved.
* **C89 The text of an expectation says what the matcher checks** — partial (`Expect`).
  *Modelled*: Expect: matchers as a tree; what they accept and the line of words they write; Spec: a lexer and a recursive-descent reader with its own meaning
  *Proved by*: levels of the grammar proved to compose; mutual induction over matchers; more steps of the reader change nothing, so a reading is unique
  *Result*: Proved for all nestings of matchers of numbers, texts and containers with negations, ~ and *, but for seven kinds, where it is false of the code: AllOf(Nq(3)) is written "AllOf(3)" (C89_value_false); Not(Pair(Eq(1), Eq(2))) is written "!(≠1, ≠2)" (C89_pair_false), and Not(Every(Eq(1), Eq(2))) "!Every(≠1, ≠2)" (C89_every_false); ~AllOf("Abc") is written without ~ (C89_text_false), and so is ~Has(Se("A")) (C89_caseless_false); *Substr("a  b") does not ignore the blanks of its own text (C89_squash_false); a quotation mark in a text is not marked (C89_quote_false). times and ranges are in C108; what wildcards and regular expressions mean is a parameter here (C10 treats wildcards).
* **C90 A mock steps aside while it works, comes back, counts each call once and loses no expectation** — partial (`Nest`).
  *Modelled*: Nest: the code of each function, the mocks by place and the list of the case as a state; functions and fakes as lists of actions; calls run them with bounded depth; Spec: the same without patching, with the set of mocks at work handed down; FreeSpec: the same for functions and reactions that mock and stub as well, with the plan as part of the state
  *Proved by*: simulation by induction on the depth; invariants over the actions of a test; a mock at work is not touched
  *Result*: Proved for functions, fakes and reactions that mock and stub as well, to any depth (the C90_free theorems), where no function is mocked or stubbed while its own mock is at work and no place of the source mocks two functions; C90_checked_partial also needs that no place is come by twice. Elsewhere it is false of the code: a MOCK come by twice drops the expectations of the first time (C90_twice_false); a place that mocks two functions answers calls of the first with the second (C90_two_false); a failed assertion in a reaction leaves the function unmocked in the cleanup (C90_failed_false); STUB of a function from its own reaction is undone (C90_stub_inside_false).
* **C91 Durations, footprints and counts on the console can be read back** — proved (`Amount`).
  *Modelled*: format_volume, format_duration, the line behind a case that passed and the line about a suite, to the character; %.nf of a quotient as a parameter.
  *Proved by*: texts are read back as number and unit; bounds by linear arithmetic from what is asked of printf; lines are cut into words, each part adding its words.
  *Result*: For all amounts below 10^12 (milliseconds or bytes; the order for all amounts), all counts, names and combinations of parts. What printf does with %.1f and its like of a quotient is a parameter: off by less than one unit of the last digit, monotone, right for whole numbers; rounding to nearest is shown to do that (nearest_ok). Colours are left out.
* **C92 What a run leaves behind agrees with what happened, from the command line to the exit status** — partial (`Whole`).
  *Modelled*: Whole: h2_runner::main put together from Cli, Filter, Runner, CaseRun, Console, Junit and Listing, with the choice of reports; the command line, descriptions and code of the cases in, the console, the files and the status out.
  *Proved by*: the log of the runner is matched with the turns of the cases event by event; each report is then read by the theorems of its own area; the patterns of the command line are followed through the parser to the filter.
  *Result*: Proved for all programs whose cases come to an end and all correct command lines of less than 256 characters. Restrictions: fewer than seven reports of the user (with seven, nothing of the library is printed: C92_reports_false); for JUnit, fewer than six, and names without <, & and quotes (C62_special); the exit status is taken modulo 256 (C35_status_false). Global setups and cleanups of the user outside of cases, and -d, are left out.
* **C93 What the library replaces for itself is replaced only where it should be, and stubs are not disturbed by it** — partial (`Around`).
  *Modelled*: Around: for each function its code, its h2_source with reference count and its stubs by list; the lists of functions replaced by exempt, stdio, dns, exception, memory and SOCK; programs with nested blocks, stubs, lookups and failures. Spec: what a call should run, from the nesting alone
  *Proved by*: the state at each place of a tidy program is given exactly as a function of the nesting; for any program an invariant on the lists of one function
  *Result*: Proved in full for all functions other than those of memory and sockets; for sockets where they are not stubbed inside of SOCK and SOCK is not nested; for memory functions where they are not stubbed. Restoring after a case is proved for all programs, for memory functions that are not stubbed. It is false otherwise (witnesses), and false of the functions of time, which give a fixed date unless -m is used. Stubs of suites are left out (C77).
* **C94 With -d a failing assertion stops in a debugger, and never without one** — partial (`Debug`).
  *Modelled*: Debug: fgets of /proc/self/status in pieces, the label and the first digit; the loop that waits with its static flag; a run as events, over all lists of what the looks find. Spec: the file as fields, the tracer in decimal
  *Proved by*: the pieces of a file are its lines; the first digit of a decimal is 0 only for 0; induction over the looks and the failures
  *Result*: Proved except for the last sentence, which is false: after the debugger has gone the next failure waits without end and without asking, and the prompt names LLDB where GDB is started and the other way round. A debugger that goes between the look and the breakpoint is left out. The search for lldb in the list of processes (macOS) is not modelled.
* **C95 A value is printed by what its type provides, at every depth, and every type can be used** — partial (`Printer`).
  *Modelled*: Printer: types as trees with what is known of each class, the partial specialisations that match a type as a list, whether a print compiles, and the text. Spec: types that are clear at every depth; a relation between type, value and text
  *Proved by*: induction on types both ways; induction on the relation
  *Result*: Proved for all types that have one way to print at most at each depth, and exactly those compile. The last sentence is false: a class with a method and operator<< (std::bitset), an exception or container with operator<<, and a class with Tostring() alone do not compile. More than 100 elements are shown as [...]. The rules of C++ for choosing a partial specialisation are taken as: exactly one may match.
* **C96 The user's own matchers and methods are called a known number of times, in the order written** — partial (`Calls`).
  *Modelled*: Calls: matching as a program whose steps are calls of the user's functions (own matchers, their messages, methods), run with functions that answer from a state. Spec: what an observer sees; the functions as written; the values each own matcher stands for; assertions made one after the other
  *Proved by*: mutual induction on expressions and their lists; the laws of one program after the other; inner matchers are never negated
  *Result*: Proved except for the message with KO, where it is false: it is made when the assertion passes, and a failing KO has none. With Has * n, n is positive. Exceptions thrown by the functions, null pointers, MedianOf, and the functions by which the types of the user are printed and compared are not modelled.
* **C97 What cases write and the report stay readable on the terminal; progress leaves nothing behind** — partial (`Screen`).
  *Modelled*: Screen: what goes to the terminal as characters and sequences that empty a row: the line of progress, the dots of collecting, writes of the user, events of the report. Spec: a terminal with a cursor that wraps at its width; the rows that stay, event by event
  *Proved by*: an invariant that relates the terminal to what waits on the row of the cursor (nothing, progress, text), preserved by each event; a line of progress fits one row
  *Result*: Proved for texts without control sequences of their own and names without line ends and styles; a character takes one or two columns. The last sentence is false: with a verbosity of 5 the line about a case left to do is overwritten by what comes next, and so is the last row of what suites write while being collected. Colours and the reactions of a terminal to them are left out.
* **C98 The footprint told about a case is the most memory it held at one time** — partial (`Memory`).
  *Modelled*: Memory: the counters of a block as in C23. Spec: the bytes held by a block after each part of the history, from the events alone
  *Proved by*: one event moves the counter of each open block to the maximum of itself and what is held; induction over the time the block is open
  *Result*: Proved for memory allocated in the case itself, in histories without double frees and with limits of at most 2^63; the last sentence is false: memory of an inner BLOCK is not counted, a double free is subtracted twice, and after a failed assertion inside of a BLOCK the footprint of the BLOCK is told. What is printed for a number of bytes is C91.
* **C99 The number of assertions told is the number of checks made** — partial (`Count`).
  *Modelled*: Count: the counters of the run, the suites and the cases, the current suite and case, and the loop of the runner over rounds, with the checks made at each place. Spec: the checks of a case, a suite and a run, as sums
  *Proved by*: checks add their weight to the current counters; a suite begins with an empty counter; a case begins with an empty counter as long as no check comes between its end and its next beginning
  *Result*: Proved for runs and suites in full; for cases if there is one round or if setups and cleanups of suites make no checks. Otherwise it is false: checks there are counted for the case that ran last and told with it in the next round. Counters are numbers without a bound; that a failed check ends its case is in the choice of the checks that are made.
* **C100 Every exception that is reported is reported with its own type, place and backtrace** — partial (`Thrown`).
  *Modelled*: Thrown: throwing inside and outside of Catch with the recorded name and backtrace, check_catch, the handler of h2_suite::test, failing and the print of exceptions. Spec: the steps that are run; what is told about each, as text
  *Proved by*: each step appends failures whose print, for whatever type the buffer holds in the end, is what is told; the buffer holds the name of the last exception; induction over the steps
  *Result*: C100_told says for every case what is printed, with the type of the last exception in the place of each type. So the property holds if the exceptions of a case have one type name (C100_own_partial) and is false for two exceptions of different types with -W exception (C100_types_false), as reports have a pointer to one shared buffer; names of 1024 characters or more are undefined (C100_long_false). Blocks Catch are not nested in this model (C47 has those); Setup and Cleanup blocks are not apart from the steps of the case.
* **C101 Types in messages are shown as they are, and different types are shown in different ways** — partial (`TypeName`).
  *Modelled*: TypeName: type_name with its buffer, demangling of types made of names, pointers and qualifiers, tuple_types. Spec: how a type is written, what names of types are like
  *Proved by*: the text ends in the sign of the outermost pointer or reference, so it can be read from its end, and names are no qualifiers; induction over pointers and over lists of arguments
  *Result*: Proved for all types without volatile of their own whose text has less than 512 characters. It is false otherwise: volatile is not shown (C101_volatile_false), and longer texts overrun their buffer (C101_long_false). Pointers to functions and arrays and the arguments of templates are parts of names; how the C++ library writes types (demangled) is modelled, not proved.
* **C102 TypeEq<T>() accepts just the values of the type T** — partial (`TypeName`).
  *Modelled*: TypeName: declared types, std::decay, h2_decay and the comparison of types in TypeEq. Spec: the type of a value, that is without qualifiers and references
  *Proved by*: case analysis over the kinds of types; the message from C101
  *Result*: Proved for classes, numbers and pointers other than char*. It is false for enumerations (accepted as their number type), char* (accepted as const char*), arrays and functions (accepted as pointers). The message is partial as C101 is: types that differ in volatile only, and long types. That names are equal just if types are is part of the model of types.
* **C103 Tests declared outside of suites are found once each and run with their own values** — partial (`SuiteFn`).
  *Modelled*: SuiteFn (Global): the objects that the macros for tests outside of suites declare, their registration by static variables, and the loop of the runner. Spec: the tests of each declaration with description, block and values
  *Proved by*: the objects look like the tests of the specification, one by one; each is registered once by the enumeration; induction over orders and rounds
  *Result*: Which tests there are and what they run is proved for lists of any length; the descriptions for lists of up to 33 values, as the numbers behind are names of macros (C103_number_false). That the macros go over their lists like this is in C84, that is for as many values as it says; what a block does is not looked into; declarations of suites between are C76.
* **C104 What -h says about the options is true** — partial (`Cli`).
  *Modelled*: Cli (Usage): the text of usage with its escape sequences, and which page -h prints. Spec: what is seen of a text on a terminal, its lines, its columns, and what a row shows as argument
  *Proved by*: the rows are read from the text by the kernel, once and for all; then C39, that is how arguments are read, option by option; -h by induction over the ways of writing arguments
  *Result*: False of the text: -s takes several words though shown with one, and takes name and file but not the alphabet that is named; -W does not take double_free; -F without a number is the smallest fold, not the largest; the default of -S is written in another way of quoting than its words. The sentences about the effect of an option are not looked into (the effects are C39 and the properties of each). OneLine is asked of the version, the date and the revision only.
* **C105 A mock has a matcher of its own for each argument of the function** — partial (`Macro`).
  *Modelled*: Macro (Repeat, Last, Equal, Mocker): the macros of the class of mocks, with the preprocessor and the table of C84. Spec: the text for each number
  *Proved by*: as C84: one round of REPEAT or LAST as a step, induction over the count or the list, fewer rounds than EVAL has; that names with two different numbers are not in the table is checked by the kernel for the numbers below 32 and 64
  *Result*: Proved about the model of the preprocessor and the table of macros of C84, for counts and numbers as far as the tables of the library reach. Beyond it is false: 32 is not told to equal 32 (C105_equal_false). Lists whose last element is empty are left out.
* **C106 The variables of Cases, Casess and Todos start as the first value of their list** — partial (`Macro`).
  *Modelled*: Macro (FirstOf): the macros that take the first value, with the preprocessor and the table of C84. Spec: the first value inside of pairs of parentheses, as an inductive relation
  *Proved by*: as C84: one pair of parentheses as one step, induction over the pairs, fewer than EVAL has rounds
  *Result*: Proved about the model of the preprocessor of C84 and the macros H2_An, H2_XAn, H2_YAn. The last sentence is false of the code: parentheses around the first value are taken for those of a list, so that a value written in parentheses because of a comma in braces is torn at that comma (C106_comma_false). The statements around these macros, that is the loops of Cases and Todos, are in C76.
* **C107 Addresses of packets mean the same as text in a test and as bytes in the program** — partial (`Inet`).
  *Modelled*: Inet: iport_parse, iport_tostring and the address of getaddrinfo on the bytes of sockaddr_in, with inet_pton (the loop of glibc), inet_ntop, atoi, htons. Spec: the text of four numbers and a port, and what the bytes mean
  *Proved by*: induction over the digits of a number for reading; for the converse of inet_pton an invariant: what has been read is the text of the numbers so far
  *Result*: Proved for all addresses and ports below 65536. False otherwise: a sender that is not given (or is a pattern) leaves the address as it was in the memory of the program (C107_sender_false, C107_no_address); ports from 65536 on are taken modulo 65536 (C107_port_false); the structures of getaddrinfo have the family 0 inside (C107_family_false). inet_pton, inet_ntop, atoi and htons are modelled after glibc; that their models are those functions is not proved.
* **C108 The text of a container matcher says how many elements and which are meant** — partial (`Times`).
  *Modelled*: Expect (TimesModel): the text of container matchers with amounts and ranges, beside the matchers of C03. Spec: what can be said, how it is written, and when it is true of a value
  *Proved by*: structural induction over the matcher with the product of the amounts around it as a parameter; that the way of writing is injective by induction, what follows being a closing bracket or nothing
  *Result*: Proved for matchers without ranges, of any depth, around integers, Ge, Gt, Le and Lt, and containers of at most 5413722 elements. With a range it is false: the text does not show ranges (C108_range_hidden, C108_range_false). With longer containers it is false: elements behind these are not looked at (C108_long_false). Has of one argument on maps (where it looks at keys), !Every of two arguments (C89_every_false) and the other matchers with amounts are not in this model.

## Findings

Places where the code does not do what a reader of its documentation would expect. Those
marked with a theorem are proved; the others were found while reading and are recorded so
that the conditions of the theorems can be understood.

* *Matchers*: percent margins parse as `% (+B)`; margins from 174467.44 wrap (`C50_large_margin_false`,
  `C50_large_percent_false`); comparisons across signedness are modulo 2^64 (`C52_mixed_sign_false`);
  Range with a step that is not positive hangs (`C07_nonpositive_step_hangs`); MedianOf of an even
  number of elements uses wrong indices (`C06_*`); Every/Has look at the first 5413722 elements
  only (`C03_every_large_false`); the repetition of Has leaks inwards (`C03_nested_times_false`);
  a pointer range not starting at zero is misread (`C53_pointer_offset_false`); negation changes
  the matcher in place; AllOf does not stop at the first failure although its comment says so.
* *Strings*: SpaceLess squashes only the actual text for all but Se (`C09_spaceless_expected_false`);
  a truncated multi-byte character reads past the end (`C46_truncated_ub`); digit counts near 2^64 are
  wrong or never end (`C48_digits_*`).
* *Memory comparison*: a text of 0 and 1 is binary even if meant as hex; "0x12" decodes to the byte 0;
  a blank ends a hex text; size*width wraps.
* *Memory*: alignments above the page size or not a power of two are not honoured, below 8 leave a gap
  (`C20_*_false`); `allocated + size` wraps and a double free subtracts twice (`C23_*_false`); a calloc
  product wraps (`C24_calloc_overflow_false`); a failing realloc frees the old area
  (`C26_failed_realloc_false`); fill patterns of more than 32 bytes overrun a buffer; reading the guard
  page is not a violation; a piece freed with a failure is not made inaccessible.
* *Mock*: an optional expectation after a saturated one that also accepts is not skipped
  (`C28_optional_false`); a call beyond the maximum is charged and reported at the end only
  (`C28_beyond_maximum`); Between(3,1) accepts one call (`C29_reversed_false`).
* *Stub*: aliases and overlapping patches keep stale bytes (`C30_*_false`); line 38 of h2_e9.cpp stores
  8 bytes into 4; failing mprotect is only printed.
* *Internal allocator*: requests just below a multiple of 4 MB get null (`C27_null_false`); sizes near
  2^64 wrap (`C27_huge_false`); the range test of `free` is never true.
* *Runner*: 256 failures give exit status 0 (`C35_status_false`); a listing run drops the record of the
  last failed run (`C36_list_false`); the record is not refreshed by a second failing run (`C36_stale`);
  names of more than 503 characters are misread.
* *Filter*: a suite whose cases are all filtered may itself stay unmarked (`C33_suite_false`);
  descriptions of 512 characters overrun a buffer.
* *Case protocol*: a failing assertion in Setup without -c jumps to an unset buffer
  (`C37_setup_undefined`), in Cleanup repeats for ever (`C37_cleanup_hangs`); an exception leaving a case of
  a suite with Cleanup is lost (`C37_exception_lost`) or repeats (`C37_exception_hangs`); failures of
  global setup are lost under -c (`C37_global_lost`).
* *Command line*: `-W double_free` is rejected (`C39_double_free_rejected`); a bare `-F` sets 0
  (`C39_fold_bare`); 256 characters overrun a buffer (`C39_long_ub`).
* *JSON*: a value with a repeated key does not match itself (`C12_repeated_key`); infinities of different
  sign match (`C11_infinities`); 21! wraps (`C16_factorial_wraps`); an escaped backslash is misread
  (`C14_backslash_misread`); a lone quote throws (`C14_quote_crashes`); selecting through a missing inner
  component dereferences null (`C15_inner_missing_ub`).
* *Sockets, DNS, output*: a packet longer than the buffer overruns it (`C42_overrun`); more than 32 DNS
  results overrun static arrays; a nested COUT ends the outer one; `fwrite` returns bytes.
* *Layout*: a character of two columns on a line of one throws (`C45_too_wide`).
* *Catch*: `what()` is called on null or foreign objects (`C47_undefined`); a nested Catch ends the outer
  one (`C47_nested`).
* *Symbols*: functions of anonymous namespaces are not found (`C49_anonymous`); names are cut at 127.
* C58: `append_child` on a failure that has children already puts the new one below them, not beside them; no caller does that.
* C59: an arrow (`p->n > 0`, `0 < p->n`), a shift (`1 << n > m`), an escaped quotation mark or the character `'"'` mislead the search for the operator, so that the message names the wrong operands or the whole text.
* C60: no dots mark a cut when a two-column character stands in their column; a width less than the tail plus three cuts nothing, because of a `size_t` subtraction below zero; an escape character followed by `{` behind a cut is taken for a style and vanishes.
* C61: the `reset` that ends `color(...)` ends the styles around it as well; a style nested in itself ends with the inner one; a ninth style is dropped; a name of 32 or more characters overruns its place; a name that is a prefix of `reset`, even the empty one, clears all.
* C62: the JUnit report escapes nothing, so a name with `<`, `&` or a quotation mark makes it unreadable; `failures` and `skipped` are always 0; no failure message is ever written, because no class overrides `h2_fail::print(FILE*)`; a case ignored in a later round shows the failure of an earlier one; a case both to do and filtered counts as filtered but is reported as TODO.
* C63: with several rounds the percentage of progress grows to 100% times the rounds; passed cases are named at verbosity 3 but not at the higher verbosity 4; the last line counts outcomes of all rounds but cases once, so `2 passed ... ` of one case in two rounds.
* C64: a failed `JE` prints the two expressions and, if one of the documents is narrower than 16 columns, nothing else, so the value found is nowhere; a failed `COUT` prints only `COUT` and the place, because its type `OK` is none of those printed; `h2_fail_normal` drops the message of the user; the counter of commas is never reset.
* C65: with colours a blank is a dark dot whether it is in common or not, so texts that differ in blanks only show no difference; the dot takes one column but counts as two, and looks as the same character in a text.
* C66: the distance of a use after free is given to `%+d` as a `long long`, of which 32 bits are printed; for areas of 2 GiB and more it
  is wrong, even in its sign (`C66_after_free_far`).  Passing it so is undefined by the C standard in any case; the model has what the
  x86-64 and AArch64 calling conventions make of it.
* C67: the failure for a name that stands for no function or for several is dropped outside a case (`C67_silent`); of more than 16 candidates
  only 16 are listed, and nothing tells that there are more.
* C68: a virtual method beyond number 999 (99 on ARM) is taken for a function at address 8k+1 (`C68_many_false`); a virtual method inherited from
  a base that is not the first is looked up in the table of the first base, since the adjustment of the pointer is dropped
  (`C68_second_base_false`); for an abstract class with a symbol for its type but none for its table, a word behind the type information is
  stubbed (`C68_typeinfo`); a table that `nm` lists with type `D` or `d` (as with position independent executables) is not found
  (`C68_data_false`).
* C69: floating point numbers are shown with six decimals, so that different small numbers look alike (`C69_alike_numbers_false`);
  containers of more than 100 elements all look like `[...]` (`C69_large_false`); quotation marks in texts are not escaped
  (`C69_quote_false`); texts are shown up to the first character 0 (`C69_nul_false`); characters wider than a byte are shown as `?`
  (`C69_wide_false`).  Besides, `print__Tostring` (h2_stringify.hpp:28) calls `toString`, so that a class with only `Tostring` does not compile.
* C70: the list of exempted functions has 4095 places, and what does not fit is ignored without a word (`C70_full_false`); callers behind the
  hundredth frame are not seen (`C70_deep_false`); functions that are not exported (all of a program linked without `-rdynamic`, and `static` ones)
  are never recognised as callers (`C70_hidden_false`); the jumps at the beginning of a function are followed, so that
  to exempt a function while it is stubbed exempts its substitute (`C70_stubbed_false`).
* C71: only the innermost hundred frames are compared and printed (`C71_deep_false`).
* C72: a selected value is written without escapes before it is compared.  A quotation mark in a string makes the
  text ill-formed (`C72_quote_false`), two backslashes become one (`C72_backslash_false`), an empty key is left out
  (`C72_key_false`), whole numbers go through `long long` (`C72_large_false`), others keep six decimals.  A step that
  finds nothing before the last is a call through a null pointer (`C72_undefined`).
* C73: `-S "` (or `double`) prints quotation marks inside of quotation marks, which is not a literal
  (`C73_double_false`); backslashes and new lines in texts are not escaped (`C73_backslash_false`, `C73_newline_false`).
* C74: `noleak = false` and `unmem = 0` switch on what they name (`C74_flag_false`); a word like `unlimited` is taken for
  `limit`, without a value 0 (`C74_word_false`); a fill of more than 32 bytes is written beyond `s_fill`
  (`C74_long_fill_false`); `limit = 18446744073709551615` goes through `double` and does not fit any more
  (`C74_largest_false`).
* C75: `h2_memory::hook()` does not remember what was before, so that every look at a call stack or symbol and every
  regular expression inside of `UNMEM()` switches tracking on (`C75_lookup_false`), as does the end of an inner unmem
  block (`C75_nested_false`).  The jump of a failing assertion does not run the destructor of the block: a block more is
  on the stack afterwards and the check of the case looks at the wrong one (`C75_left_false`); out of an unmem block,
  tracking stays off in `Cleanup`, where freeing what `Setup` allocated is then undefined (`C75_cleanup_false`).
* C76: `Cases` and `Casess` set `case_` to null only after the object has been destroyed that jumps to `Cleanup`, so that
  in a suite with `Cleanup` before them the test is executed again after every `Cleanup`, for ever (`C76_cleanup_false`).
  The enumeration sets the jump for `Cleanup` as well: a `Cleanup` behind a test is a `longjmp` into a frame that is gone
  (`C76_late_false`).  The variable the values are assigned to has the type of the first of them: of
  `Cases(name, (1, 2.5))` the second test sees 2 (`C76_convert_false`); `CASES` does not have this.  A value written with brackets
  loses them: `m[0]` is shown as `m`, and 0 is a tag of the test (`C76_bracket_false`).  From the thirty-fourth value on the name has
  `H2PP_INC_32` in place of a number (`C76_number_false`).
* C77: `current_case` and `current_suite` are never set back to null.  What `GlobalSuiteSetup` (from the second suite on),
  `GlobalSuiteCleanup`, `GlobalCaseCleanup` and `GlobalCleanup` stub or mock therefore goes to the lists of a case that has
  ended, and is not undone (`C77_suite_setup_false`, `C77_case_cleanup_false`, `C77_cleanup_false`).  While suites are
  enumerated neither is set: what a suite stubs outside of blocks is in force in every suite (`C77_enumerate_false`).
  Mocks made outside of cases are checked by no one (`C77_checked`).
* C78: a failure below the first one about an argument has a number of its own (of an element of a list, of a matcher in
  AllOf), and `failing` takes it for the position of an argument: for an element with number 0 of the second argument the
  type of the first is shown in red (`C78_child_false`).  `index_th` writes "21th" (`C78_ordinal_false`).
* C79: `h2_runner::failing` drops a failure when no case is current, so a check that fails in `GlobalSetup` is lost
  (`C79_lost_false`); `current_case` is never set back to null, so one that fails in a later `GlobalSuiteSetup` goes to a
  case that has ended (`C79_suite_false`); the jump of a check that fails in any global function goes to a buffer that is
  not set or whose frame is gone (`C79_jump_false`).  Arrays hold 1023 functions; more are dropped without a word
  (`C79_many_false`).  `GlobalSuiteSetup` and `GlobalSuiteCleanup` are also called while suites are collected.
* C80: `recvfrom` and `accept` do not say that the address of a packet cannot be read.  With a pattern as sender (`from=*:53`, which
  the attributes allow) the port is set and the four bytes of the address stay what they were in the caller's structure
  (`C80_stale`), and a port from 65536 on is taken modulo 65536 (`C80_port_false`).
* C81: the likeness of JSON nodes compares the texts of values, which numbers, `true`, `false` and `null` do not have, so that 1 and 2
  are as like as 1 and 1 (`C81_number_false`, `C81_bool_false`).  The mean of the elements is computed as
  `sub += (sub * i + s) / (i + 1)`, which adds where it should replace: the likeness of equal arrays doubles with every element
  (`C81_range_false`) and outweighs names (`C81_weight_false`).  With sixty elements the likeness of the names is lost in rounding altogether:
  of two members with the value of the missing one the first is taken, whatever its name (`C81_absorbed_false`).
* C82: brackets are never coloured in a JSON comparison, so that a difference between `[]` and `{}` has no colour at all
  (`C82_empty_false`); nor has the one of an object with a key twice, which does not match itself (`C82_twice_false`), nor a missing
  container with an empty key (`C82_nameless_false`).
* C83: on arm64 `sign_extend` shifts all ones by `64 - bits` where it should shift by `bits`, so that a linkage table whose pointers are
  before the code is followed to a wrong address (`C83_negative_false`); the displacement of `ldr x17, label` is read without its sign
  (`C83_literal_false`); `ldr d17, label; br x17` is taken for a jump through what is loaded (`C83_vector_false`).
* C84: `H2PP_REMOVE_PARENTHESES_IF(1, 2, 3)` is broken, so that lists without parentheses in `Cases`, `H2Foreach` do not compile or do
  something else (`C84_several_false`; the test of it is commented out in /repo/test/test_utils_macro.cpp:194); an argument `f` with
  `#define f() ()` counts as none (`C84_name_false`); 66 arguments are counted as one of them (`C84_many_false`); `FOREACH` leaves out an
  empty last element (`C84_last_false`) and gives the 34th element the number `H2PP_INC_32` (`C84_index_false`), as the table of
  successors ends at 32.
* C85: the expected number of `OK(e, a)` is converted to the type of `a` before it is compared, by the constructor
  `h2_matcher<A>(A value)`: `OK(300, (unsigned char)44)` and `OK(3.7, 3)` pass (`C85_narrow_false`, `C85_fraction_false`).
  `OK(l != r)` uses the same conversion but `OK(l == r)` does not, so both can fail (`C85_neither_false`). Numbers of different
  sign: `C85_eq_false`, `C85_order_false`. `OK(true == 5)` passes and `OK(5 == true)` fails (`C85_bool_false`).
  `h2_matcher<int> m = Gt(3)` does not accept 3.5, and `Gt(0) && 5` accepts 5.9 (`C85_held_false`). `OK(INFINITY, INFINITY)` fails,
  since the difference is NaN (`C85_infinity_false`).
* C86: `h2_assert::failing` overwrites `user_explain`, so the message given to `H2MATCHER` is lost when the matcher is used directly in
  `OK` (`C86_message_false`). `IsDivable(3u)` does not accept −3; `IsDivable(0)` divides by zero; `IsInteger` accepts infinity.
* C87: a failed assertion inside `PF` jumps over its destructor (`C87_jumps_false`), which is undefined behaviour in C++, and the time
  is not checked; `clock` is processor time, so a block that sleeps passes.
* C88: `h2_string(const char*)` turns a null pointer into the text `(null)`, so `OK("(null)", p)` passes for a null `p`
  (`C88_null_actual_false`). `OK(p, s)` with a null `char* p` and a `std::string s` constructs a `std::string` from a null pointer
  (`C88_null_string_false`). `OK("a" < "b")` compares the addresses of the literals (`C88_order_false`). `trim` goes through `c_str()`,
  so `*Eq(s)` compares only up to the first NUL (`C88_spaceless_false`). `OK("false", b)` for a `bool b` compares `b` with `true`
  (`C88_flag`).
* C89: a number without a matcher is written by `h2_stringify`, which knows nothing of negation, so
  `OK(AllOf(Nq(3), Gt(1)), 3)` fails with the expectation "AllOf(3, >1)" (`C89_value_false`); alone, `OK(Nq(3), 3)` writes "≠3". `h2_pair_matches::expection` writes "!" and passes the negation on to
  both parts as well (`C89_pair_false`), and so does `h2_every2_matches::expection` for `Every(k, v)` (`C89_every_false`). A text without a matcher inside another is written by `h2_stringify` too and
  loses `~` and `*` (`C89_text_false`); `Every`, `Has` and `CountOf` write what is inside with `case_insensitive` cleared
  although they check with it (`C89_caseless_false`); `*Substr(s)` squashes the actual text only (`C89_squash_false`, compare
  C09); quotation marks in a text are written as they are (`C89_quote_false`).
* C90: `h2_mocker` is one object per place in the source, so a `MOCK` in a loop or a helper starts by `reset()`, and what was expected
  before is never checked (`C90_twice_false`); with another function of the same type the jump of the first function leads to the
  expectations and the original of the second (`C90_two_false`). `longjmp` passes by the destructor of `h2_stub_temporary_restore`
  (`C90_failed_false`). The destructor writes back the bytes it saved, also over a stub made since (`C90_stub_inside_false`).
* C92: reports of the user share an array of eight places with those of the library and are registered first: with seven of them neither the
  console report nor the listing is called, and with six of them no JUnit file is written (`C92_reports_false`); nothing says so.
* C93: nine functions of time are replaced in every run with the check of memory: `gmtime`, `localtime` and their kin give the first of
  January 2012 for every time, and `mktime` gives the same number for every date, eight hours off that day (`C93_clock_false`, `C93_time`);
  only `-m` leaves them alone. `STUB(malloc, …)` is undone by the next tracked allocation of another sort, as each of them looks up the
  call stack and so takes the overrides off and on (`C93_stub_malloc_false`). A memory function stubbed inside of an unmem block is no longer
  tracked in the following cases (`C93_after_unmem_false`). A stub made inside of `SOCK` is lost at its end (`C93_stub_in_sock_false`); an
  inner `SOCK` ends the outer one (`C93_nested_sock_false`).
- **C94**: option `-d` asks for a debugger once in the life of the process: if the user leaves the debugger (or enters a wrong password) the
  next failure waits for ever without a word (`C94_again_false`). The prompt names LLDB on Linux, where gdb is started, and GDB on macOS,
  where lldb is (`C94_name_false`).
- **C95**: a class with two ways to print cannot be used in an expectation at all, because two partial specialisations match:
  `tostring()` and `operator<<` (so `std::bitset`, which has `to_string()` and `operator<<`), a container, pair, tuple, adaptor or exception with
  `operator<<` (`C95_two_false`, `C95_container_false`). A class with `Tostring()` alone does not compile either, because `toString()` is
  called in its place (`C95_Tostring_false`).
- **C96**: the message of a matcher defined with `H2MATCHER` is made when the matcher does not fit, and `KO` inverts only the result: a `KO` that
  fails shows no message, and one that passes has made it in vain (`C96_message_false`).
- **C97**: with a verbosity of 5 or more a line is printed about each case left to do, without a line end; the next output of the report
  empties the row, so only a terminal that is not one (a file) keeps it (`C97_todo_false`). Output of suites while they are collected loses
  its last row in the same way when progress is shown (`C97_collect_false`).
- **C98**: the footprint of a case leaves out the memory allocated in a `BLOCK` of the case (`C98_inner_false`); a double free is subtracted
  twice, so later footprints (and limits, see C23) are wrong (`C98_double_free_false`); and when an assertion fails inside of a `BLOCK` the
  footprint of that block is told for the case (`C98_left_false`).
- **C99**: the current case stays the one that ran last, also after its end. Checks in the setups and cleanups of suites are counted for it,
  and as it has been cleared before, they are told with it in the next round (`C99_case_false`).
- **C50, C07, C05 with rounding**: `h2_approximate` cuts the margin to 1e-14ths after a rounded product and divides it in `long double`, so the
  margin compared with is not the `double` written: `Eq(0.0, 0.1)` rejects 0.1 (the quotient is less than the `double`) and `Eq(0.0, 0.29)`
  rejects 0.29 (the product is cut to 1e-14 less) (`C50_itself_false`); margins below 1e-14 count as 0 (`C50_small_margin_false`); `Eq(e, 0%)`
  means 0.00001 (`C50_zero_percent_false`); `Range(0, 1, 0.1)` accepts 1 (`C07_drift_false`); ranges beyond 2^53 may never return
  (`C07_stuck_false`); `AvgOf` is wrong for large sums (`C05_double_avg_false`).
- **C100**: the report of an exception keeps a pointer to `h2_exception::last_type` and is printed when the case has ended, so all reports of a
  case show the type of the exception thrown last (`C100_told`, `C100_types_false`), each with its own backtrace.  The name of the type is
  demangled into a member of 1024 bytes, which `abi::__cxa_demangle` gives to `free` when the name does not fit (`C100_long_false`).
- **C101**: `type_name` appends the name of a type to a buffer of 512 bytes without regard to its size (the parameter `size` is not used), so
  types whose text is longer, as those of nested containers, overrun it (`C101_long_false`); `volatile` is not shown (`C101_volatile_false`).
- **C102**: `TypeEq` compares with the type that assertions convert values to, so the type of a `char*`, an array, a function or a value of an
  enumeration is never accepted as what it is (`C102_chars_false`, `C102_array_false`, `C102_function_false`, `C102_enum_false`).
- **C103**: tests of `CASES` and `CASESS` from the 34th value on have `H2PP_INC_32` in the place of their number (`C103_number_false`).
- **C104**: the table of `-h` names `alphabet` for `-s`, which ends the program, but neither `name` nor `file`, which `-s` takes
  (`C104_shuffle_false`); it shows `-s` with one word, yet all words behind it are taken (`C104_one_false`); it shows `[n=max]` for `-F`, yet
  `-F` without a number is `-F 0`, the smallest (`C104_fold_false`); the page about `-W` has `double_free`, which `-W` does not take
  (`C104_warnings_false`); the default of `-S` is shown as `\"`, which among the words of the same row stands for `"`, but it is what these words
  write as `\\\"` (`C104_source_false`).
- **C68**: a class whose objects can be made with ten arguments or more only counts as one without a constructor (`C68_ten_false`).
- **C105**: `H2PP_EQ(32, 32)` is 0, as the table of equal numbers ends with 31 (`C105_equal_false`).
- **C106**: in `Cases("name", (P{1, 2}), 3)` the parentheses that protect the comma are taken for those of a list, and the variable is declared with `P{1` (`C106_comma_false`).
- **C107**: a packet injected without `from` leaves the address in the structure of the program as it was (`C107_sender_false`); port 65616 is port 80 (`C107_port_false`); the `sockaddr_in` of `getaddrinfo` has family 0 (`C107_family_false`).
- **C108**: the text of `Has(1) / 1` is that of `Has(1)`: ranges are not shown (`C108_range_false`); an amount behind a matcher is multiplied with those inside, and the text says so: `Has(Has(5) * 3) * 2` is described as `Has(Has(5) * 6) * 2`.

## Mutation tests

`/verif/seeded/LOG.jsonl` records edits of the model in the manner of realistic bugs (wrong boundary, missed
case, swapped argument, dropped update), each rebuilt in a scratch copy. For every line: the
definition, the edit, the claim it breaks, the theorems that failed, the theorems that were tightened
because the edit had survived. Edits that survived and that change nothing a user can observe are
recorded with that remark.

`seeded/LOG.jsonl` holds 2627 attempts so far.
