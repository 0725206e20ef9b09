{"id": "C01", "title": "Matcher combinators are Boolean connectives", "statement": "For any expected value built from !/Not, &&, ||, AllOf, AnyOf, NoneOf and Conditional over ordinary matchers, OK(m, a) passes exactly when the corresponding Boolean formula over 'the base matcher accepts a' is true. Hence double negation, De Morgan, and NoneOf = !AnyOf hold for every nesting.", "quantifier": "every matcher tree of any depth and arity, every actual value, every combination of base-matcher verdicts, with or without enclosing negation", "why_tests_cant": "the set of matcher trees is infinite and negation is threaded through a context flag that each combinator must reset or flip correctly; tests sample a handful of shapes", "anchors": ["source/matcher/h2_matches.hpp: h2_matches, C::fit", "source/matcher/h2_matcher.hpp: h2_polymorphic_matcher::h2_matches_impl", "source/matcher/h2_matches_logic.hpp: h2_not_matches, h2_and_matches, h2_or_matches, h2_allof_matches, h2_anyof_matches, h2_noneof_matches, h2_conditional_matches"]}
{"id": "C02", "title": "KO is the exact opposite of OK", "statement": "For every matcher and actual value, KO(m, a) records a failure exactly when OK(m, a) records none; neither form ever records two verdicts for one assertion.", "quantifier": "every verdict of the matcher, including failures that carry sibling failures", "why_tests_cant": "the inversion is applied after matching and also re-wraps multi-failure results; only enumeration over all verdict shapes settles it", "anchors": ["source/assert/h2_assert.cpp: h2_assert::stash", "source/assert/h2_assert.hpp: h2_ok1, h2_ok2"]}
{"id": "C03", "title": "Every and Has are the bounded universal and existential quantifiers", "statement": "Every(m) accepts a container exactly when m accepts each element whose index lies in the selected half-open range; Has(m) accepts exactly when at least `times` (default 1) selected elements are accepted; negated forms accept exactly the complement.", "quantifier": "every container length, every index range, every times count, every inner verdict pattern", "why_tests_cant": "loops with early exit over unbounded containers and arbitrary ranges", "anchors": ["source/matcher/h2_matches_container.hpp: h2_every1_matches, h2_has1_matches", "source/matcher/h2_matches.hpp: C::in"]}
{"id": "C04", "title": "ListOf accepts exactly when each listed matcher accepts the element at its offset", "statement": "ListOf(m0..mk-1) accepts a container exactly when the container has an element at every index start+i (i<k) and mi accepts it; elements beyond the listed ones are not examined.", "quantifier": "every container, every list of matchers, every range start", "why_tests_cant": "quadratic rescanning loop with an out-of-range branch, over unbounded lists", "anchors": ["source/matcher/h2_matches_container.hpp: h2_listof_matches"]}
{"id": "C05", "title": "CountOf, MaxOf, MinOf and AvgOf apply the inner matcher to the true statistic", "statement": "CountOf/MaxOf/MinOf/AvgOf accept exactly when the inner matcher accepts the number of elements / the maximum / minimum / arithmetic mean of the selected elements; with nothing selected MaxOf, MinOf and AvgOf do not accept, and their negations do.", "quantifier": "every container of numbers, every range, every inner matcher", "why_tests_cant": "the statistics are computed by hand-written loops; correctness for every container needs an inductive argument", "anchors": ["source/matcher/h2_matches_container.hpp: h2_countof_matches, h2_maxmin_matches, h2_avg_matches, H2_MATCHES_STATS"]}
{"id": "C06", "title": "MedianOf applies the inner matcher to the median", "statement": "MedianOf(m) accepts exactly when m accepts the median of the selected elements: the middle element of the sorted sequence for an odd count, the mean of the two middle elements for an even count.", "quantifier": "every container of numbers", "why_tests_cant": "tests use small odd arrays; the even case depends on index arithmetic that must hold for every length and stay in bounds", "anchors": ["source/matcher/h2_matches_container.hpp: h2_median_matches (303)"]}
{"id": "C07", "title": "Range matches like a Python range", "statement": "Range(start, end, step) accepts a value exactly when it equals start + k*step for some k >= 0 and lies before end.", "quantifier": "every start, end, step and actual value", "why_tests_cant": "arithmetic over an infinite domain with sign cases", "anchors": ["source/matcher/h2_matches_range.hpp"]}
{"id": "C08", "title": "Me compares exactly the first size*width bits", "statement": "Me(buffer, size, width) accepts a memory area exactly when its first size*width bits equal those of the expected buffer, most significant bit of each byte first; binary strings decode to the bit sequence of their 0/1 digits and hex strings to the bytes of their digit pairs.", "quantifier": "every pair of buffers, every size and width, every binary or hex string", "why_tests_cant": "bit-level index arithmetic over unbounded lengths", "anchors": ["source/matcher/h2_matches_memcmp.cpp: bits_equal, bin_to_bits, is_bin_string, is_hex_string", "source/utils/h2_misc.cpp: hex2bytes"]}
{"id": "C09", "title": "String matchers decide the textbook relations", "statement": "Se, Substr, StartsWith and EndsWith accept exactly on equality / substring / prefix / suffix; CaseLess makes them insensitive to ASCII case and SpaceLess compares after trimming both ends and squashing whitespace runs to one space; squashing is idempotent.", "quantifier": "every pair of strings of any length, both modifiers in any combination", "why_tests_cant": "infinitely many strings; prefix/suffix arithmetic and the squash state machine need induction", "anchors": ["source/utils/h2_string.cpp: equals, contains, startswith, endswith, squash, tolower", "source/matcher/h2_matches_strcmp.cpp"]}
{"id": "C10", "title": "The built-in wildcard matcher decides ?/* patterns", "statement": "On platforms without fnmatch, We(pattern) accepts a subject exactly when the subject can be split so that every ordinary pattern character stands for itself, ? for any one character and * for any (possibly empty) run.", "quantifier": "every pattern and every subject", "why_tests_cant": "the algorithm keeps a single backtrack point; that greedy choice is complete only by a proof over all patterns", "anchors": ["source/utils/h2_pattern.cpp: wildcard_match (16-42)"]}
{"id": "C11", "title": "JE compares objects by key, arrays by position", "statement": "Given the parsed expected and actual values, JE passes exactly when: an expected object has no more members than the actual and for every expected member the first actual member with its key matches; arrays have equal length and match element by element; numbers agree within the tolerance; strings, booleans and null agree; where the actual keys are distinct, member order never matters.", "quantifier": "every pair of JSON trees of any depth and width", "why_tests_cant": "recursion over unbounded trees, with permutation invariance over members", "anchors": ["source/json/h2_match.cpp: h2_json_match"]}
{"id": "C12", "title": "JE is reflexive on ordinary JSON", "statement": "Any JSON value without patterns, infinities, NaN and absent nodes whose objects have distinct keys matches itself, and matching is monotone: adding members with new keys to an actual object at any depth never turns a match into a mismatch.", "quantifier": "every JSON tree", "why_tests_cant": "tree induction", "anchors": ["source/json/h2_match.cpp"]}
{"id": "C13", "title": "JSON text is split into tokens without losing or merging content", "statement": "The lexer's tokens, read left to right, contain every non-space character of the input in order; structural characters outside quotes are single tokens; quoted text is one token with whitespace preserved.", "quantifier": "every input string", "why_tests_cant": "six-state character machine over arbitrary input", "anchors": ["source/json/h2_lexical.cpp"]}
{"id": "C14", "title": "The JSON parser restores every value from its text", "statement": "From every text of a JSON value (standard syntax with any white space, or with single quotes, unquoted words and /patterns/) the parser makes that value; in particular writing a value down and parsing the text gives it back. Strings in which an escaped backslash stands directly before one of the letters b, f, n, r, t are excepted: they are misread. A token sequence is accepted exactly when it follows the grammar, and every text ends the parser with a tree or a report, except for a quote or slash standing alone.", "quantifier": "every JSON tree of any depth and every text of it; every sequence of tokens; every text", "why_tests_cant": "round trip over an infinite recursive domain; a grammar over unbounded inputs", "anchors": ["source/json/h2_syntax.cpp", "source/json/h2_lexical.cpp", "source/json/h2_node.cpp"]}
{"id": "C15", "title": "The JSON selector follows keys and indices, negative from the end", "statement": "Selecting .key / [i] / [-i] paths returns the member with that key, the i-th element, the i-th element from the end; a missing last component yields nothing. What every selector text says (dots, brackets, quotes, white space) is determined. (A component missing before the last one dereferences a null pointer; that this is the only such case is part of the claim.)", "quantifier": "every tree and every selector path", "why_tests_cant": "unbounded path/tree combinations and boundary indices", "anchors": ["source/json/h2_select.cpp", "source/json/h2_tree.cpp: select", "source/json/h2_node.cpp: get"]}
{"id": "C16", "title": "Arithmetic in JSON follows the documented precedence", "statement": "Evaluating the text of any arithmetic expression (+ - * / % ^ ! unary sign, parentheses, functions) gives the value of its tree under the documented precedence and associativity.", "quantifier": "every expression tree", "why_tests_cant": "recursive-descent grammar over infinitely many expressions", "anchors": ["source/json/h2_tinyexpr.cpp"]}
{"id": "C17", "title": "JSON diff pairs up every member once and keeps the two sides aligned", "statement": "The side-by-side rendering has the same number of lines on both sides; every child of expect and of actual appears exactly once (or its parent is folded to dots, which only happens as the fold level permits); expect is in its own order; members whose keys agree stand on one line.", "quantifier": "every pair of trees", "why_tests_cant": "alignment search is a nested loop with marking over unbounded children", "anchors": ["source/json/h2_dual.cpp", "source/json/h2_json.cpp: diff"]}
{"id": "C18", "title": "The string diff marks a longest common subsequence", "statement": "The positions marked equal on the two sides spell the same sequence, and no longer common subsequence exists.", "quantifier": "every pair of character sequences, case sensitive or not", "why_tests_cant": "optimality over all subsequences (exponentially many)", "anchors": ["source/utils/h2_diff.cpp: h2_LCS"]}
{"id": "C19", "title": "The similarity score is one minus edit distance", "statement": "The internal edit distance of two strings equals the least number of single character insertions, deletions and substitutions turning one into the other.", "quantifier": "every pair of strings", "why_tests_cant": "minimality over all edit scripts", "anchors": ["source/utils/h2_diff.cpp: levenshtein_match"]}
{"id": "C20", "title": "Every allocation lies inside its own mapping, ends at the guard page and is aligned", "statement": "For each successful allocation the user bytes [p, p+size) lie inside the writable pages of the piece, p is a multiple of the requested power-of-two alignment, and fewer than alignment-many bytes separate the end of the user area from the guard page.", "quantifier": "every size, alignment and page size", "why_tests_cant": "bit-mask arithmetic over all sizes and alignments", "anchors": ["source/memory/h2_piece.cpp: h2_piece constructor"]}
{"id": "C21", "title": "A block reports a leak exactly when something is still allocated", "statement": "When a case or BLOCK ends without an access violation, a leak failure is reported exactly when some piece allocated in it has not been freed, and the reported total and count are those of the unfreed pieces.", "quantifier": "every history of allocations and frees, in any interleaving and nesting of blocks", "why_tests_cant": "unbounded histories", "anchors": ["source/memory/h2_block.cpp: check", "source/memory/h2_leaky.cpp", "source/memory/h2_stack.cpp"]}
{"id": "C22", "title": "Double and mismatched frees are always reported, matched single frees never", "statement": "A free of a live piece with the deallocator of the same family reports nothing; a second free reports a double free; a free with the wrong family reports an asymmetric free.", "quantifier": "every allocation/free history and every pair of allocation and release functions", "why_tests_cant": "depends on the piece state after arbitrary histories", "anchors": ["source/memory/h2_piece.cpp: free, check_double_free, check_asymmetric_free"]}
{"id": "C23", "title": "BLOCK(limit=n) injects failure exactly when the limit would be exceeded", "statement": "Inside a block with limit n an allocation of s bytes fails exactly when live bytes of the block plus s exceed n; the live byte count is the sum of the sizes of pieces not yet freed.", "quantifier": "every history of allocations and (single) frees in the block", "why_tests_cant": "the counter must stay equal to the sum over live pieces after every history", "anchors": ["source/memory/h2_block.cpp: new_piece, rel_piece"]}
{"id": "C24", "title": "BLOCK(fill=...) initialises the whole area with the repeated pattern", "statement": "Every byte i of a fresh allocation equals byte (i mod n) of the n-byte fill pattern; calloc's area is all zero.", "quantifier": "every size and every pattern length", "why_tests_cant": "loop over unbounded sizes with a remainder tail", "anchors": ["source/memory/h2_piece.cpp: set_fill / new_piece in h2_block.cpp", "source/memory/h2_override.cpp: calloc"]}
{"id": "C25", "title": "Writes just outside an allocation are detected at free", "statement": "If any byte of the padding between the allocation and its page boundaries was changed, freeing reports a violation whose address is the lowest changed byte behind the area or, if none changed there, the lowest one in front of it; if none was changed no violation is reported.", "quantifier": "every size, alignment and every pattern of stray writes into the padding", "why_tests_cant": "all write patterns and sizes", "anchors": ["source/memory/h2_piece.cpp: check_snowfield / set_snowfield"]}
{"id": "C26", "title": "realloc preserves the common prefix", "statement": "A successful realloc returns an area whose first min(old, new) bytes equal the old content, and releases the old area exactly once; realloc of null allocates and realloc to size zero frees.", "quantifier": "every content, old and new size and block limit", "why_tests_cant": "content-dependent and history-dependent", "anchors": ["source/memory/h2_override.cpp: realloc"]}
{"id": "C27", "title": "The internal allocator never hands out overlapping memory", "statement": "In any history of internal allocations and releases, the areas handed out and not yet released are pairwise disjoint and lie inside mapped blocks.", "quantifier": "every history of malloc/free calls of any sizes", "why_tests_cant": "free-list splitting and coalescing bugs show only after particular histories", "anchors": ["source/utils/h2_libc.cpp: h2_libc_malloc"]}
{"id": "C28", "title": "Mock expectations are consumed in order", "statement": "A call to a mocked function is charged to one expectation that accepts its arguments, never to one before the expectation that took the previous call; a call that no remaining expectation accepts fails the case, and so does a charge beyond an expectation's maximum. With exact counts the case passes exactly when every call is accepted by the expectation whose turn it is.", "quantifier": "every sequence of calls with any arguments, every list of expectations, greedy or not", "why_tests_cant": "infinite call histories against arbitrary expectation lists", "anchors": ["source/mock/h2_mocker.hpp: h2_mocker_base::matches", "source/mock/h2_checkin.cpp"]}
{"id": "C29", "title": "At the end of a case an expectation passes exactly when its count is in its bounds", "statement": "Once/Twice/Times(n)/Any/Atleast(n)/Atmost(n)/Between(n,m) are reported as failed at the end exactly when the number of calls charged to them is outside [n,n], [0,inf), [n,inf), [0,n], [n,m] respectively.", "quantifier": "every call history", "why_tests_cant": "unbounded counts", "anchors": ["source/mock/h2_checkin.cpp", "source/mock/h2_mocker.cpp: check"]}
{"id": "C30", "title": "All original functions are restored when a case ends", "statement": "After any sequence of STUB/UNSTUB/MOCK on any functions, including re-stubbing the same function and stubbing in nested scopes, finishing the case makes every function byte-identical to what it was when the case began.", "quantifier": "every history of stub operations over any set of functions and any scope nesting", "why_tests_cant": "restoration depends on LIFO order and shared saved bytes over arbitrary histories", "anchors": ["source/stub/h2_stub.cpp: h2_stubs, h2_stub, h2_source", "source/core/h2_case.cpp: post_cleanup"]}
{"id": "C31", "title": "A stubbed function jumps to its fake", "statement": "After STUB(f, g), executing the patched bytes at f transfers control to g, whatever the distance between them.", "quantifier": "every pair of 64-bit addresses", "why_tests_cant": "2^128 address pairs, wrap-around displacement", "anchors": ["source/stub/h2_e9.cpp or h2_stub platform code: h2_e9::set / get"]}
{"id": "C32", "title": "Every case falls in exactly one outcome bucket", "statement": "After a run (not a mere listing with -l) every reported case has exactly one outcome, each count shown is the number of reported cases with that outcome, and passed+warning+failed+todo+filtered+ignored equals the number of cases (times rounds), for every suite and for the whole run, whatever other options are in force.", "quantifier": "every set of suites and cases, every option combination, every assert outcome", "why_tests_cant": "product of options, outcomes and orders", "anchors": ["source/core/h2_runner.cpp: main", "source/core/h2_core.hpp: h2_stats"]}
{"id": "C33", "title": "Filtering selects a case exactly when an include matches and no exclude matches", "statement": "With -i/-e options a case runs exactly when (no include given or some include pattern matches one of its names, file or tags in the right category) and no exclude pattern matches; a suite is marked filtered exactly when it is rejected by its own description and all its cases are rejected.", "quantifier": "every combination of include/exclude patterns in all categories and every suite/case description", "why_tests_cant": "combinatorial option space", "anchors": ["source/core/h2_filter.cpp"]}
{"id": "C34", "title": "Shuffling only permutes and sorting options sort", "statement": "Any -s option runs the same multiset of suites and cases, each exactly once; name and file order are stable sorts by that key (case-insensitive; file then line), reverse sorts by the opposite order, without an order option the order of declaration is kept, and every order can come out of a random shuffle.", "quantifier": "every list of cases and every random seed outcome", "why_tests_cant": "all permutations and seeds", "anchors": ["source/core/h2_runner.cpp: shuffle", "source/utils/h2_list.cpp: sort"]}
{"id": "C35", "title": "-b n stops after n failing cases and exit code reflects failures", "statement": "With -b n no case is run after n cases have failed; with -x the value returned from main is the number of failed cases (so the exit status is that number up to 255), otherwise zero.", "quantifier": "every sequence of case outcomes", "why_tests_cant": "unbounded outcome sequences", "anchors": ["source/core/h2_runner.cpp: main"]}
{"id": "C36", "title": "The last-failed record restores order and selection", "statement": "When file, suite and case names are lines of at most 503 characters and identify the case, a run right after a failed run goes through the cases in the order of that run, and with -f it runs exactly the cases that failed, in that order.", "quantifier": "every list of case locations and outcomes", "why_tests_cant": "file round trip for all names and orders", "anchors": ["source/core/h2_runner.cpp: save_last_order, mark_last_order, drop_last_order"]}
{"id": "C37", "title": "A case fails exactly when some check fails", "statement": "A case that comes to its end is failed exactly when a non-warning failure was raised by its setup, body, cleanup, the global case cleanup, an uncaught exception, the mock check or the memory check; without -c the first failing assertion ends the body; the end-of-case checks run exactly once and Cleanup is executed after the body, whatever ended it.", "quantifier": "every sequence of assertion outcomes, exceptions and end-of-case checks", "why_tests_cant": "unbounded sequences with non-local exits", "anchors": ["source/core/h2_case.cpp", "source/core/h2_suite.cpp"]}
{"id": "C38", "title": "Descriptions split into name and tags", "statement": "A description shorter than 512 characters of the form pre[t1 t2, t3]post (brackets outside double quotes) yields the name pre+post without leading white space and the tags in order (at most 63); any other description is the name and has no tags.", "quantifier": "every description string", "why_tests_cant": "arbitrary strings", "anchors": ["source/core/h2_test.cpp"]}
{"id": "C39", "title": "Command line options mean what the manual says", "statement": "Every command line reads as a sequence of options: letters may be clustered or separate, a number may be attached or follow, words extend to the next option, stray words are passed over. Each setting the program then runs with is a stated function of that sequence (flags set or toggled by their count, numbers and -o/-S by their last occurrence, -l/-s/-W by the keywords their words abbreviate in exactly one way, -i/-e by their patterns in order); -h ends the program with status 0, and the first word that stands for no keyword ends it with status -1.", "quantifier": "every argument vector of fewer than 256 characters, every program path", "why_tests_cant": "unbounded argument vectors", "anchors": ["source/option/h2_option.cpp: getopt, h2_option::parse", "source/utils/h2_misc.cpp: h2_candidate"]}
{"id": "C40", "title": "Intrusive lists behave like sequences", "statement": "Any history of push/push_back/pop/out/sort on the circular lists behaves like the same history on plain sequences; sort yields a stable sorted permutation.", "quantifier": "every history and every comparison function", "why_tests_cant": "pointer manipulation over arbitrary histories", "anchors": ["source/utils/h2_list.cpp", "source/utils/h2_list.hpp"]}
{"id": "C41", "title": "Shared objects are destroyed exactly once, when the last owner goes", "statement": "In any history of copying, assigning and destroying shared pointers an object is freed exactly when its last owner is gone and never twice.", "quantifier": "every history of copies, assignments and destructions", "why_tests_cant": "reference counts over arbitrary histories, including self assignment", "anchors": ["source/utils/h2_shared_ptr.hpp"]}
{"id": "C42", "title": "SOCK delivers injected packets in order and records sent ones in order", "statement": "Packets injected with Pij are received by a matching socket in injection order, each exactly once; Ptx sees sent packets in sending order, each exactly once, until SOCK ends; a packet that opens a connection waits at the front, so order is kept as long as packets for that address are not mixed with others; a packet that fits the caller's buffer is stored whole with its sender's address (one that does not fit overruns the buffer).", "quantifier": "every interleaving of inject/receive/send/check operations", "why_tests_cant": "arbitrary interleavings over queues", "anchors": ["source/net/h2_socket.cpp"]}
{"id": "C43", "title": "DNS returns the newest matching entry and forgets a case's entries at its end", "statement": "getaddrinfo/gethostbyname answer with the most recently set entry whose host name equals the query or is the catch-all; a setting is for the first of the shortest names given (of two letters or more) and resolves to everything else given, in order; entries set in a case are gone after it; up to 31 addresses and 31 names are answered completely and in order.", "quantifier": "every history of DNS settings and queries", "why_tests_cant": "arbitrary histories", "anchors": ["source/net/h2_dns.cpp"]}
{"id": "C44", "title": "COUT captures exactly what is written inside the block", "statement": "The text given to COUT's matcher is the concatenation, in order, of everything written to the selected streams inside the block and nothing else (up to the first NUL byte; blocks are not nested). What is written still arrives at its descriptor, unchanged and in order.", "quantifier": "every interleaving of writes to any descriptors", "why_tests_cant": "arbitrary interleavings", "anchors": ["source/stdio/h2_stdio.cpp"]}
{"id": "C45", "title": "Line wrapping preserves text and fits the width", "statement": "Breaking a line at a width of two or more keeps every visible character in order and in its style, gives only lines of exactly that width once padded, and breaks only where the next character does not fit; lines set side by side or under one another are each shown completely, in order, within their columns.", "quantifier": "every line and width", "why_tests_cant": "arbitrary strings and widths", "anchors": ["source/report/h2_layout.cpp: line_break", "source/utils/h2_line.cpp"]}
{"id": "C46", "title": "UTF-8 text splits into characters without loss", "statement": "Splitting a string into characters and joining gives the string back and each piece of valid UTF-8 is one code point.", "quantifier": "every byte string", "why_tests_cant": "all byte strings, including truncated sequences", "anchors": ["source/utils/h2_string.cpp: disperse, utf8len"]}
{"id": "C47", "title": "Catch reports exactly the promised mismatch", "statement": "Catch() fails exactly when the block throws; Catch(T) fails exactly when nothing or another type is thrown; Catch(T, m) also when the value does not match m. After it, exceptions are the program's own again.", "quantifier": "every thrown type/value or no throw", "why_tests_cant": "decision table over all types and matchers", "anchors": ["source/except/h2_exception.hpp: check_catch"]}
{"id": "C48", "title": "Numeric helpers round correctly", "statement": "Power-of-two rounding returns the least power of two not below its argument, digit counting returns the number of digits, and hex decoding inverts hex printing, on their whole domains.", "quantifier": "every machine integer", "why_tests_cant": "2^32..2^64 values", "anchors": ["source/utils/h2_misc.cpp: not2n, mask2n, number_strlen, hex2bytes"]}
{"id": "C49", "title": "Function lookup by name finds exactly the matching symbols", "statement": "Whatever was looked up before, looking a function up by name returns the first symbol called exactly so if there is one, otherwise exactly the functions of that name in any scope without parentheses, in the order of the table and up to the number asked for; data symbols are never returned and a leading underscore of the platform is no part of a name.", "quantifier": "every symbol table and name", "why_tests_cant": "string index arithmetic over arbitrary symbols", "anchors": ["source/symbol/h2_nm.cpp: get_by_name"]}
{"id": "C50", "title": "Floating comparisons use the stated margin", "statement": "Eq(x) on floating values accepts within 1e-5, Eq(x, eps) within eps and Eq(x, p%) within p percent of x.", "quantifier": "every value and tolerance", "why_tests_cant": "the tolerance is encoded in one number and must be decoded for all of them", "anchors": ["source/matcher/h2_matches_equation.hpp: h2_approximate, h2_equation"]}
{"id": "C51", "title": "Report lists count each suite, case, todo and tag once", "statement": "A listing (-l) has exactly one numbered line for each suite, case and todo visited that is not filtered and of a kind listed, the cases behind their suite; one line per tag of them with the numbers of times it occurs at suites and at cases (for up to 1024 tags); and its last line counts what is listed and what is filtered.", "quantifier": "every registered set", "why_tests_cant": "unbounded sets with tag table updates", "anchors": ["source/report/h2_report_list.cpp"]}
{"id": "C52", "title": "Integer Eq and the comparison forms of OK decide the arithmetic relations", "statement": "OK(Eq(e), a) on integers accepts exactly when e and a are the same number, and OK(a == b), OK(a < b), OK(a >= b) and so on pass exactly when the written relation holds.", "quantifier": "every pair of integers of the built-in types", "why_tests_cant": "2^128 pairs, conversions and swapped operands", "anchors": ["source/matcher/h2_matches_equation.hpp: h2_equation (integers)", "source/assert/h2_assert.hpp: h2_1cp, h2_2cp", "source/matcher/h2_matches_inequation.hpp"]}
{"id": "C53", "title": "Container matchers on native arrays and pointers see exactly the selected elements", "statement": "A container matcher applied to a native array examines exactly the array's elements; applied to a pointer with a range (s, e) it examines exactly the elements number s..e-1, and never reads memory outside them.", "quantifier": "every array length, pointer target and range", "why_tests_cant": "all combinations of sizes, runtime and template ranges", "anchors": ["source/matcher/h2_matches_container.hpp: H2_MATCHES_CONTAINER1"]}
{"id": "C54", "title": "A failed AllOf/AnyOf/NoneOf/ListOf names exactly the members to blame", "statement": "When OK fails on AllOf the report's entries carry exactly the numbers of the members that reject the value, in order; for NoneOf those that accept it; for ListOf the positions that are missing or rejected; for AnyOf all members.", "quantifier": "every tuple of matchers and every value", "why_tests_cant": "unbounded tuples and nesting", "anchors": ["source/matcher/h2_matches_logic.hpp", "source/matcher/h2_matches_container.hpp: h2_listof_matches"]}
{"id": "C55", "title": "Access to released memory and writes past the end are reported when the block ends", "statement": "After a release that reported nothing, the first read or write of any byte of the area's pages is reported at the end of the block as a use after free with its address; a write to the guard page behind a live area is reported as an overflow; if neither happened no such failure appears.", "quantifier": "every history of allocations, releases, reads and writes", "why_tests_cant": "every address and every interleaving of accesses with releases", "anchors": ["source/memory/h2_piece.cpp: violate_forbidden, set_forbidden, violate_fail", "source/memory/h2_block.cpp: check", "source/except/h2_crash.cpp"]}
{"id": "C56", "title": "A mocked call runs the reaction of the expectation it is charged to", "statement": "A call charged to an expectation runs the Return value or function given for that expectation, else the MOCKS body, else the original function; a call charged to nothing runs the original function. Return and Th affect only the last expectation.", "quantifier": "every list of expectations and every call history", "why_tests_cant": "unbounded histories and builder chains", "anchors": ["source/mock/h2_mocker.hpp: function_stub, Return, operator=", "source/mock/h2_routine.hpp"]}
{"id": "C57", "title": "A failed memory comparison shows every compared unit of both areas, coloured exactly where they differ", "statement": "When Me(...) fails, the table below the message shows side by side all the units compared (bits for width 1, hexadecimal numbers of 2, 4, 8 or 16 digits for widths 8, 16, 32 and 64), of both areas, each once and in order, with a fixed number of units per row and each row preceded by the hexadecimal number of its first unit. A unit is coloured exactly where the two areas differ; nothing is coloured exactly if all compared bits agree.", "quantifier": "every two areas, every length, every width, every width of the console", "why_tests_cant": "the rows, groups and partial last rows depend on lengths without bound and on all byte values", "anchors": ["source/report/h2_failure.cpp: h2_fail_memcmp", "source/report/h2_layout.cpp: split"]}
{"id": "C58", "title": "All failures of a case are shown, in order, below what they explain", "statement": "Whatever failures occur while a case runs, and however they are nested: with -c (and always for those of the case itself) all of them are kept in the order of occurrence; without -c the checks at the end add theirs only when there is none yet, and delete them completely otherwise. The report shows every failure exactly once, every explanation directly below the failure it explains and two columns further right. Several failures of one assertion, and the complaints of a mock, appear as explanations of one failure. Deleting a report deletes each failure once. A case is failed when one of its failures is no warning.", "quantifier": "every forest of failures, every sequence of failures a case is told of, every list of mock verdicts", "why_tests_cant": "failures nest to any depth and come in any number and order; tests look at a few shapes, usually one failure", "anchors": ["source/report/h2_failure.cpp: h2_fail::append_subling, append_child, foreach, ~h2_fail", "source/assert/h2_assert.cpp: h2_assert::stash", "source/mock/h2_mocker.cpp: h2_mocker_base::check", "source/mock/h2_mocks.cpp: h2_mocks::clear", "source/core/h2_case.cpp: h2_case::failing"]}
{"id": "C59", "title": "A failed comparison names its operands as written", "statement": "When OK(left op right) fails, with op one of == != >= <= > <, the message names the text left of the operator and the text right of it, without the blanks around the operator. Whatever the text of the expression, nothing else is lost or invented: the message shows either the whole text or the two sides of an occurrence of the operator in it.", "quantifier": "every expression text and every comparison operator", "why_tests_cant": "expressions are arbitrary program text: string literals, templates, nested brackets, arrows and shifts", "anchors": ["source/assert/h2_assert.cpp: __find_compare, __split_compare, h2_assert::failing", "source/assert/h2_assert.hpp: h2_1cp"]}
{"id": "C60", "title": "Long texts are shortened, short ones are shown completely", "statement": "A text in a message that fits the given width is shown completely, with newline, carriage return and tab as escape sequences. A longer one is shortened to the width: its beginning and its last columns remain, dots in between mark that something is missing. Neither that nor dimming quotation marks changes other colours or other text; lines that are made equally wide only get blanks at their ends.", "quantifier": "every line of words and styles, every width and tail", "why_tests_cant": "width, tail, word boundaries and characters of two columns interact; tests use a few ASCII strings", "anchors": ["source/utils/h2_line.cpp: h2_line::abbreviate, gray_quote, enclosed, samesizify", "source/utils/h2_string.cpp: h2_string::escape"]}
{"id": "C61", "title": "Colours do not change what is written and apply to what they enclose", "statement": "With colours off, exactly the text of a line is written. With colours on, a terminal shows the same characters, and every character is shown in the styles of the parts it belongs to, the innermost last; after a line nothing remains switched on.", "quantifier": "every line of text and styles, every nesting of styled parts", "why_tests_cant": "styles nest in any way and the styles in force are kept in a fixed array with removal by name; tests cannot see the terminal", "anchors": ["source/utils/h2_color.cpp: h2_color", "source/stdio/h2_console.cpp: h2_console::printl", "source/utils/h2_line.hpp: color, delta, gray"]}
{"id": "C62", "title": "The JUnit report tells what happened", "statement": "With -j the report is a readable XML document. It has an element for every suite of every round with its name, the number of its cases and how many failed or were skipped, and in it an element for every case visited, in this order, with its name, the name of its suite and how it ended; a case that failed shows its failures, no other case shows any.", "quantifier": "every set of suites and cases with any names, every order, number of rounds and outcome, every kind of failure", "why_tests_cant": "names and failures are arbitrary texts, rounds and options that stop a run early interact; tests look at one report", "anchors": ["source/report/h2_report_junit.cpp: h2_report_junit", "source/report/h2_failure.hpp: h2_fail::print(FILE*)", "source/core/h2_runner.cpp: h2_runner::main"]}
{"id": "C63", "title": "The console tells what happened", "statement": "On the console, the cases a verbosity asks for are named in the order visited, each with how it ended, its name, its suite and its place, and the failures of a case that failed (or warned) follow it when asked for. The last line begins with Failure exactly if a case failed in some round and tells the right number of cases for each outcome, of cases, assertions and rounds. The percentage of progress never exceeds 100.", "quantifier": "every set of suites and cases, every order, number of rounds, outcome and verbosity", "why_tests_cant": "rounds, outcomes, verbosity and the optional parts of the last line combine freely; tests look at a few outputs", "anchors": ["source/report/h2_report_console.cpp: h2_report_console", "source/core/h2_runner.cpp: h2_runner::main", "source/option/h2_option.hpp: verbose, progressing"]}
{"id": "C64", "title": "The line about a failed assertion tells what was expected and what was found", "statement": "The line printed for a failed assertion shows the assertion as written, the value expected and the value found, completely up to 10000 columns, unless an expression makes its value obvious; then the explanation, the message given by the user and the place, in this order and properly separated. A failure within another one is numbered and tells what was expected and found. Printing a failure again prints the same.", "quantifier": "every failure: kind of assertion, expressions, values, explanation, message, place, depth and verbosity", "why_tests_cant": "expressions and values are arbitrary texts, and many combinations of empty and obvious parts are possible; tests look at a few messages", "anchors": ["source/report/h2_failure.cpp: h2_fail_normal::print, h2_fail_unexpect::print, is_synonym, h2_fail_json::print", "source/stdio/h2_stdio.cpp: h2_cout::~h2_cout"]}
{"id": "C65", "title": "Two texts that differ are shown with their differences", "statement": "When two texts are compared and differ, and one of them is wider than 8 columns or details are asked for, both are shown completely below the message, piece by piece in turn, each row as wide as the terminal and behind its title. On a terminal with colours, the characters not in a longest common subsequence (compared as asked, with or without case) are green for the expected and red for the actual text, all others plain, whatever was switched on before. When a text is sought in another and one is wider than 16 columns, both are shown completely.", "quantifier": "every pair of texts, every terminal width from 10, every verbosity, with or without colours, any state of styles before", "why_tests_cant": "line breaks fall anywhere, also within coloured parts, where the style must be set again after the break; the longest common subsequence depends on both texts", "anchors": ["source/report/h2_failure.cpp: h2_fail_strcmp, h2_fail_strfind", "source/report/h2_layout.cpp: unified, seperate, line_break", "source/utils/h2_diff.cpp: h2_LCS", "source/utils/h2_color.cpp: h2_color"]}
{"id": "C66", "title": "What is printed about a memory failure is what happened", "statement": "When a block ends with areas left, one report is printed for every call site that left some, in the order of the first area each left. It tells the address of that first area, the bytes left there in all, and, unless there is only one area, every size with the number of areas of that size (below verbosity 4 at most three sizes and the number of the others), what the block is and where it began, and the numbered frames of the allocation. A stray write found on release is told with its address, the bytes now there, and its distance from the area: +k and overflow for the byte k bytes behind the end, -k and underflow for one k bytes before the beginning. The first forbidden access to an area is told with its distance from the end of a live area and from the beginning of a released one. A second release and a release with the wrong function are told with the address, the names of both functions the right way round, and the places.", "quantifier": "all histories of allocations, releases and accesses, all verbosities, backtraces and places", "why_tests_cant": "Which areas are left, in what sizes and from how many call sites, and where a stray access falls, are unbounded; tests print a handful.", "anchors": ["source/report/h2_failure.cpp: h2_fail_memory_leak, h2_fail_double_free, h2_fail_asymmetric_free, h2_fail_overflow, h2_fail_use_after_free", "source/memory/h2_leaky.cpp", "source/symbol/h2_backtrace.cpp: print", "source/utils/h2_line.cpp: sequence"]}
{"id": "C67", "title": "A name stands for one function, or nothing is stubbed", "statement": "STUB, MOCK and UNSTUB with a name in quotes act on the function the name stands for, at its address in the running program, whatever was looked up before: the symbol called so, or else the only function called so in any scope and with any parameters. If the name stands for no function or for several, no code is changed, the failure says so and lists the candidates (the first 16) with numbers from 0, and the case ends there unless the option to continue was given. An address of the file taken to the running program and back is itself.", "quantifier": "all symbol tables, load addresses, names and histories of lookups", "why_tests_cant": "The symbols of a program, its load address and what was looked up before are different in each build and run; a test sees one of them.", "anchors": ["source/stub/h2_fp.hpp: h2_fp<>::get", "source/symbol/h2_load.cpp", "source/symbol/h2_nm.cpp: get_by_name", "source/report/h2_failure.cpp: h2_fail_symbol", "source/core/h2_runner.cpp: stub, unstub, failing"]}
{"id": "C68", "title": "A method stands for the function that a call would run", "statement": "STUB and MOCK of a method act on the function that a call of it runs: for a method that is not virtual, the function itself; for a virtual method with an object given, the one of the class of that object; without an object, the one of the class named, found through an object made for this or through the symbol of the virtual table. If none of these is possible no code is changed and the failure names the class and tells to give an object.", "quantifier": "all classes, methods, objects, symbol tables, load addresses and histories of lookups", "why_tests_cant": "The representation of pointers to methods, the layout of virtual tables and the symbols of a build vary with classes and compilers; tests have a few classes.", "anchors": ["source/stub/h2_fp.hpp: get1, get2, get_virtual_mfp, is_virtual_mfp", "source/symbol/h2_load.cpp: vtable_to_ptr", "source/symbol/h2_nm.cpp: get_mangle"]}
{"id": "C69", "title": "Values are printed so that different values look different", "statement": "The text shown for a value in a failure is determined by the value: integers in decimal, floating point numbers to within half a millionth with no superfluous zeros, truth values by name, characters and texts in quotation marks, pairs, tuples and containers of any nesting with every element in order in brackets. Two values of the same type that are different look different, as long as no container has more than a hundred elements and no text contains quotation marks, control bytes used for colours, the character 0 or characters wider than a byte.", "quantifier": "all values of all types built from numbers, truth values, characters, texts, pairs, tuples and containers", "why_tests_cant": "Values are unbounded in size and nesting; whether two of them can be confused is a statement about all pairs of values.", "anchors": ["source/utils/h2_stringify.hpp: h2_stringify_impl", "source/utils/h2_misc.hpp: comma_if, quote_if"]}
{"id": "C70", "title": "Exactly the memory allocated by exempted functions is left out of leak checks and limits", "statement": "After any history of UNMEM(function) and UNMEM(\"name\"), an allocation is exempt exactly if one of the functions named is among its callers; exempt memory is not charged to the block it was allocated in, all other memory is.", "quantifier": "all histories of exemptions by function and by name, all call stacks and heaps", "why_tests_cant": "Which functions are exempt depends on the whole history, on symbol tables and on call stacks of any depth.", "anchors": ["source/memory/h2_exempt.cpp: h2_exempt::add_by_fp, add_by_name, in", "source/symbol/h2_backtrace.cpp: h2_backtrace::in, extract", "source/utils/h2_misc.hpp: h2_array_append", "source/memory/h2_piece.cpp"]}
{"id": "C71", "title": "A call stack is printed in order, from the call up to main, and call sites are told apart by it", "statement": "A printed backtrace has one entry for every frame, innermost first, and ends with that of main; each tells where addr2line finds the frame, or else the function, or else what the system says. Two allocations count as made at one place exactly if their call stacks are the same.", "quantifier": "all call stacks of any depth, and all forms of frame description", "why_tests_cant": "Call stacks are unbounded and the descriptions come from the system.", "anchors": ["source/symbol/h2_backtrace.cpp: h2_backtrace::dump, print, operator==", "source/memory/h2_leaky.cpp"]}
{"id": "C72", "title": "Je with a selector compares with the part it leads to", "statement": "Je(expected, selector) on an actual text passes exactly if the value the selector leads to in the actual text is accepted by the expected text, as Je(expected) would accept it alone; with ! exactly if it is not. If the last step leads to nothing it fails, if one of the texts is ill-formed the failure says so, negated or not, and options about the layout of output have no influence.", "quantifier": "all pairs of texts, all selectors, with and without case, negation and folding", "why_tests_cant": "Texts, values and selectors are unbounded; the selected part is written down and read again, and a test sees that only for the values it happens to use.", "anchors": ["source/matcher/h2_matches_json.cpp: h2_matches_json::matches", "source/json/h2_json.cpp: h2_json::select, match", "source/json/h2_node.cpp: format"]}
{"id": "C73", "title": "JSON printed for use in a program is a string literal of the same value", "statement": "With the option -S the JSON texts of a failure are printed so that they can be copied into a program: what stands behind expect> or actual> is, for a compiler, one string literal, and the text it means is read as the same JSON value, however lines are folded.", "quantifier": "all JSON values, all kinds of quotation marks, folded or not", "why_tests_cant": "Values are unbounded in depth and size and a test would have to compile what is printed.", "anchors": ["source/json/h2_json.cpp: h2_json::dump", "source/report/h2_failure.cpp: h2_fail_json::print", "source/option/h2_option.cpp: -S"]}
{"id": "C74", "title": "A block has the attributes that are written for it", "statement": "BLOCK(...) with any list of attributes - limit = n, align = n, fill = bytes in hexadecimal or a decimal number, noleak, unmem - separated by commas, names in any case of letters and blanks anywhere between, gives a block with exactly these attributes: the first allocation fails exactly if it asks for more than the limit, fresh memory holds the bytes written, leaks are not reported exactly if noleak is written and memory is not checked exactly if unmem is. What is not written is as in BLOCK().", "quantifier": "all lists of attributes, all ways of writing them, all literals of C for the numbers (decimal, hexadecimal, with fractions and exponents), all heaps", "why_tests_cant": "The attributes are found by searching a text for words; whether a word is found in the wrong place depends on all the other attributes and values.", "anchors": ["source/memory/h2_block.cpp: h2_block_attributes", "source/utils/h2_misc.cpp: get_keyvalue, hex2bytes", "source/memory/h2_memory.hpp: H2BLOCK"]}
{"id": "C75", "title": "Memory belongs to the block or case in which it is allocated", "statement": "Every area of memory belongs to the innermost BLOCK or case around its allocation; at the end of each block and case exactly the areas that belong to it and are not freed are reported as leaks. In UNMEM() and BLOCK(unmem), and everything called there, nothing is tracked; afterwards memory is tracked as before. Whatever happens in a block or case, the next one starts as if it were the first. Without memory check no leak is reported.", "quantifier": "all programs made of allocations, frees, failing assertions and blocks nested to any depth, with and without unmem and noleak; all cases with Setup and Cleanup", "why_tests_cant": "Nesting is unbounded, and the effect of one block on what follows shows only in particular combinations.", "anchors": ["source/memory/h2_memory.cpp: hook, stack::block", "source/memory/h2_stack.cpp: push, pop, new_piece", "source/core/h2_case.cpp: failing, post_cleanup, clear", "source/symbol/h2_backtrace.cpp: dump, in", "source/utils/h2_pattern.cpp: regex_match"]}
{"id": "C76", "title": "Every value of a Cases, and every pair of a Casess, is one test with exactly that value", "statement": "A suite has one test for each Case, one for each value of a Cases and one for each pair of values of a Casess, in the order of the text, each once, however often the suite is gone through; tests of one Cases or Casess have different names. Finding the tests executes no Setup, no Cleanup and no test. Running one of them executes the Setup blocks before it, this test alone, once, with its own values, and the Cleanup block once.", "quantifier": "all suites made of statements, Setup, Cleanup, Case, Cases and Casess in any number and order, all lists of values, all earlier runs of tests of the suite", "why_tests_cant": "The lists and the arrangement of a suite are arbitrary, and a test runs through the whole suite function with jumps, so that each combination behaves differently.", "anchors": ["source/core/h2_core.hpp: H2SUITE, H2Setup, H2Cleanup, H2Case, H2Cases, H2Casess, H2_An", "source/utils/h2_macro.hpp: H2PP_FOREACH, H2PP_FULLMESH", "source/core/h2_suite.cpp: enumerate, test, registor, cleaner"]}
{"id": "C77", "title": "Stubs and mocks last as long as the code they are made in", "statement": "Stubs and mocks made by a case are in force in it from the statement that makes them on, until UNSTUB or its end; then every function does again what it did before the case, and the expectations of exactly the mocks the case used are checked, each once. Stubs and mocks made in the global setup or in a suite outside of all blocks are in force in all cases, and are undone at the end of the run. So no case sees the stubs and mocks of another, in any order and in all rounds.", "quantifier": "all programs made of stubs, mocks and UNSTUB in the global functions, in suites and in cases; all suites, cases and functions; all rounds and orders of them; all cases left out", "why_tests_cant": "How long a stub lasts depends on what ran before it and on which suite and case are current then; no test sees all orders and combinations.", "anchors": ["source/core/h2_runner.cpp: main, enumerate, stub, unstub, mock", "source/core/h2_case.cpp: post_cleanup", "source/core/h2_suite.cpp: cleanup", "source/stub/h2_stubs.cpp: add, clear", "source/mock/h2_mocks.cpp: add, clear", "source/mock/h2_mocker.cpp: mock"]}
{"id": "C78", "title": "What is said about mocks is what happened", "statement": "At the end of a case a mock whose expectations are all met says nothing; otherwise it names the mocked function with its types and place and then, for exactly the expectations that are not met, in order, a phrase that stands for exactly the numbers of calls that were expected, the number of calls there were, and which of several expectations is meant. A call that no expectation is for is told with the arguments of the call. Arguments that do not match are told with everything the matchers say, in order, with the position of the argument, whose type is the one marked.", "quantifier": "all mocks with any number of expectations, counts, types and names; all numbers of calls; all arguments; all failures of matchers, with any failures below and beside them", "why_tests_cant": "Counts, numbers of expectations and trees of failures are unbounded; tests look at single messages.", "anchors": ["source/mock/h2_checkin.cpp: check, actual, expect", "source/mock/h2_mocker.cpp: argument, signature, check, failing", "source/mock/h2_mocker.hpp: matches", "source/mock/h2_tuple.hpp: tuple_matches", "source/utils/h2_misc.cpp: index_th"]}
{"id": "C79", "title": "Global setups and cleanups are called when they should be", "statement": "Every function made by GlobalSetup is called once before anything else and every one made by GlobalCleanup once behind everything else; those made by GlobalSuiteSetup and GlobalSuiteCleanup before and behind every suite, when its cases are collected and again in every round; those made by GlobalCaseSetup and GlobalCaseCleanup directly before and behind every case that is executed, and for no other; always all of them, each once, in the order of the text. A check that fails in one of them is a failure of the case it was called for.", "quantifier": "all numbers of global functions of every kind, all suites and cases, all rounds with their orders and the cases left out in them, all checks that fail", "why_tests_cant": "Numbers, orders and rounds are unbounded, and what a failing check does depends on what was executed before.", "anchors": ["source/core/h2_runner.hpp: global_setups, __H2GlobalCallback", "source/core/h2_runner.cpp: main, enumerate, failing", "source/core/h2_case.cpp: failing", "source/utils/h2_misc.hpp: h2_array_append"]}
{"id": "C80", "title": "An address of a socket is the same address as text", "statement": "The address of a packet seen by the program under test is the address written in the test, and the other way round: every internet address and port written as text and read again is the same address and port, text of an address is read as that address whatever was in the structure before, different addresses have different texts, the text always fits the buffers it is written to, who receives a packet injected from an address and answers to it sends to that very text, and who is answered by a packet without sender sees the address they sent to.", "quantifier": "all internet addresses and ports, all contents of the structure before, all texts, all histories of socket calls", "why_tests_cant": "There are 2^48 addresses with ports, and histories are unbounded.", "anchors": ["source/net/h2_socket.cpp: iport_parse, iport_tostring, recvfrom, accept, sendto, connect, put_incoming, put_outgoing"]}
{"id": "C81", "title": "A missing JSON member is shown beside the additional one most like it", "statement": "When two JSON objects differ in that one member has another name in the actual object, the printed comparison shows the old name beside the new one, however many other members were added and wherever: the missing member is set beside the first of the additional members that are most like it, a value is at least as like to itself as any other value, and names are as like as few edits are between them. Nothing is set beside it as its counterpart when nothing is like it enough.", "quantifier": "all pairs of JSON objects with any nesting, all names and values, with and without regard to case", "why_tests_cant": "Objects, names and values are unbounded, and which member is chosen depends on all of them together.", "anchors": ["source/json/h2_match.cpp: similarity, array_similarity, object_similarity, search", "source/json/h2_dual.cpp: h2_json_dual", "source/utils/h2_diff.cpp: h2_similarity"]}
{"id": "C82", "title": "Colours in a JSON comparison tell what differs", "statement": "In the printed comparison of two JSON trees nothing that is expected is coloured when the trees match, and nothing that is there is coloured as different, whatever is folded. When they do not match, some word of the comparison is coloured, however deep the difference lies and whatever is folded, and the key of a missing member is coloured.", "quantifier": "all pairs of JSON trees of any size and depth whose objects have no key twice, all foldings, with and without regard to case", "why_tests_cant": "Trees are unbounded, and a colour can be lost at any depth when lines are folded into one.", "anchors": ["source/json/h2_dual.cpp: h2_json_dual, align", "source/json/h2_match.cpp: match", "source/utils/h2_line.cpp: folds, foldable"]}
{"id": "C83", "title": "A function is found behind the jumps that lead to it", "statement": "A function that is named by the address of a jump to it, as functions of shared libraries and of incrementally linked programs are, is found: when up to 32 jumps lead from the address to code that is no jump, exempting the address exempts exactly that code; with more jumps than are followed, an address on the way is taken, never one that is not. On arm64 an entry of a linkage table, and the jump written by a stub, is followed to exactly where the processor goes. Before a function is patched all pages with bytes that are patched are made writable, and no other.", "quantifier": "all contents of memory, all addresses and chains of jumps of all lengths; all displacements, pages and registers in the instructions; all page sizes and places of functions in a page", "why_tests_cant": "What is at an address is decided by the linker and the loader, not by a test; every content of memory, displacement and placement is possible.", "anchors": ["source/symbol/h2_cxa.cpp: follow_jmp, sign_extend, fetch_opcode", "source/memory/h2_exempt.cpp: add_by_fp", "source/stub/h2_e9.cpp: h2_e9_save"]}
{"id": "C84", "title": "Macros with a variable number of arguments choose the form for what is written", "statement": "The number of arguments written, also when a macro stands for them, is the one by which the form of a macro is chosen: what is written for such a call is what is written for the call of the macro for that number. Parentheses around a single argument are recognised and removed, and nothing else is. Going through a list writes, for every element once and in order, what the given macro or function writes for the element and its number, with the separator between; going through two lists does so for every pair; with one list, for every pair of its elements.", "quantifier": "all macros of the program beside those of the library; all arguments and lists up to 63 elements (33 where the number of the element is used), with all texts between parentheses; all callbacks", "why_tests_cant": "Macros are expanded before there is a program to run; a test is one expansion, and the number and the form of arguments and of the macros around them is unbounded.", "anchors": ["source/utils/h2_macro.hpp: H2PP_IS_EMPTY, H2PP_NARG, H2PP_VCALL, H2PP_IS_PARENTHESIS, H2PP_REMOVE_PARENTHESES_IF, H2PP_FOREACH, H2PP_FULLMESH, H2PP_EVAL", "source/utils/h2_macro.in.hpp", "source/utils/h2_misc.hpp: H2Foreach, H2Fullmesh"]}
{"id": "C85", "title": "Numbers of different types are compared by their values", "statement": "A number where a matcher is expected, in OK(e, a) or inside other matchers, accepts exactly the same number, whatever the types of the two are; Eq does so too, and with a floating operand what is within 0.00001. OK(l < r) and the other comparisons pass exactly when the relation holds between the two numbers; OK(l == r) passes exactly when OK(l != r) fails. OK(true, a) accepts exactly what is not zero. Negation is exact for every matcher, whatever conversions it makes; CastOf compares the converted number; nothing equals NaN, and infinity equals itself.", "quantifier": "all pairs of arithmetic types; all numbers of these types; all matchers of numbers made of Eq, Nq, Gt, Ge, Lt, Le, CastOf, Not, !, &&, ||, variables of type h2_matcher and matchers of the user; all ways to round to floating types", "why_tests_cant": "Which conversions the compiler inserts depends on the pair of types, and whether they change a number depends on the number; there are more pairs than tests.", "anchors": ["source/matcher/h2_matcher_cast.hpp: h2_matcher_cast_impl", "source/matcher/h2_matcher.hpp: h2_matcher, h2_polymorphic_matcher", "source/matcher/h2_matches_equation.hpp: h2_equation, Equals", "source/matcher/h2_matches_inequation.hpp", "source/matcher/h2_matches_cast.hpp: CastOf", "source/assert/h2_assert.hpp: h2_ok2, h2_1cp", "source/utils/h2_numberfy.hpp"]}
{"id": "C86", "title": "Matchers defined by a user, and IsEven, IsOdd, IsDivable, IsInteger and IsNaN, decide what they say", "statement": "A matcher defined with H2MATCHER accepts exactly what its body accepts, alone, negated and beside others, and when it fails its message is printed. IsEven and IsOdd accept exactly the even and the odd numbers of every integer type; IsDivable(e) accepts exactly the multiples of e; IsInteger exactly the whole numbers; IsNaN exactly NaN.", "quantifier": "all integer types and numbers; all floating values; all divisors; all bodies, messages, expected and actual values", "why_tests_cant": "Remainders of negative numbers and of mixed types, and what is not finite, are the cases that examples leave out.", "anchors": ["source/matcher/h2_matcher_aux.hpp", "source/matcher/h2_matcher_customize.hpp: __H2MATCHES", "source/assert/h2_assert.cpp: stash, failing"]}
{"id": "C87", "title": "PF fails exactly when the block takes more than the time that is allowed", "statement": "PF(n) { … } runs the block exactly once, however it is left, and fails exactly when it has taken more than n milliseconds of processor time; the failure tells the time allowed and the time taken.", "quantifier": "all numbers of milliseconds, all readings of the clock, all ways to leave the block", "why_tests_cant": "The time a block takes differs from run to run; a test shows one of them.", "anchors": ["source/assert/h2_timer.cpp", "source/assert/h2_timer.hpp: H2PF", "source/utils/h2_misc.hpp: h2_once"]}
{"id": "C88", "title": "Texts, pointers and integers compared with one another decide what they say", "statement": "Two texts, each a char* or a std::string, are equal exactly when they have the same characters; ~Eq and CaseLess compare them without regard to case, *Eq and SpaceLess by their words. A null pointer is equal to null pointers only. Two raw or shared pointers that are not both texts are equal exactly when their addresses are; a pointer and an integer when the integer is the address. The order of two texts is that of a dictionary. Nq, Not, !, != and KO say the opposite.", "quantifier": "all texts, all addresses, all integers of all integer types, all combinations of the modelled types, all nestings of negations and modifiers", "why_tests_cant": "The type of each operand selects another template; there are dozens of pairs of types, and for each of them all values.", "anchors": ["source/matcher/h2_matches_equation.hpp: h2_equation", "source/matcher/h2_matcher_cast.hpp", "source/matcher/h2_matches.hpp: h2_matches_null", "source/matcher/h2_matches_inequation.hpp", "source/utils/h2_numberfy.hpp", "source/utils/h2_string.hpp"]}
{"id": "C89", "title": "The text of an expectation says what the matcher checks", "statement": "The text by which a failure describes what was expected, read with the usual precedence (the signs !, ≠, ~ and * before and, and before or, brackets, commas, texts in quotation marks; ~ makes case and * makes white space meaningless in what follows), can be read in exactly one way, and what it says is true of a value exactly when the matcher accepts the value; two matchers with the same text accept the same values.", "quantifier": "all nestings of matchers (numbers, texts, Eq, Nq, Ge, Gt, Le, Lt, Se, Substr, StartsWith, EndsWith, We, Re, Any, IsTrue, IsFalse, Not, !, CaseLess, SpaceLess, &&, ||, Conditional, AllOf, AnyOf, NoneOf, Every, Has, HasKey, HasValue, CountOf, ListOf, Pair and matchers of the user), all values", "why_tests_cant": "Where brackets and negations are needed depends on the whole nesting; a test reads the text of one.", "anchors": ["source/matcher/h2_matches.hpp: C::pre, h2_matches_expection", "source/matcher/h2_matches_logic.hpp", "source/matcher/h2_matches_equation.hpp", "source/matcher/h2_matches_inequation.hpp", "source/matcher/h2_matches_container.hpp", "source/matcher/h2_matcher.hpp: h2_polymorphic_matcher", "source/utils/h2_line.cpp: has"]}
{"id": "C90", "title": "A mock steps aside while it works, comes back, counts each call once and loses no expectation", "statement": "While the reaction of a mocked function (or the function itself, behind the mock) runs, every call of the function reaches the function; any other call reaches the latest MOCK or STUB of the function called. A call from the test is counted once, however often the reaction calls the function again. Afterwards the function is what the latest MOCK, STUB or UNSTUB said. At the end of the case every expectation written in the case that was not met is reported.", "quantifier": "all programs of functions, fakes and reactions that call each other to any depth, all sequences of MOCK, STUB, UNSTUB, calls and assertions, with and without -c", "why_tests_cant": "The code of a function is patched, put back and patched again at every call; what is there depends on everything that ran before and on how it was left.", "anchors": ["source/mock/h2_mocker.hpp: function_stub, I", "source/mock/h2_mocker.cpp: mock", "source/mock/h2_mocks.cpp", "source/stub/h2_temporary.cpp", "source/stub/h2_stubs.cpp"]}
{"id": "C91", "title": "Durations, footprints and counts on the console can be read back", "statement": "A duration is printed as a number and a unit whose value differs from the duration by less than one in the last digit printed, and exactly below 100 milliseconds; a volume likewise, exactly below 1024 bytes; a longer duration or a larger volume is never printed as a smaller one. The line behind a case that passed and the line about a suite give the number of assertions, the footprint and the duration exactly if there are any, and the line about a suite gives each outcome that occurred with its count and no other.", "quantifier": "all durations (also negative, when the clock was set back) and volumes, all counts and names, all combinations of the parts that are printed", "why_tests_cant": "The units and the parts that are left out depend on the amounts; carries near the boundaries of the units (59.95 seconds, 1023.96 KB) are never met by accident.", "anchors": ["source/report/h2_report_console.cpp: format_volume, format_duration, format_units, on_suite_endup, print_perfix", "source/utils/h2_misc.hpp: comma_if"]}
{"id": "C92", "title": "What a run leaves behind agrees with what happened, from the command line to the exit status", "statement": "A test program started with a correct command line gives every case one turn in each round asked for. Without -l and -f a case runs in its turn exactly if it is not TODO, the patterns of -i and -e ask for it, and -b has not been used up. The console names exactly the cases that failed, in order, with their suites and places, and shows all their messages; its last line says Failure exactly if some case failed; .last_order is left behind exactly then; the JUnit file has one element for each turn that tells how it came out; with -x the exit status is the number of failures. So all of them agree, and an assertion that fails in a case is seen in all of them. -l runs nothing and lists exactly the cases that would be run, in the order in which they would be run.", "quantifier": "all programs (suites, cases, code whose behaviour may depend on everything that ran before), all command lines, all recorded orders and random numbers", "why_tests_cant": "Option parsing, filters, order, counting and each report are written apart from each other; that they agree for every program and command line cannot be seen from runs of one.", "anchors": ["source/core/h2_runner.cpp: main, enumerate, filter", "source/report/h2_report.cpp: initialize, registor", "source/report/h2_report.hpp", "source/option/h2_option.cpp: parse"]}
{"id": "C93", "title": "What the library replaces for itself is replaced only where it should be, and stubs are not disturbed by it", "statement": "A call in a test runs the fake of a STUB if there is one; otherwise the function itself, except that output, names of hosts and throw always, sockets inside of SOCK, and memory outside of unmem blocks (unless -m) lead to the library. A stub is not disturbed by what the library does in between. After each case, however it ended, every function is again what it was at the beginning of the run. A function that nobody asked to replace runs itself.", "quantifier": "all sequences of cases with any nesting of SOCK and unmem blocks, STUB, UNSTUB, lookups and failures, and all functions", "why_tests_cant": "Library and tests patch the same functions; whether one undoes the patch of the other depends on the order of all patches made before.", "anchors": ["source/memory/h2_exempt.cpp: h2_exempt_stub, setup", "source/memory/h2_memory.cpp: hook, block", "source/net/h2_socket.cpp: start, stop", "source/stub/h2_stubs.cpp", "source/stub/h2_source.cpp", "source/core/h2_case.cpp: clear, post_cleanup", "source/stdio/h2_stdio.cpp: initialize", "source/net/h2_dns.cpp: h2_resolver"]}
{"id": "C94", "title": "With -d a failing assertion stops in a debugger, and never without one", "statement": "The library takes itself to be in a debugger exactly when a process traces it, whatever the name of the test program is. With -d the program executes the breakpoint instruction, which would kill it otherwise, only directly after it has seen a debugger, once for each failure, and before the failure is told to the case. The user is asked for a debugger exactly if none was there, directly after that was seen, and at most once in a run. Without -d none of this happens. A later failure without a debugger asks again, and the prompt names the debugger that is started.", "quantifier": "all numbers of failures, all schedules of debuggers coming and going, all contents of /proc/self/status", "why_tests_cant": "Debuggers come and go at any time; tests do not run under one, and a wrong breakpoint kills the program.", "anchors": ["source/except/h2_debug.cpp: in_debugging, h2_attach_debugger, h2_raise_trap", "source/core/h2_runner.cpp: failing", "source/utils/h2_misc.hpp: h2_once_if"]}
{"id": "C95", "title": "A value is printed by what its type provides, at every depth, and every type can be used", "statement": "When a value is printed for a failure, its class decides: the first of tostring(), toString(), Tostring(), ToString() and to_string() that gives a text; or operator<<, in quotes if the class is a kind of text; or what() of an exception; or its elements; or those of the container below an adaptor; otherwise a question mark. Null pointers, booleans, characters and texts are shown as such. This holds for the parts of pairs, tuples, containers and adaptors, nested to any depth. A class may have several of these, and its values can always be used in an expectation.", "quantifier": "all types built from classes with any methods and operators by pairs, tuples, containers and adaptors, and all values of them", "why_tests_cant": "The printer is chosen by overlapping templates; each combination of what a class may have is a different program, and types nest without bound.", "anchors": ["source/utils/h2_stringify.hpp: h2_stringify_impl", "source/utils/h2_template.hpp: h2_is_container, h2_is_string, h2_is_container_adaptor"]}
{"id": "C96", "title": "The user's own matchers and methods are called a known number of times, in the order written", "statement": "While a value is matched, every matcher the user defined with H2MATCHER and every method named in Member is called exactly once for each value it stands for, from left to right and element by element, also when the outcome is already decided; only AnyOf (after an operand that accepts) and Has (after enough elements) leave out the rest, and elements out of range and the branch of Conditional that was not chosen are left out. So a matcher made of matchers does what the assertions one after the other would do, whatever effects the functions have. KO, Not and ! change no call. A function without effects counts as its test. The message of an own matcher is made exactly when the assertion fails, once.", "quantifier": "all matcher expressions, all values and containers, all functions of the user with any effects and any answers from one call to the next", "why_tests_cant": "The functions may have effects and answer differently each time; which of them are called depends on all answers before, in expressions of any shape and size.", "anchors": ["source/matcher/h2_matcher_customize.hpp: H2MATCHER", "source/matcher/h2_matches_member.hpp: h2_member_method_matches, h2_member_data_matches", "source/matcher/h2_matches_logic.hpp", "source/matcher/h2_matches_container.hpp", "source/assert/h2_assert.cpp: stash"]}
{"id": "C97", "title": "What cases write and the report stay readable on the terminal; progress leaves nothing behind", "statement": "When the run is over, the terminal shows the lines of the report one below the other, and no line of progress of a case that wrote nothing, nor of the collecting of suites. What a case writes (verbosity 4 and more) is there from the beginning of a row, below the line of progress of that case if progress is shown, and neither the report nor later cases overwrite it. A line of progress never takes more than one row, however long the names are. With a verbosity below 4 nothing that is written is shown. What the suites write while they are collected stays, and so does the line about a case left to do.", "quantifier": "all sequences of cases and outcomes, all texts written at any point in pieces of any size, all names, verbosities, widths of the terminal from 17 columns on and numbers of suites", "why_tests_cant": "Whether a row is overwritten depends on who wrote last and on the width of the terminal; tests do not look at a terminal, and progress is off there.", "anchors": ["source/report/h2_report_console.cpp: print_bar, on_case_start, on_case_endup, on_runner_endup", "source/stdio/h2_stdio.cpp: write", "source/core/h2_runner.cpp: enumerate", "source/utils/h2_line.cpp: padding, abbreviate", "source/stdio/h2_console.cpp: prints, printl, width"]}
{"id": "C98", "title": "The footprint told about a case is the most memory it held at one time", "statement": "The footprint that is told about a case or a suite is the largest number of bytes that were allocated and not yet released at one moment between its beginning and its end: never more were held, and at some moment just as many were. This counts all memory allocated by the case, also inside of its BLOCKs, and is right however the memory is released.", "quantifier": "all histories of allocations, releases, blocks and accesses to memory in any order", "why_tests_cant": "The largest amount is a matter of all moments of a history of any length.", "anchors": ["source/memory/h2_block.cpp: new_piece, rel_piece, footprint", "source/memory/h2_memory.cpp: footprint", "source/core/h2_case.cpp: post_cleanup", "source/core/h2_suite.cpp: cleanup"]}
{"id": "C99", "title": "The number of assertions told is the number of checks made", "statement": "The number of assertions told at the end of a run is the number of checks made in all suites and rounds and before them, however they end: one for each OK, KO and JE, each PF, COUT and Ptx, one for each comparison of an argument of a call of a mock with what is expected, and one for each expectation of a mock when its case ends. The number told for a suite is that of the checks in its setups and cleanups and in its cases in this round, and the number told for a case is that of the checks in the case itself in this round, whatever other cases and suites do.", "quantifier": "all programs with any numbers of suites, cases and checks at any place, all numbers of rounds and all orders of suites and cases in each", "why_tests_cant": "A check must be counted in the right place in every order and number of rounds; tests run one order once.", "anchors": ["source/core/h2_runner.cpp: asserts, main", "source/core/h2_case.cpp: clear", "source/core/h2_suite.cpp: clear", "source/assert/h2_assert.cpp: stash", "source/mock/h2_tuple.hpp", "source/mock/h2_mocker.cpp: check"]}
{"id": "C100", "title": "Every exception that is reported is reported with its own type, place and backtrace", "statement": "When a case ends, each exception that is to be told about (thrown where Catch expects none or another type or value, not caught at all, or any exception with -W exception) is reported once, in the order they were thrown, with the name of its own type, what about it is wrong, the place of the Catch, and the calls that led to the throw of just this exception; a Catch that expects an exception where none is thrown is reported with the type it expects; without -c nothing behind the first failure is reported.", "quantifier": "all cases with any numbers of exceptions thrown inside and outside of Catch, of any types, and all settings of -c, -W exception and -W uncaught", "why_tests_cant": "Reports are made when exceptions are thrown but printed when the case has ended, so every later exception can change them; tests throw one exception at a time.", "anchors": ["source/except/h2_exception.cpp: __cxa_throw, try_catch, try_catch_finally", "source/except/h2_exception.hpp: check_catch", "source/core/h2_suite.cpp: test", "source/core/h2_case.cpp: failing", "source/symbol/h2_cxa.cpp: demangle", "source/report/h2_failure.cpp: h2_fail_exception", "source/report/h2_report_console.cpp: on_case_endup"]}
{"id": "C101", "title": "Types in messages are shown as they are, and different types are shown in different ways", "statement": "Where a message names a type (the result and each argument of a mocked function, the types of values that cannot be compared), it shows const in front, the name with its pointers and what is const or volatile about what they point to, and & or && for references, the arguments of a function all and in order; two types, or two lists of arguments, that are shown in the same way are the same.", "quantifier": "all types made of names, pointers of any depth, const, volatile and references, and all lists of them", "why_tests_cant": "There is no end of types and signatures; that no two are shown in the same way is a statement about all pairs of them.", "anchors": ["source/symbol/h2_cxa.hpp: type_name", "source/symbol/h2_cxa.cpp: demangle", "source/mock/h2_tuple.hpp: tuple_types", "source/mock/h2_mocker.hpp: h2_mocker", "source/matcher/h2_matches_equation.hpp"]}
{"id": "C102", "title": "TypeEq<T>() accepts just the values of the type T", "statement": "OK(TypeEq<T>(), a) passes if and only if T is the type of the value of a (that of a without references and qualifiers), OK(!TypeEq<T>(), a) if and only if it is not; no two types are accepted for one value; and when it fails, the type wanted and the type found are shown in different ways.", "quantifier": "all types of values (classes, numbers, pointers of any depth, enumerations, arrays, functions), with const, volatile and references, and all types T", "why_tests_cant": "There is no end of types; each test is one pair of them, chosen when it is compiled.", "anchors": ["source/matcher/h2_matches_equation.hpp: h2_type_equation, TypeEq", "source/utils/h2_template.hpp: h2_decay", "source/assert/h2_assert.hpp: h2_ok2"]}
{"id": "C103", "title": "Tests declared outside of suites are found once each and run with their own values", "statement": "CASE declares one test, CASES and CASES_T one for each value or type of the list, CASESS and CASESS_T one for each pair, of two lists or of one with itself, TODO, TODOS and TODOSS one that is left to do; they are found once, in the order of the text, under the prefix, their numbers and the texts of their values; in every round each selected one that is not left to do runs its own block once, with its own values as they are written, and nothing else is run.", "quantifier": "all sequences of declarations, lists of values of any length, numbers of rounds, orders and selections of tests in them", "why_tests_cant": "The tests are generated; each test of a generator has some lists and one order, and a value that comes to another test's block is seen in a run only if that block checks for it.", "anchors": ["source/core/h2_core.hpp: H2CASE, H2CASES, H2CASESS, H2CASES_T, H2CASESS_T, H2TODO, H2TODOS, H2TODOSS", "source/core/h2_suite.cpp: registor, enumerate, test", "source/core/h2_runner.cpp: enumerate, main", "source/utils/h2_macro.hpp: H2PP_FOREACH, H2PP_FULLMESH"]}
{"id": "C104", "title": "What -h says about the options is true", "statement": "The table that -h prints names exactly the letters that mean something. A word behind an option shown without argument belongs to no option; an option shown with a number takes it from its own word or the next; an option shown with a default does without an argument what it does with the default; an option shown with several words takes them as if it were written again before each; one shown with one word takes one. The words shown for -l, -S and -W and the keys shown for -i and -e are those the program takes. -h with a word, behind options the program goes on after, prints the page about that word. The lines of the table have one width.", "quantifier": "all letters, words, numbers and argument lists, and all versions and dates in the title", "why_tests_cant": "The text is written by hand beside the parser; a test of the parser does not read the text, and a test that compares the text does not run the parser; that a letter outside the table does nothing is a claim about all letters and all arguments.", "anchors": ["source/option/h2_option.cpp: usage, getopt, h2_option::parse"]}
{"id": "C105", "title": "A mock has a matcher of its own for each argument of the function", "statement": "The parameters of Once, Twice, Times, Any, Atleast, Atmost, Between and With, what they pass on, the types of the matchers that are kept, and the functions Th0 to Th19 are written out for each of the numbers 0 to 19, once each and in this order, each with the type for the argument of its own number and with the name and place of its own number. This is so because writing something a number of times gives the texts for 0 up to that number less one with the separator between; and the tests of numbers, the last of several arguments and the choice by a number of arguments are what they say.", "quantifier": "all programs with other macros (none of the names used); all counts up to 32, all macros that are repeated, separators and arguments; all numbers up to 31 and 63 that are compared; all lists up to 63 elements", "why_tests_cant": "The text is written by the preprocessor; what a test compiles and runs is the one text, and mocked functions with many arguments are rare; that macros of the program do not change it is a claim about all of them.", "anchors": ["source/mock/h2_mocker.hpp: H2_Typedef_Matcher, H2_Default_Matcher, H2_Forward_Matcher, H2_Th_Matcher", "source/utils/h2_macro.hpp: H2PP_REPEAT, H2PP_NOT, H2PP_BOOL, H2PP_EQ, H2PP_LAST, H2PP_NCALL"]}
{"id": "C106", "title": "The variables of Cases, Casess and Todos start as the first value of their list", "statement": "The variable x in the block of Cases and Todos is declared with the first of the values that are written, whether these stand in parentheses or not; the variables x and y of Casess and Todoss with the first value of the first list and the first value of the last list. A value itself is not changed by this.", "quantifier": "all programs with other macros (none of the names used), all lists of up to 63 values or lists, written out or by macros, in up to 256 pairs of parentheses", "why_tests_cant": "The text is made by the preprocessor from what the user writes; values can be any text with balanced parentheses, and a test has some of them only.", "anchors": ["source/core/h2_core.hpp: H2_An, H2_XAn, H2_YAn, H2Cases, H2Casess, H2Todos, H2Todoss", "source/utils/h2_macro.hpp: H2PP_EVAL, H2PP_IS_PARENTHESIS, H2PP_HEAD, H2PP_LAST"]}
{"id": "C107", "title": "Addresses of packets mean the same as text in a test and as bytes in the program", "statement": "The sender that accept and recvfrom store for a packet is, byte by byte and in the order of the network, the address and port that the test gave as text; the sender and destination that Ptx compares are the text of the address and port the program used. So an answer to the sender of a packet is seen to go to the text the test gave; what the test sees as the address of the program is, given back as a sender, the same address; different addresses or ports have different texts; a missing port is 0. What DNS and SOCK take for an address is just four numbers below 256, without leading zeros, with points between. The bytes of an address from getaddrinfo are those DNS was given, and so is what it says of their family.", "quantifier": "all addresses, ports and texts, and all contents the structure had before", "why_tests_cant": "There are 2^48 addresses with ports, and the byte order and the reading of numbers are wrong for some only; that nothing else is an address is a claim about all texts.", "anchors": ["source/net/h2_socket.cpp: iport_parse, iport_tostring, accept, recvfrom, sendto, connect", "source/net/h2_dns.cpp: inet_addr, getaddrinfo"]}
{"id": "C108", "title": "The text of a container matcher says how many elements and which are meant", "statement": "The text by which a failure describes Has or Every (of one or two arguments), HasKey, HasValue or CountOf, with a negation before it and an amount (* n) and a range behind it, and with such matchers, integers and order relations to integers inside, can be read in one way only; Has(f) * n in it says that f is true of n elements or more (Has(f, g) * n of the keys and values of n pairs), and what the text says is true of a value exactly when the matcher accepts the value. So matchers with the same text accept the same values.", "quantifier": "all matchers nested to any depth, with all amounts (also 0 and below) and ranges, and all values", "why_tests_cant": "Amounts are handed on to the matchers inside and multiplied there, so what text and verdict say depends on all the levels together; a test looks at a few texts.", "anchors": ["source/matcher/h2_matches.hpp: C, post, pre", "source/matcher/h2_matches_container.hpp: H2_MATCHES_CONTAINER2, h2_has1_matches, h2_has2_matches, h2_every1_matches, h2_every2_matches, h2_countof_matches", "source/matcher/h2_matches_inequation.hpp", "source/matcher/h2_matcher.hpp: h2_polymorphic_matcher, H2_MATCHES_CONFIGURE"]}
