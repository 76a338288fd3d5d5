{"id": "C01", "title": "Fixed-capacity containers never exceed their capacity and behave like lists", "statement": "For a small_vector / small_string of any capacity, after any sequence of clear, resize, grow, push_back, pop_back and element writes, size() <= capacity() and the visible elements are exactly those a plain list would hold; a call whose documented requirement is violated (push on full, pop on empty, resize or grow past capacity, index out of range) is reported through the assertion handler and never silently changes memory. (The size_t addition inside grow() can wrap around for an argument close to 2^64; the property then fails and this is recorded.)", "quantifier": "every capacity, every element type, every finite sequence of operations with every argument", "why_tests_cant": "the operation sequences are unbounded and the failing arguments are at extremes no unit test enumerates", "anchors": ["include/snitch/snitch_vector.hpp: small_vector_span::{resize,grow,push_back,pop_back,back,operator[]}", "include/snitch/snitch_vector.hpp: small_vector"]}
{"id": "C02", "title": "Appending a string keeps the longest prefix that fits and reports truncation exactly", "statement": "append(ss, str) never alters what is already in ss; afterwards ss holds the old content followed by the longest prefix of str that fits in the capacity; it returns true if and only if the whole of str was appended. The compile-time and the run-time implementation give the same content and the same result.", "quantifier": "every capacity, every initial content, every appended string (including empty, including full destination)", "why_tests_cant": "needs all lengths relative to all capacities; two separate implementations must agree on every input", "anchors": ["src/snitch_append.cpp: append_fast(small_string_span, std::string_view)", "include/snitch/snitch_append.hpp: append_constexpr(small_string_span, std::string_view)"]}
{"id": "C03", "title": "Appending several arguments equals appending their concatenation", "statement": "append(ss, a1, ..., an) for string-like arguments leaves ss holding the old content followed by the longest fitting prefix of a1++...++an, and returns true if and only if everything fitted; no argument after one that was truncated leaves any trace.", "quantifier": "every capacity, every initial content, every list of arguments of every length", "why_tests_cant": "the interaction of short-circuiting with partially filled buffers has unboundedly many cases", "anchors": ["include/snitch/snitch_append.hpp: append(small_string_span, T&&, U&&, Args&&...)"]}
{"id": "C04", "title": "Unsigned integers are printed canonically and round-trip", "statement": "The compile-time printing of an unsigned integer writes the canonical numeral in the requested base (2..16, as used: 10 and 16): only digits, no leading zero except for 0 itself, and reading the numeral back gives the same integer. The temporary buffer used is always large enough and no write is out of range for base 10.", "quantifier": "every unsigned 64-bit value (the theorem covers every natural number for the numeral, and every value below 2^64 for the buffer)", "why_tests_cant": "2^64 inputs", "anchors": ["include/snitch/snitch_append.hpp: num_digits<unsigned>, append_constexpr(small_string_span, unsigned), max_uint_length"]}
{"id": "C05", "title": "Signed integers are printed canonically and round-trip, including the most negative one", "statement": "The compile-time printing of a signed integer writes '-' if and only if the value is negative, followed by the canonical decimal numeral of its magnitude; reading it back gives the same integer. This includes the minimum value, whose magnitude is not representable; no intermediate step overflows and no buffer write is out of range.", "quantifier": "every signed 64-bit value", "why_tests_cant": "2^64 inputs and an asymmetric extreme", "anchors": ["include/snitch/snitch_append.hpp: num_digits<signed>, append_constexpr(small_string_span, signed), max_int_length"]}
{"id": "C06", "title": "Pointers print as nullptr or as 0x followed by a fixed number of hex digits", "statement": "append(ss, ptr) prints 'nullptr' for a null pointer and otherwise '0x' followed by exactly 2*sizeof(void*) lower-case hexadecimal digits which read back as the pointer value; with insufficient room the output is the longest prefix that fits and the result is false.", "quantifier": "every pointer value, every capacity, every initial content", "why_tests_cant": "2^64 values times all capacities", "anchors": ["src/snitch_append.cpp: append_fast(small_string_span, const void*)"]}
{"id": "C07", "title": "The truncation marker is always placed at the end and within capacity", "statement": "truncate_end(ss) leaves a string of length min(size+3, capacity) which ends with min(3, capacity) dots and whose other characters are the leading characters of the original content, unchanged.", "quantifier": "every capacity including 0, 1, 2; every content length", "why_tests_cant": "needs all (size, capacity) pairs", "anchors": ["include/snitch/snitch_string_utility.hpp: truncate_end"]}
{"id": "C08", "title": "append_or_truncate shows the exact text or a marked prefix of it", "statement": "append_or_truncate(ss, args...) either leaves exactly old content ++ all args and returns true, or returns false and leaves a completely full string made of the leading capacity-3 characters of old content ++ args followed by three dots (fewer when capacity < 3). It returns true if and only if everything fits.", "quantifier": "every capacity, initial content and argument list", "why_tests_cant": "boundary behaviour must hold at every length relative to capacity", "anchors": ["include/snitch/snitch_string_utility.hpp: append_or_truncate"]}
{"id": "C09", "title": "replace_all replaces every occurrence or reports that it could not", "statement": "For a non-empty pattern, replace_all(string, pattern, replacement) terminates, never exceeds the capacity, and when it returns true the string is the original with every left-to-right non-overlapping occurrence of pattern replaced. It returns true if and only if this full result fits in the capacity. When it returns false (replacement longer than the pattern) the string is full and, for a one-character pattern, is exactly the leading part of the full result. (For longer patterns the code can produce spurious text at the cut; recorded with a witness. For an empty pattern the loop does not terminate; recorded.)", "quantifier": "every capacity, every string, every non-empty pattern, every replacement of any length", "why_tests_cant": "string rewriting over unbounded inputs with in-place moves; overflow happens at arbitrary positions", "anchors": ["src/snitch_string_utility.cpp: replace_same_size, replace_smaller, replace_larger, replace_all"]}
{"id": "C10", "title": "escape_all_or_truncate never cuts a replacement in half", "statement": "For a one-character pattern and a longer replacement, escape_all_or_truncate either returns true and the string is the fully escaped text, or returns false and the string is a prefix of the fully escaped text that ends on a boundary between complete replacements and original characters, followed by dots, within the capacity. It returns true if and only if the fully escaped text fits. A replacement not longer than the pattern is rejected through the assertion handler.", "quantifier": "every capacity, every string, every character, every replacement", "why_tests_cant": "the cut position depends on an arbitrary combination of string content and capacity", "anchors": ["src/snitch_string_utility.cpp: escape_all_or_truncate"]}
{"id": "C11", "title": "Searching for an unescaped character honours backslash escapes", "statement": "find_first_not_escaped(str, c) returns the least index i with str[i] = c such that position i is not consumed by a backslash escape (reading left to right, a backslash consumes itself and the next character), and npos if there is none.", "quantifier": "every string, every character searched", "why_tests_cant": "runs of backslashes of any length change parity", "anchors": ["src/snitch_string_utility.cpp: find_first_not_escaped"]}
{"id": "C12", "title": "Wildcard matching agrees with the declarative meaning of patterns", "statement": "is_match(string, regex) terminates and, for a non-empty regex, returns true exactly if the regex (with '*' standing for any possibly empty sequence, a backslash making the next character literal, any other character standing for itself) matches the entire string; a regex ending in an unpaired backslash matches nothing if the string forces reading that far. An empty regex matches every string (deviation from the declarative meaning, recorded).", "quantifier": "every string, every pattern, any number of wildcards", "why_tests_cant": "the language of patterns is infinite and the search backtracks", "anchors": ["src/snitch_string_utility.cpp: is_match"]}
{"id": "C13", "title": "Tag lists are decoded to exactly the tags written", "statement": "A tag string made of bracketed tags '[t1][t2]...[tn]' (no brackets inside a tag) is decoded to exactly t1..tn in order; '[.]' hides the test; '[.x]' means the same as '[.][x]'; '[!mayfail]' and '[!shouldfail]' set the corresponding flags and remain visible as ordinary tags. A non-empty string without '[' or without ']' is rejected through the assertion handler.", "quantifier": "every number of tags, every tag content", "why_tests_cant": "unbounded number of tags and tag contents", "anchors": ["src/snitch_registry.cpp: for_each_raw_tag, for_each_tag, has_hidden_tag"]}
{"id": "C14", "title": "Combining filter verdicts is order-independent", "statement": "filter_result_and and filter_result_or are associative, commutative and idempotent; the inclusion bit of AND (OR) is the conjunction (disjunction) of the inclusion bits; the combined verdict is explicit if and only if some verdict with the winning inclusion is explicit. Consequently the verdict for a list of filters does not depend on their order or on repetition.", "quantifier": "all verdicts, lists of verdicts of any length in any order", "why_tests_cant": "lists of unbounded length", "anchors": ["src/snitch_registry.cpp: filter_result_and, filter_result_or"]}
{"id": "C15", "title": "A filter argument means OR of its comma-separated parts, AND of its tag groups", "statement": "For every test name, tags and filter string, the verdict's inclusion equals the OR over the comma-separated (unescaped) parts; a part starting with '[' or '~[' is the AND over its bracket groups, each testing whether some tag matches the group pattern (negated by a leading '~'); any other part tests the full test name (negated by '~'). Early exit never changes the selection outcome.", "quantifier": "every name, tag list and filter text", "why_tests_cant": "unbounded filter texts", "anchors": ["src/snitch_registry.cpp: is_filter_match_name, is_filter_match_tags_single, is_filter_match_tags, is_filter_match_id_single, is_filter_match_id"]}
{"id": "C16", "title": "Which tests run: all arguments must match, hidden tests need an explicit match", "statement": "With no filter argument, exactly the non-hidden tests run. With filter arguments, a test runs if and only if every argument includes it and, if it is hidden, at least one argument includes it explicitly (by a non-negated match). Giving the same filters in another order or repeated selects the same tests.", "quantifier": "every set of registered tests, every list of filter arguments", "why_tests_cant": "all subsets and orders of filters", "anchors": ["src/snitch_registry.cpp: run_tests_impl (lambda filter), registry::run_tests"]}
{"id": "C17", "title": "A leading ~ inverts a filter's selection", "statement": "For every name filter f not starting with '~', the filter '~f' includes exactly the tests that f does not include (likewise for single tag groups); in particular no test is selected by both f and ~f as separate arguments and every test is selected by one of them.", "quantifier": "every test name / tag list and every filter", "why_tests_cant": "unbounded inputs", "anchors": ["src/snitch_registry.cpp: is_filter_match_name, is_filter_match_tags_single"]}
{"id": "C18", "title": "Listing shows exactly the tests that would be selected, in registration order", "statement": "With filter arguments, --list-tests reports exactly the tests a run with the same filters would execute, in registration order, bracketed by one start and one end event, and runs none of them. Without filters it lists all tests; --list-tests-with-tag lists exactly those whose tags match.", "quantifier": "every registry and every filter list", "why_tests_cant": "unbounded registries and filters", "anchors": ["src/snitch_registry.cpp: list_tests, registry::list_all_tests, registry::list_tests_with_tag, run_tests_impl"]}
{"id": "C19", "title": "Every leaf section is executed exactly once, in order", "statement": "For every test body made of statements and arbitrarily nested sections (within the nesting limit) the test function is executed once per leaf section, in depth-first order of appearance; the k-th execution executes, in program order, all statements outside sections and those in the chain of sections leading to the k-th leaf, and no other section. A body without sections is executed exactly once. What the executions do may differ, as long as each of them reaches the same sections.", "quantifier": "every test body, also those that do different things in different executions: any nesting up to the limit, any number of siblings, any placement of statements before, between and after sections", "why_tests_cant": "the section tree is arbitrary; the counter-based state machine must work for every shape", "anchors": ["src/snitch_section.cpp: section_entry_checker::operator bool, ~section_entry_checker", "src/snitch_registry.cpp: registry::run (621-641)"]}
{"id": "C20", "title": "Running a test terminates, after as many passes as there are leaves", "statement": "For every section tree the run loop stops, after exactly max(1, number of leaf sections) executions of the test function (if each execution reaches these sections; see C86).", "quantifier": "every test body", "why_tests_cant": "termination over all trees", "anchors": ["src/snitch_registry.cpp: registry::run"]}
{"id": "C21", "title": "Section start and end events are balanced and unique", "statement": "In a test case with no exception escaping from a section, at verbosity high or full, every section yields exactly one start and one end event over all re-executions; the end comes after the start, and starts/ends are properly nested. At lower verbosity none is emitted.", "quantifier": "every section tree", "why_tests_cant": "arbitrary trees, several passes", "anchors": ["src/snitch_section.cpp", "src/snitch_registry.cpp: report_section_started, report_section_ended"]}
{"id": "C22", "title": "Aborting assertions stop the whole test case and nothing else", "statement": "If a statement aborts (failed REQUIRE, FAIL, SKIP, unhandled exception), no later statement of that test case is executed, no other leaf section is executed, every section left open gets its end event, and subsequent test cases run normally from a clean state.", "quantifier": "every test body and every abort point, every list of following tests", "why_tests_cant": "every crash point in every section shape", "anchors": ["src/snitch_registry.cpp: registry::run (try/catch)", "src/snitch_test_data.cpp: notify_exception_handled"]}
{"id": "C23", "title": "Captures are reported exactly while their scope is active", "statement": "Every assertion event carries exactly the captures whose scope encloses the assertion, outermost first, in order of declaration; when a scope ends - normally or by exception - its captures are removed and the previous ones are unchanged; exceeding the maximum number of captures aborts instead of dropping one.", "quantifier": "every test body with any nesting of capture scopes, sections and exceptions", "why_tests_cant": "arbitrary nesting and exception points", "anchors": ["src/snitch_capture.cpp: ~scoped_capture, add_capture", "src/snitch_registry.cpp: make_capture_buffer, report_assertion_impl"]}
{"id": "C24", "title": "CAPTURE(a, b, ...) labels each value with its own expression", "statement": "Splitting the text of CAPTURE arguments yields, for expressions whose commas occur only inside balanced parentheses, string literals or character literals without escaped quotes, exactly the individual expressions, trimmed of surrounding blanks, in order.", "quantifier": "every list of expressions of that form", "why_tests_cant": "infinite set of expression texts", "anchors": ["src/snitch_capture.cpp: extract_next_name, trim"]}
{"id": "C25", "title": "Assertion accounting is exact", "statement": "At the end of a test case the reported assertion count equals the number of evaluated assertions (those before a skip, plus the framework's own), the failure count equals the number of failed ones (for tests without mayfail/shouldfail), the allowed-failure count the number of failed ones for mayfail/shouldfail tests; failures + allowed failures <= assertions always.", "quantifier": "every test body and every outcome of each assertion", "why_tests_cant": "all executions", "anchors": ["src/snitch_registry.cpp: register_assertion, report_assertion_impl, registry::run"]}
{"id": "C26", "title": "A test is reported failed if and only if an assertion failed", "statement": "A test without special tags and without SKIP ends in state failed if and only if at least one of its assertions failed (including unexpected exceptions), and success otherwise; a failure is never forgotten by later successes.", "quantifier": "every test body and outcome sequence", "why_tests_cant": "all sequences", "anchors": ["src/snitch_registry.cpp: set_state, register_assertion"]}
{"id": "C27", "title": "[!mayfail] and [!shouldfail] turn failures into allowed failures", "statement": "A [!mayfail] test never ends in state failed because of failing assertions; a [!shouldfail] test (without mayfail) ends in state failed if and only if none of its assertions failed (and it was not skipped); otherwise it ends as allowed failure.", "quantifier": "every test body and outcome sequence, both tags in any combination", "why_tests_cant": "all sequences and tag combinations", "anchors": ["src/snitch_registry.cpp: register_assertion, registry::run (665-672)"]}
{"id": "C28", "title": "SKIP makes the test case count as skipped", "statement": "A test whose body reaches SKIP before any failed assertion ends as skipped, no assertion after the skip is counted or reported, and no further section pass is made. (If an assertion failed before the skip, the code keeps the failed state although the documentation says earlier status is ignored; recorded with a witness.)", "quantifier": "every test body with a skip at any point", "why_tests_cant": "every position of the skip", "anchors": ["src/snitch_registry.cpp: report_skipped, set_state, report_assertion_impl"]}
{"id": "C29", "title": "Run totals and exit status are the exact sums over the tests run", "statement": "run_tests returns true (exit status 0) if and only if no selected test ended in state failed; the run-ended event's counts equal the sums over the selected tests: run_count = number of selected tests = successes + failures + allowed failures + skips, and assertion counts add up.", "quantifier": "every list of registered tests with every behaviour, every selection", "why_tests_cant": "unbounded numbers of tests", "anchors": ["src/snitch_registry.cpp: run_selected_tests", "src/snitch_main.cpp: main"]}
{"id": "C30", "title": "Verbosity only hides events; it never changes results", "statement": "For the same tests, the event sequence reported at a lower verbosity is exactly the sub-sequence of the events at full verbosity whose kind is enabled at that level (quiet: failed assertions and skips; normal: plus run start/end; high: plus test case and section start/end; full: plus successful assertions); results, counts and exit status are the same at every level.", "quantifier": "every test program, every verbosity pair", "why_tests_cant": "all programs", "anchors": ["src/snitch_registry.cpp: report_assertion_impl, report_section_started, report_section_ended, run, run_selected_tests"]}
{"id": "C31", "title": "Command-line parsing accepts exactly the well-formed command lines", "statement": "For every argument vector, parsing fails if and only if a non-repeatable option is duplicated or an option lacks its value; otherwise it returns, in order, every recognised option (under its long name, with its value) and every positional argument; unknown options never fail the parse, and options that are ignored for compatibility consume their value. The limit on the number of arguments concerns only those recorded: if more are, the program ends in the assertion handler, otherwise the limit has no effect.", "quantifier": "every argument vector", "why_tests_cant": "unbounded argument vectors", "anchors": ["src/snitch_cli.cpp: parse_arguments, expected_args, get_option, for_each_positional_argument"]}
{"id": "C32", "title": "Colour and output configuration follow the documented precedence", "statement": "After configure: an effective --color or --colour-mode setting determines colour (--color wins when both are effective); without one, writing to a file (--out) disables colour, and otherwise the default is kept. The verbosity is the requested one, unchanged if unknown. (The reporter chosen can then change these settings; see C70.)", "quantifier": "every combination of options and values", "why_tests_cant": "combination space with arbitrary strings", "anchors": ["src/snitch_registry.cpp: registry::configure, parse_color_option, parse_colour_mode_option"]}
{"id": "C33", "title": "Reporter selection and options are passed on exactly as written", "statement": "'--reporter name::k1=v1::...::kn=vn' selects the reporter with that exact name and passes each (ki, vi) to it once, in order; an unknown or ill-formed name keeps the current reporter. (The code is right for n <= 1 only; for n >= 2 it drops the first option and repeats the last; recorded with a witness.)", "quantifier": "every reporter list, every option list", "why_tests_cant": "unbounded option lists", "anchors": ["src/snitch_registry.cpp: parse_reporter"]}
{"id": "C34", "title": "Printing never loses or reorders text", "statement": "registry::print(args...) sends to the output, as one or more chunks, exactly the concatenation of its string arguments, whatever their length relative to the internal buffer; no empty flush is visible as text.", "quantifier": "every buffer capacity, every list of arguments of any length", "why_tests_cant": "all lengths", "anchors": ["include/snitch/snitch_registry.hpp: append_or_print, print"]}
{"id": "C35", "title": "Coloured text is always closed", "statement": "Appending a coloured value either leaves the buffer unchanged (returning false) or appends the colour code, a prefix of the value, and the complete reset code; it returns true if and only if everything fitted.", "quantifier": "every capacity, content, value and colour codes", "why_tests_cant": "all lengths", "anchors": ["include/snitch/snitch_console.hpp: append(small_string_span, const colored<T>&), make_colored"]}
{"id": "C36", "title": "CHECK passes exactly when its condition holds, and the shown comparison is true", "statement": "For a decomposed comparison, CHECK (CHECK_FALSE) passes if and only if the comparison evaluates to true (false). When it does not pass, the displayed text is lhs op rhs where the displayed operator relation is true of the two values, for any totally ordered type; if the text does not fit, it is left empty rather than cut. (For types with unordered values, such as NaN, the shown inverse operator can be false; recorded.)", "quantifier": "every operator, every pair of values, every printed form, every capacity", "why_tests_cant": "all value pairs and lengths", "anchors": ["include/snitch/snitch_expression.hpp: DEFINE_OPERATOR, extracted_binary_expression::to_expression, extracted_unary_expression::to_expression"]}
{"id": "C37", "title": "Matchers decide what they say", "statement": "contains_substring matches exactly the strings that contain the pattern; is_any_of matches exactly the listed values; comparing with == / != in a check agrees with match(), and the description given always corresponds to the actual match result.", "quantifier": "every string, pattern, list of values", "why_tests_cant": "unbounded strings and lists", "anchors": ["src/snitch_matcher.cpp", "include/snitch/snitch_matcher.hpp: match, is_any_of, operator==", "include/snitch/snitch_expression.hpp: 160-175"]}
{"id": "C38", "title": "Type-erased storage destroys every object exactly once", "statement": "Over any sequence of emplace, reset, move construction, move assignment between distinct objects, and destruction, every object constructed in an inplace_any is destroyed at most once, never used after destruction, and has been destroyed when all containers are gone; get<T>() returns the stored object if and only if the last stored type is T and otherwise reports a failure.", "quantifier": "every finite sequence of operations on any number of containers", "why_tests_cant": "unbounded histories", "anchors": ["include/snitch/snitch_any.hpp: inplace_any"]}
{"id": "C39", "title": "Output files are opened once, written in order and closed exactly once", "statement": "Over any sequence of construction, move construction, move assignment, writes and destruction of file writers, every opened file is closed exactly once when all writers are gone, a closed file is never written, and writes to a writer go to the file it currently owns in order. (A path of exactly max_path_length+1 characters is passed to fopen without terminator; recorded.)", "quantifier": "every finite history", "why_tests_cant": "unbounded histories and lengths", "anchors": ["src/snitch_file.cpp: file_writer"]}
{"id": "C40", "title": "The XML report of a run is a well-formed document that says what happened", "statement": "For every run whose section events are balanced, and whose texts fit in the message buffer once escaped (with no special character in the texts that the reporter does not escape: skip messages, macro names, durations), what the Catch2 XML reporter prints is a well-formed XML document with exactly one root element; its children are one element per selected test, in registration order, with properly nested elements for the sections, captures, assertions and skips of the test, followed by the totals; names, locations, messages and counts can be read back; indentation returns to zero. Listings likewise. For any events and texts whatever, the reporter does not fail and indentation counts what has begun and not ended.", "quantifier": "every sequence of events a run can produce", "why_tests_cant": "unbounded event sequences", "anchors": ["src/snitch_reporter_catch2_xml.cpp: open, close, node, report"]}
{"id": "C41", "title": "XML text and attributes are escaped so that they decode to the original", "statement": "When the escaped text fits in the message buffer, the escaped form printed by the XML reporter contains no raw '<', '>', '\"', apostrophe, and no '&' other than the start of one of the five predefined entities, and decoding the entities gives back the original text; distinct texts stay distinct. (When truncated, later special characters can remain unescaped; recorded with a witness. The skip message is printed without escaping; recorded.)", "quantifier": "every text", "why_tests_cant": "all strings", "anchors": ["src/snitch_reporter_catch2_xml.cpp: escape, make_escaped"]}
{"id": "C42", "title": "TeamCity values are escaped so that they decode to the original", "statement": "When the escaped text fits, values printed by the TeamCity reporter contain no unescaped apostrophe, bracket, newline or vertical bar, and unescaping gives back the original. (Section names are printed unescaped; recorded.)", "quantifier": "every text", "why_tests_cant": "all strings", "anchors": ["src/snitch_reporter_teamcity.cpp: escape, make_escaped, send_message"]}
{"id": "C43", "title": "Rounding decimals to a precision is correct round-half-to-even", "statement": "Reducing a decimal number (digits, exponent, sign) to p significant digits yields the nearest number of p digits, ties going to the even digit, with the exponent raised by the number of digits removed and the sign unchanged; numbers of at most p digits are unchanged, others keep exactly p digits.", "quantifier": "every 64-bit digit value (for p = 19 every one below 2^64 - 5, which includes all that the conversion of a float can produce, see C52), every exponent, every precision p >= 1", "why_tests_cant": "2^64 values times precisions", "anchors": ["include/snitch/snitch_append.hpp: round_half_to_even, set_precision"]}
{"id": "C44", "title": "Printed scientific notation denotes exactly the decimal value", "statement": "The text written for a non-zero decimal (digits, exponent, sign) is a minus sign if negative, one digit other than 0, '.', the remaining digits, 'e', a sign and at least two exponent digits without superfluous zeros, and reads back as exactly these digits, this exponent and this sign; as much of it is appended as fits, and different decimals have different texts.", "quantifier": "every digit value 1..2^64-1, every exponent from -9999 to 9980, both signs, every destination", "why_tests_cant": "unbounded value space", "anchors": ["include/snitch/snitch_append.hpp: append_constexpr(small_string_span, signed_fixed_data), num_exp_digits, max_float_length"]}
{"id": "C45", "title": "Exception assertions classify every behaviour correctly", "statement": "CHECK_THROWS_AS passes iff the expression throws an exception of the given type; CHECK_THROWS_MATCHES iff additionally the matcher accepts it; CHECK_NOTHROW iff nothing is thrown. In every case exactly one assertion is reported, the exception does not escape, and the REQUIRE variants abort the test exactly when the assertion fails.", "quantifier": "every behaviour of the expression (no throw, expected type, other std::exception, unknown), every matcher result, both variants", "why_tests_cant": "decision table with an embedded arbitrary expression", "anchors": ["include/snitch/snitch_macros_exceptions.hpp"]}
{"id": "C46", "title": "Registration keeps every test or aborts loudly", "statement": "Registering tests keeps them all, in order, each in state not-run, until the maximum number is reached; a registration beyond the maximum, or with a full name that does not fit, is reported through the assertion handler. (An empty test name is also rejected as too long; recorded.)", "quantifier": "every sequence of registrations", "why_tests_cant": "unbounded sequences", "anchors": ["src/snitch_registry.cpp: add_impl, make_full_name"]}
{"id": "C47", "title": "Nested runs restore the previously running test", "statement": "After running any test - including one which itself runs another registry's tests, to any depth, and including tests that abort - the current-test pointer has the value it had before; using the test macros with no test running terminates instead of misbehaving.", "quantifier": "every nesting of runs, every outcome", "why_tests_cant": "arbitrary nesting", "anchors": ["src/snitch_registry.cpp: registry::run (608-611, 701)", "src/snitch_test_data.cpp: get_current_test, set_current_test"]}
{"id": "C48", "title": "An unhandled exception is reported with the innermost context it was thrown from", "statement": "When an exception leaves a test body, the failure event carries the section path, captures and location that were active at the throw point, even though unwinding has already removed them.", "quantifier": "every test body, every throw point in any nesting of sections, captures and checks", "why_tests_cant": "every crash point", "anchors": ["src/snitch_section.cpp: ~section_entry_checker", "src/snitch_capture.cpp: ~scoped_capture", "src/snitch_test_data.cpp: ~scoped_test_check", "src/snitch_registry.cpp: report_assertion_impl"]}
{"id": "C49", "title": "Listing tags shows each tag once, sorted", "statement": "--list-tags prints every tag used by any test exactly once in lexicographic order ('[.x]' contributing '[.]' and '[x]'); exceeding the maximum number of unique tags is reported through the assertion handler.", "quantifier": "every registry", "why_tests_cant": "unbounded registries", "anchors": ["src/snitch_registry.cpp: registry::list_all_tags"]}
{"id": "C50", "title": "The executable name shown is the file name without folder or extension", "statement": "extract_executable returns the part of the path after the last '/' or '\\' and before the last '.' of that part.", "quantifier": "every path", "why_tests_cant": "all strings", "anchors": ["src/snitch_cli.cpp: extract_executable"]}
{"id": "C51", "title": "Colour used while parsing agrees with the parsed options", "statement": "Whenever the command line parses successfully, the colour setting used for messages during parsing is the one given by the parsed --color/--colour-mode options. Also for a command line that is refused, the messages are in colour as the first --colour-mode on it says, or else the first --color, or else by default; what is the value of another option does not count.", "quantifier": "every argument vector", "why_tests_cant": "two parsers must stay in agreement on all inputs", "anchors": ["src/snitch_cli.cpp: parse_color_options, parse_arguments"]}
{"id": "C52", "title": "Float printing never overflows its 64-bit arithmetic", "statement": "Printing a float or double at compile time ends, without undefined behaviour or a failed check, and no addition, multiplication or rounding of 64-bit digits on the way exceeds 2^64 - 1: the outcome is that of computing with unbounded numbers, whatever an overflow would do. The decimal number a finite value is converted to is normalised (at least (2^64-1)/10) and small enough to be rounded to any precision.", "quantifier": "every bit pattern of both types, every precision >= 1, every destination", "why_tests_cant": "2^64 bit patterns times precisions", "anchors": ["include/snitch/snitch_fixed_point.hpp: unsigned_fixed, to_fixed, apply_binary_exponent", "include/snitch/snitch_append.hpp: set_precision, append_constexpr(small_string_span, T f, precision)"]}
{"id": "C53", "title": "Float printing is accurate", "statement": "The text printed at compile time for a finite non-zero value reads as its sign and a number of exactly p digits that differs from the exact value by at most 1/2 + 0.447 * 10^(p-16) units of its last digit: half a unit and a billionth for the 7 digits of a float, less than one unit for the 16 digits of a double. A value that is a decimal number of at most p <= 16 digits is printed exactly. Zero (with its sign and p digits), infinities and NaN are printed as such.", "quantifier": "every bit pattern of both types, every precision p from 1 to 19 (larger ones are taken as 19), every destination", "why_tests_cant": "2^32 / 2^64 bit patterns", "anchors": ["include/snitch/snitch_fixed_point.hpp: to_bits, to_fixed", "include/snitch/snitch_append.hpp: append_constexpr(small_string_span, T f, precision)"]}
{"id": "C54", "title": "The XML report is a well-formed document whatever the texts", "statement": "As C40, but for all texts: also skip messages with special characters, and texts that have to be cut after escaping.", "quantifier": "every sequence of events a run can produce, every text", "why_tests_cant": "unbounded event sequences and all strings", "anchors": ["src/snitch_reporter_catch2_xml.cpp: report (test_case_skipped), escape, make_escaped", "src/snitch_string_utility.cpp: escape_all_or_truncate"]}
{"id": "C55", "title": "The TeamCity report tells every test and every failure, and nothing else", "statement": "For any run, whatever verbosity was asked for, the TeamCity report (texts fitting after escaping, section names and macro names without special characters) reads back as: a start of the suite, for every selected test in registration order a start and a finish under its full name, and a finish of the suite; a testFailed message lies between start and finish of a test if and only if the test ended as failed; the run is a success if and only if the report has no testFailed message.", "quantifier": "every registry, selection, test bodies, verbosity, and texts as described", "why_tests_cant": "unbounded runs; a missing or misplaced message would need exactly the untested combination of events", "anchors": ["src/snitch_reporter_teamcity.cpp: initialize, report, send_message", "src/snitch_registry.cpp: run, run_selected_tests, report_assertion"]}
{"id": "C56", "title": "Float printing does not depend on std::bit_cast", "statement": "Without std::bit_cast (SNITCH_CONSTEXPR_FLOAT_USE_BITCAST off) a float or double is taken apart by comparing, doubling and halving it. For every number but negative zero this ends, is defined, and gives the sign, exponent and significand of its bit pattern (for NaN those of one NaN), so that the same text is printed whatever the precision and destination. Of the rounding of the arithmetic only this is assumed: a representable result is not changed.", "quantifier": "every bit pattern of both types but -0.0, every precision and destination, every rounding that keeps representable numbers", "why_tests_cant": "2^64 bit patterns, and a compiler without bit_cast", "anchors": ["include/snitch/snitch_fixed_point.hpp: to_bits", "include/snitch/snitch_append.hpp: append_constexpr(small_string_span, T f, precision)"]}
{"id": "C57", "title": "The console report says what happened, and the outcome can be read from it", "statement": "Without colours, the console report is exactly the lines that belong to the events: for every assertion and skip its kind ('failed', 'expected failure', 'allowed failure', 'passed', 'skipped'), test case, enclosing sections from the outermost to the innermost, kind of location with file and line, type, captures, and message or condition with values; for a listing every test with its tags and their number. For any run at any verbosity, if no text has a line break, the lines beginning 'failed: running test case' name the selected tests in registration order, each as often as it had failures that were neither expected nor allowed; there is none iff the run is a success; and from verbosity normal on the last line says success or error, with the numbers of tests run, failed, skipped and of assertions.", "quantifier": "every registry, selection, test bodies, verbosity, all names, sections, captures, messages that fit in the print buffer", "why_tests_cant": "unbounded runs and texts", "anchors": ["src/snitch_reporter_console.cpp: print_location, print_message, report", "src/snitch_registry.cpp: run_selected_tests, report_assertion, make_full_name"]}
{"id": "C58", "title": "Colours never change the text of the console report", "statement": "For any events with texts without escape characters that fit in the print buffer together with the colour codes, the console report without colours has no escape character; removing the codes from the report with colours gives the report without colours; and every colour that is started is ended before another one starts and before the end.", "quantifier": "every sequence of events, all texts as described", "why_tests_cant": "unbounded texts and sequences; a missing reset shows only on a terminal", "anchors": ["src/snitch_reporter_console.cpp", "include/snitch/snitch_console.hpp: make_colored, append", "include/snitch/snitch_registry.hpp: print"]}
{"id": "C59", "title": "Taking a condition apart never changes its meaning", "statement": "CHECK, REQUIRE and their _FALSE variants put an operator in front of the condition as it is written, so that the C++ grammar may group it differently. Nevertheless, for any condition made of operands and binary operators the verdict is the value of the condition as C++ groups it without the macro; values are shown for exactly the conditions that bind more tightly than comparisons (the value) and the comparisons with such a left side (both sides, with a relation that holds); nothing is shown otherwise. Only a comma behind a condition that would not be shown is refused by the compiler.", "quantifier": "every sequence of operands and of the 33 binary operators, every meaning of the operators without side effects, expected value and buffer size", "why_tests_cant": "unboundedly many shapes of expressions; the tests have some twenty", "anchors": ["include/snitch/snitch_macros_check_base.hpp: SNITCH_EXPR, SNITCH_IS_DECOMPOSABLE", "include/snitch/snitch_expression.hpp: expression_extractor, extracted_unary_expression, extracted_binary_expression, invalid_expression", "include/snitch/snitch_macros_check.hpp"]}
{"id": "C60", "title": "Checks at compile time count as checks", "statement": "CONSTEXPR_CHECK (and REQUIRE, _FALSE, _THAT) behaves exactly as a check of the value found at compile time followed by the same check at run time: in a test that is not skipped both verdicts are reported, the compile-time one first, and count as two assertions, except that a REQUIRE failing at compile time ends the test at once; an exception thrown at run time is handled as in any check. CONSTEVAL_CHECK is one check of the compile-time value. If the condition means the same at compile time and at run time, both verdicts and both displayed texts are equal although they are made by different code.", "quantifier": "every test state, location, verdicts, texts, every condition and matcher, every buffer size", "why_tests_cant": "the compile-time path runs inside the compiler; a difference between the two formatting paths shows only for particular texts", "anchors": ["include/snitch/snitch_macros_constexpr.hpp", "include/snitch/snitch_macros_consteval.hpp", "include/snitch/snitch_macros_check_base.hpp: SNITCH_REPORT_EXPRESSION", "include/snitch/snitch_expression.hpp: append_value"]}
{"id": "C61", "title": "Help text and complaints about the command line are exact", "statement": "The help text is exactly the documented one for every version and program name, and colours do not change it. For every command line the program prints first one line per complaint, in order (a duplicate option, an option without its value, an unknown argument), and then, exactly if the command line is refused, an empty line and the help text; it is refused exactly if a complaint is an error. The help text is right about every argument that begins with a dash: if it lists the option without a value, it is accepted alone; with a value <v>, it is refused alone with a message naming <v> and accepted with any value; if it does not list it, there is a warning that it is unknown and it is ignored.", "quantifier": "for all command lines, program names, versions, colour settings and message lengths of at least 128 more characters than the version", "why_tests_cant": "tests look at a few command lines; they cannot show that nothing else is ever printed, nor that the help text and the parser agree on every possible argument", "anchors": ["include/snitch/snitch_cli.hpp:36-42", "src/snitch_cli.cpp:99-230", "src/snitch_cli.cpp:239-349", "src/snitch_cli.cpp:392-417"]}
{"id": "C62", "title": "Reporters are set up, told and ended in order, one object at a time", "statement": "Whatever a program does with a registry (registering reporters, choosing one, running tests, in any order and any number), reporter objects are made one after the other, never more than one exists, and only the one that exists is configured, told events and destroyed, once. Choosing a registered reporter with options and then running tests always works and does exactly this: the object existing before is destroyed if the reporter is a type, the reporter is set up, gets every option, then every event, once and in order, and is ended. When no reporter is ever chosen, a single console object gets all events of all runs. A reporter can be registered exactly if there is room and its name has no '::'; it can be selected by its name exactly if the name is not empty, does not begin with ':' and is not that of an earlier reporter. After a run with a reporter that is a type, further events without choosing again end the program.", "quantifier": "for all sequences of operations on a registry, reporters, options and events", "why_tests_cant": "tests use one reporter at a time; they cannot show that no order of registering, choosing and running ever uses a destroyed reporter object or loses an event", "anchors": ["src/snitch_registry.cpp:302-349", "src/snitch_registry.cpp:899-990", "include/snitch/snitch_registry.hpp:94-148", "include/snitch/snitch_registry.hpp:204-219", "include/snitch/snitch_any.hpp:21-105"]}
{"id": "C63", "title": "Everything printed goes to the place chosen last", "statement": "Text printed by a registry goes to the standard output at first, and then to the file of the last '--out' given or the function the program set last. Each output file is opened once, gets exactly the texts printed while it is the place chosen, in order, and is closed when the run ends or another output file is given; nothing is written to it afterwards. This holds for any number of output files, runs and functions, in any order, as long as nothing is printed to a file whose run has ended; printing then (for instance in a second run without configuring again) is undefined behaviour.", "quantifier": "for all sequences of giving '--out', setting the callback, printing and ending runs, all texts and all paths that can be opened", "why_tests_cant": "tests give one output file once; they cannot show that no order of these operations loses text, leaves a file open or uses a destroyed writer", "anchors": ["include/snitch/snitch_registry.hpp:125-159", "src/snitch_registry.cpp:901-912", "src/snitch_registry.cpp:1058-1066", "src/snitch_file.cpp:9-55", "include/snitch/snitch_function.hpp:108-217"]}
{"id": "C64", "title": "Tests on different threads do not disturb each other", "statement": "When several threads run tests (each its own registry), their steps interleaved in any order, every check is recorded in the innermost test running on its own thread, exactly as if the thread were alone; every thread that gets enough steps finishes. A thread that uses a test macro outside every test terminates the program, even while tests run on other threads. This needs SNITCH_WITH_MULTITHREADING: without it, a check can be recorded in the test of another thread.", "quantifier": "for all programs of all threads, any number of threads, and all orders of their steps", "why_tests_cant": "a test sees a few orders out of unboundedly many, and cannot choose them", "anchors": ["src/snitch_test_data.cpp:10-29", "include/snitch/snitch_config.hpp.config:112-116", "src/snitch_registry.cpp:584-704"]}
{"id": "C65", "title": "The name of a type is its spelling", "statement": "type_name<T>, which names the tests of a typed test case, is exactly the spelling of T by the compiler, so that types with different spellings give tests with different names. The code violates this for array types with clang (the name is cut at the first ']').", "quantifier": "for all spellings of types and the three supported compilers", "why_tests_cant": "tests name a few types with one compiler", "anchors": ["include/snitch/snitch_type_name.hpp:8-37", "include/snitch/snitch_registry.hpp:239-268"]}
{"id": "C66", "title": "Checks inside the operands of checks report themselves and then the outer check", "statement": "A check whose operand runs code that itself uses test macros (a helper function called in CHECK(f())): the checks of the operand are reported first, in order, with the sections and captures of the outer check, then exactly one assertion of the outer check, with its own location and verdict. A failed REQUIRE inside the operand of a plain check ends the test. Nothing that happens in the operand of an exception macro ends the test (so a REQUIRE failing in there does not, against what REQUIRE promises). Checks may be nested as deep as sections; deeper nesting terminates the program.", "quantifier": "for all bodies, all places in them, all operands without sections, all kinds of checks and all depths of nesting", "why_tests_cant": "tests nest one check in another; they cannot cover all operands, places and depths", "anchors": ["include/snitch/snitch_macros_check.hpp:8-70", "include/snitch/snitch_macros_exceptions.hpp:11-158", "src/snitch_test_data.cpp:31-77", "src/snitch_registry.cpp:560-700"]}
{"id": "C67", "title": "The exit status of the program says whether the selected tests do what they should", "statement": "For a well-formed command line that asks for a run, the program runs exactly the tests selected by the positional arguments, tells the reporter exactly what happens in them (as far as the verbosity shows it), and exits with 0 if and only if none of them fails, where failing is decided by what the body of the test does, execution by execution, and by its tags [!mayfail] and [!shouldfail]. With the console reporter, the tests for which a failure is printed are exactly the failing ones, and the exit status is 0 if and only if no failure is printed; with the XML and TeamCity reporters, chosen by -r, the report that can be read back names the selected tests in order and says for each whether it fails, and the exit status agrees.", "quantifier": "for all command lines, all lists of tests, all test bodies within the limits, all tags and all verbosities", "why_tests_cant": "tests run a few test programs with a few command lines; the end-to-end claim ranges over all of them", "anchors": ["src/snitch_main.cpp:7-20", "src/snitch_registry.cpp:591-912", "src/snitch_cli.cpp:330-417", "src/snitch_reporter_console.cpp:70-219"]}
{"id": "C68", "title": "Checks made by destructors of local objects", "statement": "A check executed by the destructor of a local object is reported like any other check: with the sections and captures whose scope contains the object and with its own location, whether the block is left normally or by an exception. An exception leaving the block is still reported where it was thrown. A destructor whose check aborts the test (a failed REQUIRE, SKIP) ends the program, because destructors are noexcept.", "quantifier": "for all test bodies, all places of such an object, all blocks and destructors, all exceptions and all states of the test", "why_tests_cant": "Which scope has already stored information about the exception when the destructor runs depends on the nesting of sections, captures, checks and objects; a test shows one nesting.", "anchors": ["src/snitch_registry.cpp:449-491", "src/snitch_test_data.cpp:39-86", "src/snitch_section.cpp:13-70", "src/snitch_capture.cpp:23-34"]}
{"id": "C69", "title": "Texts of exceptions and matchers of any length", "statement": "The messages that contain a text from outside - the what() of an unexpected exception, of an exception of another type in CHECK_THROWS_AS and CHECK_THROWS_MATCHES, of an exception in CHECK_NOTHROW, or the description given by a matcher - can always be made, whatever the length of that text: the message is reported once, with the place and captures of the check or of the exception; it is shown whole if it has at most max_message_length characters, and otherwise as its start followed by three dots, in exactly max_message_length characters.", "quantifier": "for all texts of any length, all limits, all test bodies and places in them", "why_tests_cant": "The length of the text comes from the code under test at run time; a test tries a few lengths around one fixed limit.", "anchors": ["src/snitch_registry.cpp:503-514", "src/snitch_registry.cpp:642-662", "include/snitch/snitch_macros_exceptions.hpp:13-150", "include/snitch/snitch_string_utility.hpp:29-40"]}
{"id": "C70", "title": "What configuring says, and the last word of reporters", "statement": "configure takes --colour-mode, --color, --verbosity, --out and --reporter into account in this order whatever their order on the command line. About each value that is not a documented one exactly one warning is printed (for an unknown reporter also the list of reporters), in colour if the options taken into account before ask for it. Once a reporter is found it can change the settings, first when it is created and then for each of its options, and has the last word: -r console::color=always switches colours on whatever --color and --out say; the XML and TeamCity reporters raise the verbosity to at least high and complain about every option. Nothing is printed if and only if there is nothing wrong. Configuring never fails.", "quantifier": "every parsed command line, every list of reporters whatever they do to the settings, every initial setting, every message size from 19", "why_tests_cant": "combinations of five options with arbitrary texts and arbitrary reporters; the order in which they come into effect shows only in combinations", "anchors": ["src/snitch_registry.cpp: registry::configure, impl::parse_reporter, impl::parse_colour_mode_option, impl::parse_color_option", "src/snitch_reporter_console.cpp: reporter::configure", "src/snitch_reporter_catch2_xml.cpp: reporter::reporter, reporter::configure", "src/snitch_reporter_teamcity.cpp: initialize"]}
{"id": "C71", "title": "Every value is shown as the documentation says for its type", "statement": "When a value is shown (operands of a failing check, CAPTURE, INFO), which text is used depends on its C++ type only and is: true or false for booleans; the decimal numeral for integers, characters included; the text of the underlying type for enumerations; the characters for string_view, const char* (up to the terminating NUL, nullptr for null) and character arrays (all but the last); nullptr for null pointers and the address in hexadecimal for other pointers to data (a placeholder at compile time and for function and member function pointers); anything without a textual form is shown as a question mark in checks. Classes are shown through their implicit conversions; if there are several, as if there were just one of them. The text is cut where there is no room, and no value has two texts. Documented but false: char* as text, long double, integers of more than 64 bits.", "quantifier": "for all integer types, enumerations, pointers, arrays, functions, member pointers, and classes with any list of implicit conversions; all values; all destinations; at compile time and at run time, with and without std::to_chars", "why_tests_cant": "which of twelve overloads is called is decided by the overload resolution rules of C++ for every type a user may have; tests show a few types", "anchors": ["include/snitch/snitch_append.hpp: append (all overloads)", "include/snitch/snitch_concepts.hpp", "include/snitch/snitch_expression.hpp: expression::append_value"]}
{"id": "C72", "title": "Tests are what was declared; fixtures live for one execution; nothing is left when disabled", "statement": "With TEST_CASE, TEMPLATE_TEST_CASE, TEMPLATE_LIST_TEST_CASE and TEST_CASE_METHOD (and their templated forms), the registry holds after static initialisation exactly one test per declaration or per type, in the order of declarations and types, with the name, tags, type name and fixture name written, none run yet; if there is no room or a full name is empty or too long the program ends in the assertion handler. In a test with a fixture every execution of the body has an object of its own: the constructor is executed first, then the body (for one leaf section), then the destructor, also if the body throws; if the constructor throws, neither body nor destructor are executed and the exception is reported. In a build with SNITCH_ENABLE=0 no test is registered, main returns 0 whatever its arguments, and code that contains checks, captures and sections executes its other statements as if those were not there: no operand is evaluated, nothing is reported, no running test is needed.", "quantifier": "For all lists of declarations with all names, tags, types, all limits; all constructors, destructors and bodies (tidy in the sense of C19 for the general form), all verbosities; all code, all command lines for the disabled build.", "why_tests_cant": "A test file has some fixed declarations, and the build with SNITCH_ENABLE=0 has no tests that could run; how often and in which order fixtures live depends on the sections and exceptions of every possible body.", "anchors": ["include/snitch/snitch_macros_test_case.hpp:8-122", "include/snitch/snitch_registry.hpp:226-280", "src/snitch_registry.cpp:351-388", "src/snitch_main.cpp:7-20", "include/snitch/snitch_macros_check.hpp:87-104", "include/snitch/snitch_macros_misc.hpp:22-28"]}
{"id": "C73", "title": "Without exceptions tests do the same until a REQUIRE fails, which ends the program", "statement": "In a build with SNITCH_WITH_EXCEPTIONS=0, a test made of user statements, checks, skips, sections, captures, blocks and destructors (no throwing, catching or exception macros, which cannot be written there) either runs to its end with the same state, failures, allowed failures and events as in the normal build, only without the implicit 'no exception caught' assertion (one assertion fewer, unless skipped) and with every assertion location reported as exact; or it ends the program, and then what has been reported is the beginning of what the normal build reports, up to the failed assertion of the REQUIRE or FAIL or the skip of the SKIP. Tests that use only CHECK, FAIL_CHECK and SKIP_CHECK never end the program. A run in which no test ends the program selects and runs the same tests, returns the same value, and its end event differs only by one assertion per test not skipped; otherwise the tests before the one that ended the program have been run, the following ones are not executed and there is no end event.", "quantifier": "For all test bodies without exceptions, all verbosities and limits, all lists of tests and selections.", "why_tests_cant": "The two builds cannot be in one test program, and a test that ends the program cannot report what happened; only the comparison over all bodies says that switching exceptions off does not change results.", "anchors": ["include/snitch/snitch_macros_check_base.hpp:10-15", "src/snitch_registry.cpp:391-704", "src/snitch_section.cpp:13-143", "src/snitch_test_data.cpp:39-65", "src/snitch_capture.cpp:23-103", "README.md:1000-1012"]}
{"id": "C74", "title": "A function_ref accepts exactly what it can safely refer to and calls exactly that", "statement": "A function_ref (print_callback, report_callback, console_print, assertion_failed_handler, the callbacks of reporters) can be made of, or assigned from, exactly: a function or function pointer (which must be noexcept if the type is), a closure without captures even if temporary (same proviso), a named object whose class has a single call operator, a named object together with a member function, and another function_ref of the same type. A temporary object with state never compiles, and an object that can only be read is accepted only with a const member function, so that it is never changed through the function_ref. After any sequence of creating, changing and destroying objects, making, copying, assigning and calling function_refs, a call invokes exactly once what was last given to that function_ref, with the argument given, on the object in its present state, gives back its answer, and changes nothing but that object; a copy keeps referring to what its original referred to. Calling one whose object is gone, or a null pointer, is undefined; an exception comes through unless the function or the function_ref type is noexcept, in which case the program ends.", "quantifier": "For all functions and member functions, initialisers of every kind and value category, and all sequences of operations.", "why_tests_cant": "Tests can only call a few function_refs with a few targets and cannot contain initialisers that must not compile; that no order of copies, assignments and changes makes a call reach something else needs all sequences.", "anchors": ["include/snitch/snitch_function.hpp:25-217", "include/snitch/snitch_concepts.hpp:22-23", "include/snitch/snitch_registry.hpp:94-109", "README.md:811-850"]}
{"id": "C75", "title": "Any tag text has one exact meaning", "statement": "A tag text of any form is cut in two wherever '[' directly follows ']' and nowhere else (a lone ']' in front is dropped). Every piece is one tag: pieces that begin with '[.' hide the test and stand for '[.]' and the rest in brackets; '[!mayfail]' and '[!shouldfail]' set the flags. Filters select among tests with such tags exactly as documented for these pieces. The text is refused by the assertion handler exactly if it is not empty and lacks one kind of bracket, or has a hiding tag too long for the buffer. Hence '[a] [b]' is a single tag.", "quantifier": "every tag text, every list of filters", "why_tests_cant": "Tests use well-formed tag strings; the effect of stray characters, unbalanced or nested brackets on which tests run cannot be enumerated.", "anchors": ["src/snitch_registry.cpp:16-86", "src/snitch_registry.cpp:89-98", "src/snitch_registry.cpp:198-299", "src/snitch_registry.cpp:834-896"]}
{"id": "C76", "title": "Whatever is refused is refused with its reason, and nothing else is", "statement": "Pushing to a full vector, reading or removing an element that is not there, registering too many reporters or tests, a reporter name with '::', a test with an empty or too long full name, too many captures, too deep sections, more unique tags than allowed when listing them, tag texts that cannot be read, get<T>() of an empty inplace_any or one of another type, an output file whose path is too long or that cannot be opened: each of these is refused exactly if its condition holds, and otherwise returns without printing and without calling the assertion handler. When it is refused, first the message about the limit is printed (with the name of the build option and its present value, in full), then the handler is called once with the reason. The standard handler prints the reason and terminates the program; a handler that throws passes its exception to the caller; a handler that returns does not make the call go on: the program is terminated. Test macros used without a running test terminate the program.", "quantifier": "every vector, operation, limit below 2^64, name, number of captures, nesting, tag, path, state, and every behaviour of the assertion handler", "why_tests_cant": "The assertion handler can be replaced by any function, and the limits are build options; a test exercises one handler with one value of each limit, and the standard handler ends the test program.", "anchors": ["src/snitch_error_handling.cpp:8-25", "include/snitch/snitch_vector.hpp:40-150", "src/snitch_registry.cpp:302-377", "src/snitch_registry.cpp:1073-1100", "src/snitch_section.cpp:72-93", "src/snitch_capture.cpp:84-103", "include/snitch/snitch_any.hpp:82-93", "src/snitch_file.cpp:9-28", "src/snitch_test_data.cpp:14-21"]}
{"id": "C77", "title": "A refused call leaves everything as it was", "statement": "If the assertion handler throws, the refused call has changed nothing: a program that catches the exception goes on as if it had not made the call, whatever sequence of calls it makes.", "quantifier": "every operation, every sequence of operations, every state, every handler", "why_tests_cant": "The exception guarantee concerns states after failures at every limit and in every state; unit tests check that a failure is reported and stop there.", "anchors": ["src/snitch_error_handling.cpp:16-25", "include/snitch/snitch_vector.hpp:40-150", "src/snitch_registry.cpp:302-377", "src/snitch_section.cpp:65-95", "include/snitch/snitch_capture.hpp:29-47"]}
{"id": "C78", "title": "An exception of user code called by a check is reported, and no user code runs twice or needlessly", "statement": "A check calls the user's functions in a fixed order, each at most once: the operands are evaluated, then compared, the result is converted to bool; only if the check fails (or successful assertions are to be decomposed) the left operand is converted to a text, and the right one only if there is still room; a matcher is asked to match and then, if the text is shown, to describe. CAPTURE and INFO convert their arguments from left to right as long as what came before fits. An exception thrown by any of these functions stops the check and is reported as a failure of the test case at the place of the check, and the run goes on.", "quantifier": "every check with every combination of functions that return or throw, noexcept or not, every text, capacity and operator; and every test body containing such a check", "why_tests_cant": "The order of calls and the fate of exceptions depend on which of the user's functions throws and on the noexcept of every function of the library in between; a test that ends the program cannot be observed by the test suite.", "anchors": ["include/snitch/snitch_macros_check.hpp:15-30", "include/snitch/snitch_macros_check.hpp:71-84", "include/snitch/snitch_expression.hpp:18-55", "include/snitch/snitch_expression.hpp:151-186", "include/snitch/snitch_expression.hpp:252-266", "include/snitch/snitch_matcher.hpp:29-40", "include/snitch/snitch_matcher.hpp:112-120", "include/snitch/snitch_capture.hpp:26-47", "include/snitch/snitch_macros_exceptions.hpp:51-80"]}
{"id": "C79", "title": "Red means failure: the colours of the console report tell the outcome", "statement": "In the coloured console report, read as a terminal reads it, red, green and yellow appear exactly where the outcomes are told, in the order of the events: 'failed: ' in red for every failure that was neither expected nor allowed and 'error:' in red at the end of a run that failed; 'passed: ', 'expected failure: ', 'allowed failure: ' and 'success:' in green; 'skipped: ' in yellow. Hence, at every verbosity, something is red in the report of a run if and only if the run failed (so that main returns 1), and something is yellow if and only if a test was skipped.", "quantifier": "every sequence of events and every run of every set of tests, at every verbosity, for names, captures, messages and values without escape characters that fit in the buffers of the reporter", "why_tests_cant": "The meaning of a colour is a claim about every part of every report: tests compare a few reports with stored ones, and cannot exclude that some other event is told in red, or that a failure is not.", "anchors": ["src/snitch_reporter_console.cpp:27-95", "src/snitch_reporter_console.cpp:99-200", "include/snitch/snitch_console.hpp:11-56"]}
{"id": "C80", "title": "Every event tells the truth in every field", "statement": "A program that runs tests passes its reporter, from verbosity normal on, first the start and last the end of the run, both with the name of the program and the filters as given on the command line, and in between one part per selected test in the order of registration. Every event of a part has name, tags, type, fixture and place of its test; sections are told with their names and places, assertions and skips with the sections they are in, the captures that hold there and their place, failures with flags saying whether they were expected or allowed. The end of a test tells what became of it, its numbers of assertions and failures, and whether failures were expected or allowed; the end of the run tells how many tests were run, failed, were allowed to fail, and were skipped, and its success is the exit status. --list-tests tells the selected tests, also with the name of the program and the filters. The reports made of these events name program, filters and tests accordingly.", "quantifier": "every program of tests within the limits of the library, every command line without repeated options, every verbosity", "why_tests_cant": "Reporters and report callbacks rely on every field of every event of every run. Tests compare selected fields of a few events and cannot see that a field is never filled in, or is only right for tests of one form.", "anchors": ["include/snitch/snitch_test_data.hpp:118-290", "src/snitch_registry.cpp:100-113", "src/snitch_registry.cpp:446-588", "src/snitch_registry.cpp:675-898", "src/snitch_main.cpp:7-20"]}
{"id": "C81", "title": "The end of a section counts what happened in the section", "statement": "From verbosity high on, the end event of a section tells which section ends, whether the test has been skipped, and how many assertions there were in the section, how many of them failed, and how many failures were expected or allowed, over all executions of the test. (The code counts since the last entry of the section; it is the same for sections that contain at most one leaf section.)", "quantifier": "every tidy test body within the limits of the library, with exceptions, aborts and skips; every verbosity", "why_tests_cant": "The numbers depend on how the executions of a test are spread over its sections. Tests look at a few bodies; that the numbers of a section with several sub-sections are those of its last execution only shows when failures are in an earlier one.", "anchors": ["src/snitch_section.cpp:13-143", "src/snitch_registry.cpp:391-446", "src/snitch_registry.cpp:542-588", "src/snitch_test_data.cpp:60-90", "include/snitch/snitch_test_data.hpp:193-215"]}
{"id": "C82", "title": "Assertions are told inside their sections", "statement": "From verbosity high on, every assertion and every skip is told after the starts of all sections it is in and before their ends, and in no other section: a reporter that nests what it is told between section starts and ends (as the XML reporter does) shows every failure in its place. (The code may leave more sections open than those; it is exact if no section contains two leaf sections.)", "quantifier": "every tidy test body within the limits of the library, with exceptions, aborts and skips; verbosity high and full", "why_tests_cant": "Whether start and end events of sections surround the right assertions depends on all executions of a test together, as sections are started at the first and ended at the last of them. Tests look at a few bodies, mostly with assertions in leaf sections.", "anchors": ["src/snitch_section.cpp:13-143", "src/snitch_registry.cpp:446-588", "src/snitch_reporter_catch2_xml.cpp:231-250"]}
{"id": "C83", "title": "The XML document tells everything that happens in a run", "statement": "With the XML reporter, the report of a run is one XML document with the name of the program and the filters, the numbers of tests of each kind and of assertions, and an element for each selected test in the order of registration, with the name, tags and place of the test, and if it is a success. This element contains every assertion told at the verbosity, in the order in which they happen, with the captures that hold, its place and its expression or message, every skip, and an element with name, place and numbers for every section; and every assertion and skip is in the elements of exactly the sections it is in. (The code may put them in elements of other sections, and the document may be malformed, if a section contains two leaf sections.)", "quantifier": "every program of tests within the limits of the library, every command line without repeated options that asks for a run with the XML reporter; texts that fit in the buffers of the reporter; for the nesting, tests in which no section contains two leaf sections", "why_tests_cant": "Tools read the document and attribute every failure to tests and sections. Tests compare documents of a few programs as texts, where misplaced elements look plausible.", "anchors": ["src/snitch_reporter_catch2_xml.cpp:13-262", "src/snitch_registry.cpp:446-588", "src/snitch_registry.cpp:706-780", "src/snitch_section.cpp:13-143", "src/snitch_main.cpp:7-20"]}
{"id": "C84", "title": "The console report tells everything that happens in a run", "statement": "With the console reporter, the report of a run is, line by line, determined by what happens in the selected tests, in the order of registration: at verbosity normal and above the name of the program at the start, and at the end whether the run is a success and the numbers of tests, failed and skipped tests and assertions; for each test at verbosity high and above a line at its start and at its end; and every failure and skip (at high also sections, at full also successful assertions) in the order in which they happen, with the sections it is in, its place, the type, the captures that hold, and its expression or message. Failures are introduced as expected if the test should fail and does, otherwise as allowed if it may fail, otherwise as failed. Colours only add codes. There is nothing else in the report.", "quantifier": "every program of tests within the limits of the library, every command line without repeated options that asks for a run, every verbosity; texts that fit in the buffers of the reporter", "why_tests_cant": "The report is what people act on. Tests compare the output of a few programs with approved texts; they cannot show that nothing is lost, added or out of order for other tests, tags, verbosities and ways of ending.", "anchors": ["src/snitch_reporter_console.cpp:16-215", "src/snitch_registry.cpp:446-588", "src/snitch_registry.cpp:706-803", "src/snitch_main.cpp:7-20"]}
{"id": "C85", "title": "The TeamCity report tells everything that happens in a run", "statement": "With the TeamCity reporter, the service messages of a run are determined by what happens in the selected tests, in the order of registration: the suite is named after the program and the filters; each test is started and finished under its name, with its duration; in between, there is one message for every section that is entered or left, every skip, and every assertion told at the verbosity, in the order in which they happen, with place, captures and expression or message. A failure that is neither expected nor allowed is a testFailed message, all other assertions are output. There are no other messages.", "quantifier": "every program of tests within the limits of the library, every command line without repeated options that asks for a run with the TeamCity reporter; texts that fit in the buffers of the reporter", "why_tests_cant": "The build server shows what the messages say. Tests compare the messages of a few programs; they cannot show that none is lost, added or out of order for other tests, tags and ways of ending.", "anchors": ["src/snitch_reporter_teamcity.cpp:11-186", "src/snitch_registry.cpp:446-588", "src/snitch_registry.cpp:706-803", "src/snitch_main.cpp:7-20"]}
{"id": "C86", "title": "Running a test ends, and executes every section it has", "statement": "If every execution of a test function ends, running the test ends, and every section that an execution has reached has been entered by then. (The code guarantees this if every execution reaches the same sections, whatever else differs between executions. It identifies a section by its position among those reached: a section that is reached in the first execution only makes the test run forever, and of two sections that change places after the first execution one is executed twice and the other never.)", "quantifier": "For all test functions, including those whose executions differ (static or shared variables, random numbers, code that depends on which section was executed), all limits and verbosities.", "why_tests_cant": "That a run never ends cannot be observed by a test; which sections are reached in the next execution depends on the state of the program.", "anchors": ["src/snitch_section.cpp:13-143", "src/snitch_registry.cpp:621-641"]}
{"id": "C87", "title": "A run of the program puts the whole report where it was asked for, after the remarks on the command line", "statement": "For every test program with the reporters of the framework and every well-formed command line that asks to run tests: the exit status is 0 exactly if no selected test fails; the standard output begins with one remark for each argument or option value that is not known; the report of the run follows, or is, alone and complete, in the file given with --out, which is then closed; the report is the one of the reporter chosen (console lines, TeamCity messages or XML document, as in C83 to C85; for XML: if the section events of the tests are nested), at the verbosity asked for (at least high for the latter two), in colour exactly if the settings say so. A command line that is not well-formed gives exit status 1, the complaints and the help text, and opens no file. If the file asked for cannot be opened, the program ends in the assertion handler.", "quantifier": "every program (tests, names, texts, reporters, limits), every command line, every answer of the file system", "why_tests_cant": "end-to-end composition over arbitrary programs, command lines and files; unit tests check the parts with mocked print functions", "anchors": ["src/snitch_main.cpp: main", "src/snitch_registry.cpp: registry::configure, registry::run_tests", "src/snitch_cli.cpp: parse_arguments"]}
{"id": "C88", "title": "Lists show exactly what they should, once, where output was asked for", "statement": "For every test program and well-formed command line: --help, --list-tests-with-tag, --list-tags, --list-reporters and --list-tests give exit status 0 and no test is run; if several are given only the first in this order counts. Tests listed are exactly those with the tags asked for, or those selected by the filters, or all (also hidden ones) without a filter, each once, in order of registration, in the format of the reporter chosen. Tags are listed as they are written in tests, each once and sorted; reporters in order of registration. With --out, the list is in the file.", "quantifier": "every program, every command line", "why_tests_cant": "arbitrary programs and command lines; the unit tests only look for substrings of the printed text and do not combine the options with --out", "anchors": ["src/snitch_registry.cpp: registry::run_tests, list_all_tests, list_all_tags, list_tests_with_tag, list_all_reporters", "README.md: Command-line API"]}
{"id": "C89", "title": "The options in the README are recognised, and their spellings have the same effect", "statement": "Every option that the README lists is recognised in every spelling listed, anywhere on a well-formed command line: it is found under its name with its value, without a warning. Programs do the same for all spellings of an option: what a program prints, writes to files and returns depends only on how the command line is read.", "quantifier": "every program, every well-formed command line, every option and spelling in the README", "why_tests_cant": "quantifies over all command lines around the option and all programs; the unit tests use the spellings of the code, not those of the README", "anchors": ["README.md: Command-line API", "src/snitch_cli.cpp: expected_args, parse_arguments, get_option"]}
{"id": "C90", "title": "Durations are the times really passed", "statement": "Measuring time has no influence on what a run does or tells otherwise. If the clock never goes back: the durations told by the events are those of spans of time between two readings of the clock, where the span of every selected test is inside that of the run, spans of different tests do not overlap (so the times of the tests add up to no more than that of the run), and spans of sections are inside that of their test. The span of a section is the time spent in it. The duration in seconds is never negative, is right to one part in 8388607, and is not longer for a span inside another one, so no section is told to take longer than its test and no test longer than the run. The TeamCity reporter tells the duration of a test in the unit of its protocol, milliseconds.", "quantifier": "every program of tests, every verbosity, every clock that never goes back and is below 2^63 ns; every rounding of floats to nearest", "why_tests_cant": "tests cannot control the clock, and compare at best against a generous bound; the sums and orders hold for all interleavings of readings, and the rounding for all of 2^63 differences", "anchors": ["src/snitch_time.cpp", "src/snitch_section.cpp:75-133", "src/snitch_registry.cpp:549-581", "src/snitch_registry.cpp:614-699", "src/snitch_registry.cpp:725-802", "src/snitch_reporter_teamcity.cpp:112-116"]}
{"id": "C91", "title": "A run can be split by a filter, reordered, extended and repeated", "statement": "The tests of a program do not influence each other through the registry. (1) Repeating a run on the same registry, with the test states the first run left, gives the same events, the same result and the same states. (2) Registering the same tests in another order gives the same exit status, and the same things happen in the tests, up to order. (3) Adding tests leaves what is told of the others alone: the output of the larger program is that of the tests there before followed by that of the tests added, and the exit status is 0 exactly if it is for both. (4) Splitting a run by a filter f and its negation ~f, appended to the filters already given (f a single name pattern or a single group of tags): if both parts succeed, so does the whole; without hidden tests the converse holds too, and the items told by the whole are a permutation of those told by the parts. With hidden tests the converse can fail, since f can be what asks for a hidden test (concrete witness).", "quantifier": "All limits, reporters, initial configurations and command lines that ask for a run, all lists of tests within the documented limits, all filters that are a single name pattern or tag group", "why_tests_cant": "Splitting a suite over machines by filters relies on this for every suite and filter; tests can only compare a few splits.", "anchors": ["src/snitch_registry.cpp:255-297", "src/snitch_registry.cpp:584-704", "src/snitch_registry.cpp:706-803", "src/snitch_registry.cpp:813-912"]}
{"id": "C92", "title": "The exit status depends on the verdicts only, not on texts nor on how the report is shown", "statement": "For a well-formed command line that asks for a run, whatever the texts of messages, expressions, captures, names of tests and sections (however long, with whatever characters), whichever of the three reporters is chosen, at any verbosity, in colour or not, with its report on the standard output or in a file: the program ends, its report is delivered, and its exit status is 0 if no selected test fails and 1 otherwise. Hence two programs whose tests have the same names, tags and verdicts, and command lines with the same filters, have the same exit status. With --list-tests or --list-tests-with-tag the exit status is 0, whatever the names and tags. For any other command line of at most the allowed number of arguments the program ends too, with status 1 exactly if the command line is refused, except that --list-tags can be undefined (short form of tags, see C49).", "quantifier": "All programs with line numbers, durations and numbers of tests and assertions below 2^64, all texts, limits, reporters and command lines", "why_tests_cant": "Build servers rely on the status alone; tests print short ordinary texts, and cannot try all texts with all reporters and options.", "anchors": ["src/snitch_reporter_console.cpp", "src/snitch_reporter_teamcity.cpp", "src/snitch_reporter_catch2_xml.cpp", "src/snitch_registry.cpp:813-912", "src/snitch_main.cpp"]}
{"id": "C93", "title": "What a program declares decides what its report says", "statement": "For a program whose texts fit in the buffers of the reporter (names of tests and sections, tags, file names, captured texts, messages, what assertions show; escaped if the reporter escapes them; without escape characters if the report is in colour) and whose numbers fit in std::size_t, and a well-formed command line that asks for a run: main returns 0 or 1, and 0 exactly if no selected test fails; and the report on the standard output, after the remarks about the command line, or in the file named with --out, is the lines (console), the messages (TeamCity) or the document (XML) that state, for the selected tests in order of registration, what happens in them. The numbers of assertions, failed assertions and allowed failures in the XML document are the sums over the selected tests. All conditions are on what is written in the program and on the command line: none on what happens in the run. For the XML reporter, no section contains two leaf sections (C83).", "quantifier": "all programs (tests, tags, bodies, texts, limits), all well-formed command lines, all paths, all files that can be written; reporters console, teamcity and xml, every verbosity, colour on and off", "why_tests_cant": "A test of a reporter feeds it some events and looks at some output. That the report of a program can be read off its source needs the events of every program to be within what the reporters can write, and every reporter to be right about all of these.", "anchors": ["src/snitch_registry.cpp", "src/snitch_main.cpp", "src/snitch_reporter_console.cpp", "src/snitch_reporter_teamcity.cpp", "src/snitch_reporter_catch2_xml.cpp"]}
{"id": "C94", "title": "The times in a report are the times that passed", "statement": "With a clock that does not go back and has not reached 2^63 ns, the report of a run says next to each selected test, in order, the time from the start to the end of that test, and for the whole run the time from its start to its end: the console reporter (tests at verbosity high and above, the run at verbosity normal and above) and the XML reporter (if times are shown) as a number of seconds in scientific notation with seven digits, off by at most seven parts in ten million; the TeamCity reporter as a number of microseconds, off by at most one and one part in five million. The XML report says in the same way, for each section whose end is told, the time from its last entry to its end. No condition on the durations is needed: every such text fits in the buffers of the reporters and needs no escaping.", "quantifier": "all clocks that do not go back (below 2^63 ns), all programs, all well-formed command lines that ask for a run; reporters console, teamcity and xml; every pair of times", "why_tests_cant": "A test cannot control the clock, so it can only check that some number is written. Here the chain from two readings of the clock through a conversion to float, seven decimal digits and the text of the report is followed for all pairs of times, and each number is tied to the test it is written next to.", "anchors": ["src/snitch_time.cpp:10-22", "src/snitch_registry.cpp:592-690", "src/snitch_registry.cpp:720-785", "src/snitch_append.cpp", "src/snitch_reporter_console.cpp:120-165", "src/snitch_reporter_teamcity.cpp:105-146", "src/snitch_reporter_catch2_xml.cpp:205-255"]}
{"id": "C95", "title": "Every test, and every set of tests, can be picked out on the command line", "statement": "Whatever characters the name of a test contains (commas, asterisks, brackets, backslashes, a leading dash or tilde), the name with a backslash in front of every character is an argument that selects the tests with that full name and no others, hidden or not, whatever their tags. A text quoted in this way with an asterisk behind it, before it or on both sides selects the tests whose full name begins with it, ends with it or contains it; in brackets, those with such a tag; with a tilde, those without it. Alternatives separated by commas select the tests that meet one of them, several arguments those that meet all of them, and hidden tests only if an alternative they meet is not negated. So for every set of tests that does not share a full name with a test outside, there is one argument that runs these tests only, tells what happens in them, and makes the exit status 0 exactly if none of them fails; in particular the failed tests of a run can be run again alone, and fail again.", "quantifier": "all names, all tags, all sets of tests, all lists of such arguments; every program whose tests are within the limits, every command line without listing options", "why_tests_cant": "A test tries a few names and a few filters. That quoting works for every name, that no other test is selected, and that alternatives, arguments, negation and hiding combine as documented for all lists of criteria, is a statement about all pairs of filters and tests.", "anchors": ["src/snitch_string_utility.cpp", "src/snitch_registry.cpp:143-157", "src/snitch_registry.cpp:187-300", "src/snitch_registry.cpp:834-896"]}
{"id": "C96", "title": "Sections inside try blocks are executed like other sections", "statement": "A test may put its sections inside try blocks. As long as nothing is thrown inside such a block, the block makes no difference, whatever its handler contains: the test is executed once per leaf section, with the same events, verdict, output and exit status as without the block. If a section inside the block throws and the test handles the exception, the other sections of the block are still executed in further executions of the test, or the test does not pass. (The second part does not hold: sections that follow the throwing one are silently left out and the test passes, unless a section follows after the block.)", "quantifier": "all tests, any nesting of sections, try blocks, operands and destructors, any handlers; all programs, command lines and verbosities", "why_tests_cant": "Whether a try block is invisible depends on the counters of all nesting levels over all executions of the test. Tests of the framework have a few fixed layouts of sections, and a section that is not executed leaves no trace in the report that a test of it could notice.", "anchors": ["src/snitch_registry.cpp:614-656", "src/snitch_section.cpp:13-143", "src/snitch_test_data.cpp:70-86", "README.md:561-561"]}
{"id": "C97", "title": "Adding checks that pass changes nothing but the number of assertions", "statement": "Checks that pass (CHECK and REQUIRE of conditions that hold, expected exceptions that are thrown, code expected not to throw that does not) and calls of notify_exception_handled can be added to tests anywhere: in sections, try blocks, handlers, operands of other checks and destructors. As long as the new test keeps within the limit of nesting, the verdict and the number of failures stay the same; the same statements of the user are executed in the same order and the same number of times, with the same sections started, the same failures and skips told in between; and the program ends with the same exit status for every command line. (What may change besides the number of assertions: the place shown with a failure, and when the end of a section that was left by a handled exception is told.)", "quantifier": "all tests, all places in them, any number of added checks of all kinds; all programs, command lines, limits and verbosities", "why_tests_cant": "It compares every test with every extension of it. A unit test shows one test before and after; hidden state (held context, counters of sections, locations, flags for exceptions) through which a passing check could influence what happens later cannot be ruled out by examples.", "anchors": ["src/snitch_test_data.cpp:31-86", "src/snitch_registry.cpp:391-524", "src/snitch_section.cpp:13-143", "include/snitch/snitch_macros_check.hpp:15-58", "include/snitch/snitch_macros_exceptions.hpp:13-126"]}
{"id": "C98", "title": "A test with sections is as good as separate tests", "statement": "For every leaf section of a test there is a separate test: the code outside sections, and only the sections which lead to that leaf. For a test without SKIP that is not tagged [!shouldfail]: what the test does (its statements and its failures with sections, captures, place and message, in order) is what the separate tests do one after the other, up to and including the first one that is ended by an exception. If nothing is thrown and no REQUIRE fails, it is what all of them do. In any case (unless the code itself throws the framework's own exception) the test succeeds exactly if all separate tests succeed and fails exactly if one of them fails; and a program of such tests ends with status 0 exactly if no separate test of a selected test fails.", "quantifier": "all tests without SKIP (any nesting of sections, captures, try blocks, destructors and operands with checks, each execution possibly different), all limits they keep within, all verbosities, all programs and command lines", "why_tests_cant": "It relates every test to a family of other tests derived from it. A unit test shows one arrangement of sections; that no other arrangement lets something leak from one execution into the next (held sections, captures, counters, places, the verdict) needs a proof over all of them.", "anchors": ["src/snitch_section.cpp:13-143", "src/snitch_registry.cpp:391-524", "src/snitch_registry.cpp:588-720", "README.md:559-600"]}
{"id": "C99", "title": "Adding INFO and CAPTURE changes nothing but the captures shown", "statement": "INFO and CAPTURE may be added to a test anywhere: outside and inside sections, blocks, try blocks, handlers, destructors and operands. If the run of the new test ends (which it does if it is written as documented and keeps within the limit on captures), then the old test ends with the same verdict and the same numbers of assertions, failures and allowed failures; the same user statements are executed in the same order, between the same sections started, failures and skips told. A program with such tests ends with the same exit status for every command line. One capture more than the limit aborts the program.", "quantifier": "all tests and all ways of adding captures to them, all programs, command lines, verbosities and limits", "why_tests_cant": "It compares every test with every annotated version of it. add_capture and the destructor of scoped_capture touch the same shared test state (location, held information, list of captures) that sections, exceptions and reports depend on; tests show single annotated programs only.", "anchors": ["src/snitch_capture.cpp:23-35", "src/snitch_capture.cpp:84-99", "include/snitch/snitch_capture.hpp:13-39", "include/snitch/snitch_macros_misc.hpp:10-21"]}
{"id": "C100", "title": "REQUIRE in place of CHECK never changes the verdict", "statement": "Any number of CHECK, CHECK_FALSE, CHECK_THAT, CHECK_THROWS_AS, CHECK_THROWS_MATCHES, CHECK_NOTHROW and FAIL_CHECK in a test may be replaced by their REQUIRE or FAIL forms, in any places. If both tests end, they have the same verdict (success, failure, allowed failure, skipped), whatever the tags, and though less may be executed. If none of the checks replaced fails, both tell the same, with the same numbers; otherwise both tell the same up to the first failure of such a check, which both tell (unless the test has been skipped with SKIP_CHECK before). Tests that are written as documented and keep within the limits do end; a program of such tests has the same exit status for every command line that asks for a run. In a destructor, REQUIRE in place of CHECK ends the program when it fails.", "quantifier": "all tests and all ways of replacing checks in them, all tags, limits and verbosities, all programs and command lines", "why_tests_cant": "It compares every test with every stricter version of it. The two executions are different from the first failure on (sections left by an exception, handlers that catch the framework's exception, destructors run by it, executions left out), and that none of this changes the verdict is a statement about all continuations.", "anchors": ["include/snitch/snitch_macros_check.hpp:15-58", "include/snitch/snitch_macros_check_base.hpp:10-15", "include/snitch/snitch_macros_exceptions.hpp:13-126", "src/snitch_registry.cpp:115-120", "src/snitch_registry.cpp:588-720"]}
{"id": "C101", "title": "Tests can be made sections of one test", "statement": "Tests without skips (not expected to fail, with the same tags) may be gathered as the sections of one test. The gathered test does what the tests do, one after the other: the same statements and the same failures in the same order, up to and including the first test that is ended by an exception; a failure is shown with the section of its test in front of its own sections, and an exception thrown directly in a test has the place of the section. The gathered test succeeds exactly if all the tests succeed, and fails exactly if one of them fails, although the later ones may not be reached. When all tests are run, the exit status of the program is the same. In particular, a section around the whole code of a test changes neither what is executed nor what fails nor the verdict. (All this within the limit on the nesting of sections: one section too many ends the program. And a test that is skipped hides, as a section, the failures of those after it.)", "quantifier": "all non-empty lists of tests, whose code may use sections, captures, exceptions and destructors and may differ from execution to execution, all programs which contain them, all limits and verbosities", "why_tests_cant": "It compares every list of tests with the test made of them, for any number of tests and sections in them; the executions of the gathered test are distributed over the tests by the bookkeeping of sections, which works differently one level further down.", "anchors": ["src/snitch_section.cpp:13-143", "src/snitch_registry.cpp:588-720", "include/snitch/snitch_test_data.hpp:308-319"]}
{"id": "C102", "title": "The order of sections does not matter for the verdict", "statement": "Sections which follow one another may be put in another order, anywhere in a test (also sections inside sections), if the test has no SKIP or SKIP_CHECK and does the same in each execution: the verdict is the same, whatever the tags, also if exceptions or failing REQUIREs keep the test from reaching some of the sections. If nothing is thrown and no REQUIRE fails, also the statements executed and the failures told with their places are the same, each as often, only in another order. A program of such tests has the same exit status for every command line that asks for a run. (With a skip in one section and a failure in another one, the first of the two decides.)", "quantifier": "all tests and all ways of reordering neighbouring sections in them, at any depth and any number of times, all tags, limits and verbosities, all programs and command lines", "why_tests_cant": "It compares every test with all its reorderings. The executions come in another order and, with exceptions, different sets of sections are reached, so no number of runs shows that the verdict stays.", "anchors": ["src/snitch_section.cpp:13-143", "src/snitch_registry.cpp:588-720"]}
{"id": "C103", "title": "Code before the sections is as good as code in each of them", "statement": "The code before the sections of a test may be moved to the begin of each of these sections (the code having no sections itself, and whatever it does: checks that fail, REQUIRE, SKIP, exceptions, captures of its own, try blocks). If both tests are written as documented and keep within the limits, they have the same verdict whatever the tags, the same statements are executed in the same order and as often, and the same checks, failures and skips are told with the same captures and texts. Only section starts and ends come at other times, and a failure in the code that was moved is shown with the section. So each leaf section gets its own set-up. A program in whose tests this is done has the same exit status for every command line that asks for a run.", "quantifier": "all tests of this form, with any code before, in and after the sections, which may differ from execution to execution; all tags, limits, verbosities, programs and command lines", "why_tests_cant": "It compares every test with the rewritten one. The executions are chosen by the bookkeeping of sections while the code before them is executed again each time; that this amounts to a fresh set-up for each leaf, also when the set-up fails, throws or skips, is a statement about all codes and all numbers of sections.", "anchors": ["README.md:559-590", "src/snitch_section.cpp:13-143", "src/snitch_registry.cpp:588-720"]}
{"id": "C104", "title": "Adding sections next to others hides no failure", "statement": "Sections may be added to a test, each directly before or after another section, at any depth. If the larger test has no skips, does the same in each execution, does not itself throw the exception with which the framework ends tests, is written as documented and keeps within the limits, then the old test does not fail without the new one failing: a test without [!shouldfail] which does not succeed has the same verdict as before (failed stays failed, an allowed failure stays one), and a test which fails as it should still does. This also holds if exceptions or failing REQUIREs keep one of the two from reaching all sections. If nothing interrupts them, all statements and failures of the old test, with their places, are still there, as often; the rest is new. A program without [!shouldfail] whose exit status says that something failed still says so after sections have been added to its tests, for every command line that asks for a run. Without the first condition this fails: a new section that skips hides the failures in the sections behind it.", "quantifier": "all tests, all ways of adding sections next to sections at any depth; all tags, limits, verbosities, programs and command lines", "why_tests_cant": "It compares every test with every larger one. The numbers by which the bookkeeping of sections picks the next one all change when a section is added; that none of the old sections is lost, also when executions end early, is a statement about all codes and all places of the new section.", "anchors": ["README.md:545-600", "src/snitch_section.cpp:13-143", "src/snitch_registry.cpp:588-720"]}
