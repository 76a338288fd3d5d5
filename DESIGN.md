# Formal model of snitch: design

Prover: Lean 4.33.0 + Mathlib (single modules imported). Project: `/verif/lean`.

## Approach

The code in `/repo` is read as text and modelled function by function as total, computable Lean
functions. Each definition cites the file and lines it models; simplifications are stated there.

* `Verif/Model/*`  — the model (definitions only).
* `Verif/Spec/*`   — small, model-independent specifications.
* `Verif/Lemmas/*` — helper lemmas.
* `Verif/Props/*`  — the property theorems, one file per area, each followed by non-vacuity
  `example`s that instantiate the hypotheses on a concrete non-trivial case.

Conventions of the model

* Text is `List Char`. C++ text is bytes; every function modelled only compares characters for
  equality (or, for sorting, by code), so the byte strings embed injectively.
* Sizes are `Nat`; places where `size_t`/`uint64_t` wrap-around can matter use explicit `% 2^64`.
* `Outcome` has three cases: `ok`, `abort` (the code called `assertion_failed`/`terminate_with`)
  and `ub` (the C++ would have undefined behaviour). Nothing is assumed away: preconditions of the
  C++ functions show up as `abort`/`ub` outcomes and as hypotheses of theorems.
* Compile-time limits (`SNITCH_MAX_*`) are parameters; `max_message_length` is the instance of a class
  (`MessageLimit`) and the theorems hold for every instance.
* Test bodies are programs in a small language (`Prog`): actions, assertions, skips, throws,
  sections, capture scopes, try/catch, operands and destructors that use the framework. C++ stack unwinding is
  modelled by running the destructors of the modelled RAII objects and of user objects on the exceptional path; a
  parameter `flight` stands for `std::uncaught_exceptions() > 0`.
* A test function (`Body`) has such a program for each of its executions, so executions may differ in any way. Theorems
  about what a run means ask that all executions reach the same sections (`Alike`); those about counts, states and exit
  codes (most of C25–C30, and C73) do not.

## Plan per property

| id | what is modelled | how it is proved |
|----|------------------|------------------|
| C01 | `small_vector_span` as (buffer, size), `size_t` sum with wrap | refinement to lists, induction over operation sequences; wrap-around recorded by a negative theorem |
| C02 | both `append` implementations on buffers | refinement to `take cap (old ++ s)`, equality of the two |
| C03 | variadic `append` as a fold with short circuit | induction over the argument list |
| C04, C05 | `num_digits`, digit loops, buffers | round trip through a parser, induction on the value |
| C06 | pointer printing | round trip + width |
| C07, C08 | `truncate_end`, `append_or_truncate` | list equality for all sizes |
| C09 | in-place `replace_*` on buffers, `std::rotate` | refinement to a left-to-right replacement spec |
| C10 | `escape_all_or_truncate` loop | invariant on `last_full_pos`, spec by `flatMap` |
| C11 | index loop | equivalence to a declarative "escaped position" spec |
| C12 | backtracking `is_match` | soundness and completeness for an inductive glob relation |
| C13 | `for_each_raw_tag`, `for_each_tag` | induction over the list of tags |
| C14–C17 | filter evaluation | algebra on verdicts, induction on filter text split |
| C18, C29, C46, C49 | registry level | induction on the list of tests |
| C19–C22 | section state machine + run loop over `Prog` | invariant: nesting levels encode "k runs done"; induction on the program |
| C23, C25–C28, C48 | test state, assertion reporting, unwinding | invariants by induction on `Prog` |
| C30 | events tagged with verbosity | simulation between two runs |
| C31, C51 | argument parser over the real option table | induction on the argument vector, relation to a declarative parse |
| C32, C33 | `configure`, `parse_reporter` | case analysis; the multi-option loop violates C33 for n >= 2: negation proved |
| C34, C35 | `print`, coloured append | induction over arguments |
| C36, C37 | expression decomposition, matchers | case analysis over operators |
| C59 | operators of the extracted expressions, C++ grammar | the grammar groups in one way; induction on the grouping |
| C60 | `CONSTEXPR_*`, `CONSTEVAL_*` | equal to one or two `CHECK` statements in every state; both formatting paths give the same text |
| C61 | `print_help`, `cli::print`, messages of `parse_arguments` | text equal to a literal help text; complaints equal to a separate left-to-right reading; the options read back from the help text are the ones the parser knows |
| C62 | `add_reporter`, `parse_reporter` (for a reporter found), `report_default`, `report<T>`, `finish_callback` over `inplace_any` | the log of calls equals a separate description, by an invariant between the storage and the object the log says exists |
| C63 | `print_callback`, the optional `file_writer`, `--out`, the end of `run_tests`, over the model of `file_writer` | the calls of the C library equal a trace computed from the operations alone |
| C64 | `thread_current_test` with several threads | small steps in any order; each thread's part equals its execution alone (the model of C47) |
| C65 | `get_type_name` | first occurrences of prefix and suffix; partial, with the exact name in the other cases |
| C66 | checks in operands of checks (`Prog.nested`) in the model of a test case | the run equals its story (C19), which for an operand is the story of the operand, then the answer of the check |
| C67 | `main` from the command line to the exit status and the console, XML and TeamCity reports | composition of C31, C32, C70, C16, C19, C25–C30, C29, C57, C40, C55; failing is defined by the story of a test and its tags alone |
| C68 | destructors of local objects (`Prog.guard`, `flight`) in the model of a test case | the run equals its story (C19) where this holds; exact description and complete runs where it does not |
| C69 | the messages of exception checks and unexpected exceptions, cut at `max_message_length` (`joined`, `MessageLimit`) | the text left by `append_or_truncate` (C05) is the abridged one; the runs contain it (C19, C48) |
| C70 | `configure` with its warnings, `parse_reporter`, reporters as arbitrary functions on the settings, the built-in ones | equality with a specification of the values given; the option texts taken are the ones between `::`, shifted as in C33; agreement with the model of C32, C33 |
| C71 | the overloads of `append` with the rules of overload resolution, for all scalar types, arrays, functions and classes with any conversions | resolution computed by cases on the type; texts equal to a table; a class shown is shown as one of its conversions |
| C72 | the macros that declare tests (`add` and its variants), fixtures (`block ctor (guard dtor body)`), the disabled build (`disabled`) | the list held equals the list declared; the run equals its story (C19) with constructor and destructor around every execution; the code left when disabled equals a meaning without macros |
| C73 | the build without exceptions (`NoExc`: the same functions with the guarded parts removed, `Stop` for `std::terminate`) | simulation: the result equals that of the normal build up to one assertion and the type of locations, or its events are the first ones of the normal build up to the failed REQUIRE; for a whole run, by induction over the tests |
| C74 | `function_ref`: constructors as overload candidates with deduction and ranking, variant, `operator()`, on a world of objects, references and calls | decision table of accepted initialisers for every shape and category; invariant over histories (what each reference refers to); each call equals the direct call |
| C75 | `for_each_raw_tag`, `for_each_tag`, filters | refinement to a cutting function on all texts; the verdict lemmas of C15/C16 are stated for any decoded list of tags |
| C76, C77 | `assertion_failed`, `terminate_with` and every function that calls them (`Failure`), as functions of the handler and the state with the texts printed | decision logic: accepted exactly under the documented condition, otherwise the predicate `Refused`; C77 by an invariant (`Unharmed`) of each function and induction over sequences of calls |
| C78 | the functions of `Expression`, `CHECK_THROWS_MATCHES` and `append_or_truncate` again (`User`), with the user's functions they call (each may be `noexcept`, return or throw) and the `noexcept` of every library function in between | refinement: each check equals a plan of calls (`play`), from which order, number and fate of exceptions follow; agreement with `Expression` when nothing throws |
| C79 | the console reporter with colours (`Console`) | a reader of coloured texts (`parts`) applied to the report equals, for the colours with a meaning, what each event should say; lifted to runs through the events told about a log |
| C80 | events with all their fields (`Events`), on top of the models of tests and of the registry | refinement: each event of a run is what a specification of the test's story says (`OneTest`), and erasing the additional fields gives the run of the registry's model; the three reporters are then applied to these events |
| C81 | the test runner (`TestCase`), the section counters | a second reading of the story of C19 (`lefts`: what happened since the last entry of each section), carried through the refinement; for bodies whose sections are executed once it is shown to be everything in the section (`allOf`) |
| C82 | the test runner (`TestCase`), the section events | invariant over the passes: between two executions exactly the sections with leaves left stay open (`still`), so the path of everything told is a prefix of the open sections; equal if there are none left |
| C83 | the whole program with the XML reporter (`Events`, `Reporter`) | a walk through the elements of a document (spec) finds what the events tell (`tells_walk`), and the events tell what happens (C80); the brackets of sections executed once are nested (`once_nested`), and the sections around an element are those of its place (C82) |
| C84 | the whole program with the console reporter (`Events`, `Console`) | the events of a test are a start, what happens, and an end (`parts_of_test`), failures have the flags that follow from the tags and from what happens (`flags_exact`); so lines are a function of what happens (`lines_of_heard`), combined with C57 and C58 |
| C85 | the whole program with the TeamCity reporter (`Events`, `Reporter`) | the same with messages (`message_of_heard`) and C42 |
| C86 | test functions whose executions differ (`Body`, `runLoop`) | the encoding of progress depends on the section tree only (`same_enc`); witnesses: an invariant of the loop, a run |
| C87, C88 | a test program as a whole (`Whole`) | the parts: command line (C31, C61), settings (C70), events (C80), reporters (C83–C85) and file (C39) compose; reporters only ever append to what they printed (`Growth`), so pieces add up to the report |
| C80, C83, C87 | from events to declarations (`Telling`) | what the declarations of a program admit as events is an inductive set (`MayTell`), and the number of events is bounded by the bodies; every event of every run is in it (`C80_only`), so that conditions on texts, nesting and lengths can be asked of the program once, not of each run |
| C89 | the same, and the README | the parser names arguments by a table (`Named`), so its result is a function of the items of the command line |
| C90 | the model of a run with a clock (`Timing`), which gives the n-th reading | erasing the times gives the run without clock; an invariant of all steps says that every time kept is a reading since the start of the test and that starts and open sections correspond; rounding of floats by its properties (`Rounds`), which rounding to 24 digits is shown to have |
| C91 | programs run as in C67 and C29; a run comes to an exit status and the items told (`Ends`) | repeating: induction over the loop, which reads only the test of a registered case; the rest from C67 (selection, status and items as functions of the tests) and C17 (a filter and its negation select complementary tests). Hidden tests: a witness that the parts can run more than the whole |
| C92 | the whole program of C87 with texts of any length | each reporter returns for every event whose numbers are of type `std::size_t` (by cases over the events; appending cuts texts and never fails), those told by a run are (C80); the status as in C67. Two programs are compared through names, tags and verdicts |
| C93 | as C87, but with conditions on what is written in the program (`Meets`, `Countable`) instead of on the events | `MayTell` of C80 bounds every text and number in an event by the declarations; by cases over it, an event meets the conditions of each reporter; numbers of failures by `C80_only` |
| C94 | as C93 with a clock: `Measured` says that the durations of the program are those that `Timing` measures, written as `Rendered` demands | C90 for the times, C53 and the rounding to `float` for the error of the text; the characters of such a text meet the conditions of every reporter; `C94_measured` shows that there are such durations for every program and clock |
| C95 | arguments built from criteria: `Says` tells how a criterion for a name or tag (equal, begins, ends, contains; negated or not) is written, `Asked` which tests are meant | unescaped commas and closing brackets are found where the words were joined; a quoted text is read as its characters only, so the pattern matches exactly the texts meant; `C95_names` needs no hypothesis on tags, `C95_criteria` goes through C16, `C95_set` and `C95_rerun` through C67. A test with an empty name cannot be registered (C46), and tests with the same full name and tags cannot be told apart (`C95_same_name`) |
| C96 | `unTry` removes the try blocks whose contents are `quiet` (no statement in them can throw, skip or abort); the run and the program with and without them are compared, then C19 and C67 apply | quiet code ends normally (induction over the code); equal executions give equal loops, runs, lists and programs; the loss of sections is computed for any contents of the block behind the throwing section |
| C97 | `Adds p q` (checks of `passes` added anywhere), `essence` (what of an event must stay) | simulation: states are alike if they differ only in held information, flags for places, numbers of assertions and the events left out; every step keeps them alike, and a passing check leads to a state alike; then loops, runs, lists and programs |
| C98 | `alone t n` (the separate test for leaf section `n`), `deeds` (statements and failures told by a log), `interrupted`, `NoSkip`, `OwnThrows` | the execution for leaf `n` of the test equals the only execution of the separate test, up to the marks for first and last entry of sections; without skips the story is the concatenation of executions up to the first that throws; an exception of the framework comes with a failure |
| C99 | `Notes p q` (`INFO` and `CAPTURE` added anywhere), `unnoted` (`essence` without captures) | the simulation of C97 with another relation: captures may differ, the number of assertions may not; the run of the annotated test gives the run of the old one, since taking captures away cannot exceed a limit |
| C100 | `Stricter p q` (`CHECK...` replaced by `REQUIRE...` anywhere), `Forked` (the same up to a failure told in both) | two executions, step by step: either still alike (C97 and C99 together), or apart with the same final verdict, since no sequence of reports changes a verdict of failed, allowed failure or skipped |
| C101 | `gather ps` (one section per test), `Part.place`, `Part.deed` (the section put in front of places), `stopped` | at another place the code does the same, with the place changed everywhere; without skips the story is the chain of executions up to the first that throws; the executions of the gathered test are those of the tests, one test after the other |
| C102 | `Reordered p q` (neighbouring sections swapped anywhere, any number of times) | the separate tests of C98 are the same list up to order; so the verdict is the same by C98, and without exceptions the deeds are a permutation |
| C103 | `before`/`within` (set-up code before the sections or in each of them), `said` (a log without section events and places) | the code says the same at every place with the same captures; so each execution of the two tests says the same, and what a whole test says and its verdict depend only on what its executions say |
| C104 | `Extended` (a test with further sections, each next to another one) | the code for each leaf section of the smaller test is also that for a leaf section of the larger one (`paths`, as for C102), so what happens in the smaller one, taken as separate tests, is part of what happens in the larger one |
| C38, C39 | heap/handle histories | invariant by induction over operation sequences |
| C40–C42, C54, C55 | XML and TeamCity reporters | stack discipline by induction over events; decode∘escape = id |
| C43, C44 | decimal rounding and formatting | arithmetic on `Nat`, round trip |
| C57, C58 | console reporter | printed text as coloured and plain pieces; equal to the specified lines; reader of lines; stripping codes |
| C45 | exception macros | decision table |
| C47 | current-test pointer with nested runs | induction on nesting |
| C50 | path splitting | list lemma |
| C52, C53 | fixed-point arithmetic | interval invariants / error bounds |

## Trusted base

* Lean's kernel. `#print axioms` of every theorem in MANIFEST.json lists at most `propext`, `Classical.choice`
  and `Quot.sound`; no other axiom, no `sorry`, no `native_decide`/`bv_decide`.
* The specifications in `Verif/Spec` and the statements in `Verif/Props` (to be read; they do not refer to helper
  functions of the model other than the entry points whose behaviour they state).
* The faithfulness of `Verif/Model` to the C++ text, by inspection: each definition cites its source lines and
  says where it simplifies.
* The C++ compiler, standard library and platform are taken to do what the standard says; `std::size_t` and
  `std::uint64_t` have 64 bits, `int` 32 bits, `char` one byte.

### What is modelled

| model file | source |
|---|---|
| Vector | snitch_vector.hpp, snitch_string.hpp: spans and owning containers, sizes with wrap-around |
| Append | snitch_append.hpp / .cpp: text, integers (all widths), pointers, booleans, variadic; run-time and constexpr variants |
| Float, FloatBits | snitch_fixed_point.hpp (`to_bits` with and without `std::bit_cast`), float printing in snitch_append.hpp |
| StringUtil | snitch_string_utility.hpp / .cpp |
| Filter | snitch_registry.cpp: tags and filters; is_match, is_filter_match_* |
| TestCase | snitch_section.cpp, snitch_capture.cpp, snitch_test_data.hpp/.cpp, macros_check*, macros_exceptions, macros_misc, registry: run of one test, reporting of assertions |
| Capture | CAPTURE name splitting |
| Registry | snitch_registry.cpp: registration, run of all tests, listing, totals |
| Current | nested runs, current test |
| Cli | snitch_cli.cpp, configure, parse_reporter, parse_colour |
| Print | snitch_console.hpp colour codes, registry print |
| Expression | snitch_expression.hpp, snitch_matcher.hpp / .cpp |
| Decompose | snitch_macros_check_base.hpp, snitch_macros_check.hpp, operators in snitch_expression.hpp (grammar of C++ operators in Spec/Cpp) |
| Constexpr | snitch_macros_constexpr.hpp, snitch_macros_consteval.hpp |
| Help | src/snitch_cli.cpp 121-311 (what is printed), 392-417; snitch_cli.hpp 36-42 |
| Reporters | src/snitch_registry.cpp 302-349, 901-912, 954-989; snitch_registry.hpp 94-161, 204-219 |
| Output | src/snitch_registry.cpp 901-912, 1058-1066; snitch_registry.hpp 125, 159; snitch_function.hpp 184-216 (for `print_callback`) |
| Threads | src/snitch_test_data.cpp 10-29; snitch_config.hpp.config 112-116 (the variable only) |
| TypeName | snitch_type_name.hpp 8-37 (the texts written by compilers are assumed) |
| Configure | configure, parse_reporter, parse_color_option, parse_colour_mode_option with everything printed and what reporters do to the settings; initialize/configure of the console, XML and TeamCity reporters |
| Value | the overload set of snitch_append.hpp 281-374, the concepts of snitch_concepts.hpp, `append_value` of snitch_expression.hpp; the C++ rules for choosing an overload are part of the model |
| Macros | snitch_macros_test_case.hpp, registry add*, what the check, capture and section macros are with SNITCH_ENABLE=0, snitch_main.cpp |
| NoExceptions | what `#if SNITCH_WITH_EXCEPTIONS` leaves when it is 0: macros_check_base, snitch_section.cpp, snitch_capture.cpp, snitch_test_data.cpp, registry: report_assertion, run, run_selected_tests |
| Function | include/snitch/snitch_function.hpp 25-217 (`function_traits`, the concepts, `function_ref`); overload resolution is the language's (C++20 [over.ics.rank], [temp.deduct.partial]), written down for these constructors; the types of arguments and results are one type each |
| Failure | src/snitch_error_handling.cpp 8-25 and the functions that refuse, with their messages: include/snitch/snitch_vector.hpp 35-150, include/snitch/snitch_any.hpp 82-93, src/snitch_file.cpp 9-28, src/snitch_registry.cpp 14-86, 302-334, 351-377, 1073-1100, src/snitch_section.cpp 69, 72-95, src/snitch_capture.cpp 84-103, src/snitch_test_data.cpp 14-21; the other models say `Outcome.abort` at these places |
| User | include/snitch/snitch_macros_check.hpp 15-30, 71-84, include/snitch/snitch_expression.hpp 18-55, 151-186, 252-266, include/snitch/snitch_matcher.hpp 29-40, 112-120, include/snitch/snitch_macros_exceptions.hpp 56-71, include/snitch/snitch_capture.hpp 26-47, include/snitch/snitch_string_utility.hpp 29-37, include/snitch/snitch_append.hpp 378-382: the calls of user code and their exceptions; an overload of `append` is taken to append one text, matcher descriptions to be strings |
| Events | include/snitch/snitch_test_data.hpp 16-290, src/snitch_registry.cpp 100-113, 446-584, 585-588, 675-699, 706-898, 1102-1111, src/snitch_main.cpp 7-20: which value is given to which field of which event; names of sections, places and fixtures, the texts of assertions and durations are functions from the numbers used in the other models (`Source`) |
| Whole | src/snitch_main.cpp 7-27, src/snitch_registry.cpp 805-912, 1031-1121, include/snitch/snitch_registry.hpp 110-164: the other models put together, from the arguments to the exit status, the standard output and the file; only the reporters of the framework |
| Timing | the readings of the clock in snitch_section.cpp, snitch_registry.cpp; snitch_time.cpp; `make_duration` of snitch_reporter_teamcity.cpp |
| Any, File | snitch_any.hpp, snitch_file.cpp |
| Reporter, Xml, TeamCity, Console | reporter events and text, snitch_reporter_catch2_xml.cpp, snitch_reporter_teamcity.cpp, snitch_reporter_console.cpp |

### What is not modelled

* Time: the clock is any function (in `Timing`; elsewhere durations are arbitrary). How a duration is printed is that of any
  `float` (C52, C53); the link between the rational number of `seconds` and the bits of the `float` is the rounding
  function, which is a parameter with the properties `Rounds` in C90, and rounding to nearest, ties to even (`toSingle`), in C94.
* `std::to_chars` for floats at run time (the compile-time path is modelled). C94 asks of the text of a duration only what is
  proved for the compile-time path (`C94_text`), which the C++ standard also grants for `std::to_chars`.
* Preprocessor macros as such: test bodies are programs in a small language whose statements are what the macros
  expand to.
* Sections in operands of checks: `SECTION` is a statement, so this needs a lambda or function; the model runs them
  but C19–C22 and C66 are for operands without sections (`Tidy`).
* Sections in destructors: likewise run by the model, outside of `Tidy`.
* Threads: except for the variable that holds the current test (Threads), a single thread is modelled. Using the same
  registry from several threads is not.
* The operating system: files and standard output are byte sequences; opening may fail, writing may not.

## Known deviations of the code from the stated properties

Each has a proved counterexample (named) or is recorded in the model as `abort`/`ub`.

* C01: `grow` near `2^64` wraps (`C01_grow_wraps`).
* C09: `replace_all` with an empty pattern does not end; a longer replacement that does not fit leaves the
  remaining occurrences.
* C12: an empty pattern matches everything, an ill-formed one (ending in a lone backslash) nothing.
* C24: names in `CAPTURE` are split at commas inside braces and angle brackets (`C24_braces_split`).
* C31: more than `SNITCH_MAX_COMMAND_LINE_ARGS` arguments abort; a repeated option is refused without its value.
* C33: of several reporter options the first is lost and the last repeated (`C33_two_options`).
* C35: the reset code is cut if it does not fit (`C35_reset_cut`).
* C36: the inverse operator shown for unordered values (NaN) is untruthful (`C36_unordered`).
* C39: a path of exactly one character more than allowed has no terminator (`C39_path_unterminated`).
* C41, C42, C54: escaping stops at the first entity that does not fit (`C41_not_when_cut`, `C42_not_when_cut`,
  `C54_not_when_cut`); XML skip messages are not escaped (`C54_not_skip_message`); TeamCity section names are not
  escaped (`C42_not_section_names`). The XML total of successful cases counts skipped ones.
* C43: precision 0 does not end (`C43_zero_precision`), the five largest numbers with 19 digits wrap
  (`C43_not_at_limit`).
* C44: five-digit exponents do not fit the buffer (`C44_limit`).
* C46: an empty test name aborts.
* C48: an exception handled inside a section without notifying snitch ends the section twice
  (`C48_needs_notification`).
* C49: `[.x]` tags dangle when tags are listed (`C49_shorthand_undefined`), exactly if `[x]` is not a tag seen before
  (`C49_shorthand_partial`).
* C51: the two colour options have another precedence while parsing (`C51_precedence_differs`).
* C53: the last printed digit is not always the nearest (`C53_not_nearest`), ties do not go to even (`C53_tie`).
* C56: without `std::bit_cast` the sign of negative zero is lost (`C56_not_negative_zero`).
* C57: line breaks in messages are printed as they are and can imitate a failure (`C57_not_with_line_breaks`).
* C58: a text that fits without the reset code leaves its colour on (`C58_not_when_cut`).
* C59: `invalid_expression` has no comma operator (`C59_comma_refused`).
* C62: a reporter that is a type serves one run: a second `run_tests` without `configure` ends the program
  (`C62_not_twice`). Names that are empty, begin with `:`, or are taken can be registered, but never selected
  (`C62_selected`).
* C63: after a run with `--out`, `print_callback` refers to a destroyed `file_writer`; printing again, as a second
  `run_tests` without `configure` does, is undefined (`C63_not_after_run`).
* C64: without `SNITCH_WITH_MULTITHREADING`, threads record checks in each other's tests (`C64_not_shared`).
* C65: with clang, names of array types are cut at the first `]`; `int[2][3]` and `int[2][4]` have the same name
  (`C65_not_arrays`).
* C66, C22: a `REQUIRE` that fails inside the operand of `CHECK_NOTHROW` or `CHECK_THROWS_*` does not stop the test: the
  macro takes the exception for one of the code under test (`C66_require_does_not_stop`). After an inner check the outer
  one is reported as "somewhere inside" its check, as the inner one resets `in_check`. Operands count towards
  `max_nested_sections`, and more of them terminate the program (`C66_depth`).
* C68: a check in a destructor that is run by an exception is reported with the sections, captures and location of the
  exception, as "exact" (`C68_misplaced`, `C68_misplaced_check`), if the exception has passed a section, capture or check.
  Otherwise it is reported properly, but the exception is then reported as thrown inside that check (`C68_blamed`,
  `C68_blamed_check`). `CHECK_THROWS_AS` and the like in such a destructor make the framework forget where the exception
  was thrown and end its sections before its failure is reported (`C68_forgotten`).
* Options of the console reporter override `--color`, `--colour-mode` and the rule that a file gets no colours
  (`C70_console_decides`); the help does not mention it. With several options the first is lost (C33), so
  `console::color=never::x` leaves the colours on and complains twice about `x`.
* The README says `char*` is shown as text and all fundamental types can be shown. `const char*` is, `char*` is shown as
  an address (`C71_char_pointer`, `C71_not_documented`); `long double` is not shown (`C71_real`); integers of more than
  64 bits are cut to 64 (`C71_wide`). Also: a character array is shown to its last but one character, with anything that
  follows the end of the text (`C71_buffer`); characters are shown as numbers; pointers to data members and functions
  are shown as `true`; a class converting to `const char*` is shown as an address and one converting to `int` not at all
  (`C71_class`).
* C72, found by reading and not a theorem (the model has no syntax errors): `TEMPLATE_TEST_CASE_METHOD` and
  `TEMPLATE_LIST_TEST_CASE_METHOD` contain `[]() < typename TestType > { ... }` (snitch_macros_test_case.hpp 71, 89), which
  is not C++, so these documented macros cannot be used; with SNITCH_ENABLE=0 `TEMPLATE_LIST_TEST_CASE` and both of these
  become `static_cast<void>(0)` followed by the body (lines 102, 119, 121), which is not C++ at namespace scope.
* Without exceptions every assertion is reported with an exact location (src/snitch_registry.cpp 475-479), also a check
  whose operand used macros, which the normal build reports as "in check" (`exactly` in `C73_test`); and each test that
  is not skipped counts one assertion fewer than in the normal build (`C73_returned`). A program ended by
  `std::terminate()` leaves what the reporter has been told; whether the C library still writes buffered output is not
  modelled.
* Tag texts that are not a sequence of tags in brackets are mostly accepted without a message (C75): `[a] [b]`, with a space
  between, is one tag that the filter `[a]` does not match, and `a[x]b` is the tag `a[x]b`. Only a text without any `[` or
  without any `]` is refused (src/snitch_registry.cpp 22-27), when it is first looked at in a run.
* With an assertion handler that throws, some refused calls leave traces (C77): a test whose full name is too long (or
  empty) is in the list of tests already when its name is looked at (src/snitch_registry.cpp 363-375), and stays there;
  `CAPTURE(a, b)` with room for one value leaves the first one in the list for ever, because the object that removes them
  is made after all have been added (include/snitch/snitch_capture.hpp 35-40); a `SECTION` that is nested too deep
  decreases the depth, which its destructor does in any case (src/snitch_section.cpp 69), so that after the sections
  around it have been left the depth is 2^64 - 1 and all sections that follow are refused.
* The messages about limits (C76): four of them end with a dot after the end of the line (`")\n."`: test names, reporter
  names, sections, captures); a test without a name is told that its name is too long; and the limits on nested checks,
  command line arguments, tag lengths and file paths end the program with a reason that does not name the build option.
* `append_value`, `append`, `append_or_truncate`, `match` and the library's `operator==` for matchers are
  `noexcept`, so an exception of a user's `append` overload in a failing check or a capture, or of a user's
  matcher in `CHECK(value == matcher)` or `CHECK_THAT`, ends the program; in `CHECK_THROWS_MATCHES` the same
  matcher's exception is reported (C78_text_ends_program, C78_matcher_ends_program,
  C78_capture_ends_program).
* `list_test_run_started` and `list_test_run_ended` have fields for the name of the program and the filters, but are
  created empty; `test_case_ended` has the flags `failure_expected` and `failure_allowed`, which are never set
  (C80_list_partial, C80_flags_never_set, C80_not_everything_told).
* The end of a section tells only what was counted since its last entry, as each entry starts a new counter: a section with
  two sub-sections, the first of them failing, ends with "no failure" (witness `C81_counts_lost`; the XML report shows the
  numbers as `OverallResults` of the section).
* Between the executions of a section with several leaves its start has been told and its end has not. What happens outside
  of it in a later execution is told between the two (witness `C82_told_in_other_section`; the XML report puts a failure
  outside of all sections inside of `<Section>`: witness `C83_told_in_other_section`).
* Sections are identified by their position among the sections reached. A section reached in the first execution only makes
  the test run forever, without doing anything (witness `C86_vanishing_section_never_ends`); of two sections that change
  places one is executed twice and the other never (`C86_swapped_sections`).
* `--list-tags`, `--list-reporters` and `--help` print on the standard output even with `--out`; the file is created (or
  emptied) and stays empty (witness `C88_not_in_file`). Tags are kept with their brackets and printed with another pair,
  `[[tag]]` (witness `C88_brackets_doubled`).
* Warnings about the command line are on the standard output, before the report: an XML report is then no well-formed
  document (witness `C87_warning_before_document`). With `--out` the file is one (`C87_xml`).
* The README has `--output`, the program only `--out`: `--output path` runs no test and succeeds, as the path is taken as the
  name of a test (witness `C89_output_unknown`).
* The duration of a section counts only from its last entry: a section that is executed once for each of its inner sections can be
  told to take less time than one of them (witness `C90_child_longer`).
* The TeamCity reporter gives durations in microseconds, the protocol has milliseconds (witness
  `C90_teamcity_not_milliseconds`).
* Sections behind a throwing section of the same try block are lost if the test handles the exception: the level ends with
  `previous_section_id == max_section_id`, so the loop of `registry::run` stops, and the test passes (`C96_lost`). If a
  section follows after the block, there is a further execution which does reach them (`C96_lost_unless_followed`). The
  README (561) says that an exception inside a section stops the test case and that no other section is executed; it does
  not speak of exceptions that the test handles itself.
* A check inside the operand of another check needs one more location than the list of locations allows for
  (`max_nested_sections + 2`) when the sections are nested as deeply as allowed: adding a check that passes aborts the
  program (`C97_limit`). It also changes the place shown with the outer check from exact to somewhere inside (`C97_place`).
* A skip in one section hides failures in the sections executed after it, and the verdict is skipped (`C98_skip`). A test that itself throws
  `snitch::impl::abort_exception` ends as a success and its other sections are not executed (`C98_own_exception`). With
  `[!shouldfail]` one failing section is enough (`C98_should_fail`).
* An added `CAPTURE` may exceed the limit on captures, which aborts the program (`C99_limit`). In a handler that throws the exception
  again it changes the place shown with the unexpected exception (`C99_place`).
* `REQUIRE` in a destructor ends the program when it fails, as its exception leaves a `noexcept` function (`C100_destructor`).
* A section put around a test that nests sections as deeply as allowed ends the program (`C101_limit`), and a test that is skipped hides, as
  a section, the failures of the tests gathered after it (`C101_skip`, as `C98_skip`).
* With a skip in one section and a failure in another one the order of the sections decides the verdict (`C102_skip`).
* A failure in code before the sections is shown without any section, also if it happens only on the way to one of them
  (`C103_place`).
* A new section that skips hides the failures in the sections after it (`C104_skip`, as `C98_skip`). The first section in a code without
  sections is not one execution more, and a failing `REQUIRE` in it keeps the code after it from being executed (`C104_first`).
* Section events are unbalanced for `try` around sections with notification, `SKIP_CHECK` in a section with
  siblings, and a failing `REQUIRE` after nested sections (witnesses beside C21).

## Wrong programs tried

`seeded/LOG.jsonl` has one line per edit of the model tried in a scratch copy. In the later batches only the modules with the theorems of
the claim named were rebuilt (`modules_rebuilt`), so other theorems may fail as well. A theorem is listed as failed if its proof no longer
goes through, which includes proofs that break in a lemma they use. No line names C01, C11, C12, C17, C54, C91, C92, C93, C94, C103 or
C104 as the claim broken: these have not been tried on their own.
