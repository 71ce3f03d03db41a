# Formal model of legend855/chrono-cpp in Lean 4

## 1. Approach

The whole program (`time.cpp`, `src/**`) is modelled function by function as total, executable
Lean functions under `lean/Verif/`. Theorems are about that model.

| layer | Lean module | models |
|---|---|---|
| outcomes | `Verif/Base/Out.lean` | normal value / C++ exception / undefined behaviour / unspecified library behaviour |
| bytes | `Verif/Base/Text.lean` | `std::string` as a list of byte codes, `tolower`, `find`, `substr`, `stoi`, `stof` |
| regex | `Verif/Regex/*.lean` | libstdc++ `std::regex` (ECMAScript): scanner+compiler from the *verbatim pattern string*, and the backtracking (DFS) executor |
| calendar | `Verif/Boost/*.lean` | the part of Boost.Date_Time that the code calls |
| data | `Verif/Model/Components.lean`, `Result.lean` | `src/result.{hpp,cpp}` |
| parsers | `Verif/Model/Parser.lean`, `Verif/Model/Parsers/*.lean` | `src/parsers/**` |
| refiners | `Verif/Model/Refiners/*.lean` | `src/refiners/**` |
| main | `Verif/Model/Main.lean` | `time.cpp` |
| specs | `Verif/Spec/*.lean` | independent specifications used in the statements |
| properties | `Verif/Props/*.lean` | the theorems, one block per property, with non-vacuity examples |

Undefined behaviour is a distinct outcome. The three places where the code reads an object with
an indeterminate value / a dangling reference / an invalidated iterator are routed through a
record `Rt` ("what the machine does there"): `Rt.strict` returns the `ub` outcome, and theorems about
ordinary behaviour quantify over every `Rt` (or over those for which the stale iterator distance is the
old one, which is said explicitly).

`std::sort` is modelled as *any* index-sorted permutation: theorems about `main` quantify over all of them.

The process-global table `INTEGER_WORDS`, which one parser mutates through `operator[]`, is an explicit
state threaded through all `execute` calls.

## 2. Plan per property

* C01-C04: state machine over set/imply operations; induction over the operation list against a
  history specification ("last set, else last imply, else 0").
* C05-C07: `ParsedResult` copy; tag map as an association list with `operator[]` insertion; induction over
  operation lists.
* C08-C12: `toDate`, `hasPossibleDates`, `isPossibleDate` over the calendar model; decoding function as the
  inverse for C08. Negations by concrete witness.
* C13: Boost's day-number formulas proved inverse to each other and equal to the calendar obtained by iterating
  `nextDay` (leap rule + month lengths); `omega`.
* C14-C16: generic induction over the `execute` loop; `minLen >= 1` analysis of regexes with a soundness theorem,
  evaluated by the kernel on each compiled pattern; lower-casing idempotent.
* C17: the pattern string does not compile (kernel evaluation of the compiler model), so `execute` returns [] on every text.
* C18, C19: regex analysis "every match contains a given byte" with soundness theorem.
* C20: explicit global state; frame theorem per parser and a witness.
* C21-C41: extract functions over symbolic reference times; regex search on the phrase evaluated
  either by the kernel (fixed phrases) or by symbolic execution lemmas (phrases with an arbitrary number).
* C42-C46: induction over the list for the loop in `OverlapRemover::refine`.
* C47-C52: case analysis / induction over the refiner loops.
* C53-C58: composition of the above through `main`.
* C59: every extract function sets tags only through `setTag` of its own tag; case analysis per parser.
* C60: overlap removal keeps the strictly longest span (C43) and the later refiners leave a single result alone.
* C61-C64: C60 plus, per phrase family, (a) the one parser's result on the phrase and (b) that every other parser's
  matches are shorter or absent. (b) is decided by the kernel on a *template* of the phrase (digits replaced by a
  class), with a soundness theorem (`Lemmas/Template.lean`, `Lemmas/Sim.lean`, `Lemmas/Shift.lean`), or by a relation on texts under
  which all parsers behave alike (any digit for any digit).
* C65: a run of digits of any length is followed through the pattern by induction (`checkRunTo`), then the arithmetic lemmas of C40.
* C66, C67: the groups of the month-and-day pattern on the phrase (digits replaced by any digits), the nearest-year lemma of C30, and C60 for
  printing; on every text by the language of each group of the pattern.
* C68, C69: unfolding of the merge functions, with the reading of components as instants (C03, C06).
* C70: as C33 and C61 (patterns evaluated by the kernel on representatives, any digit for any digit).
* C71: as C36.
* C72-C75: `main` with its argument list; tokeniser and number lemmas for the reference date (`Boost/TimeString.lean`), C03 for reading it as
  a date.
* C76, C77: all successive matches of each pattern on a template of the text (`Lemmas/Seq.lean`), overlap removal with two
  mentions, then the merge refiners (C48, C69).
* C78: each parser returns only mentions that can be printed (by the language of each group of its pattern, `Lemmas/Branches.lean` for which
  branch of the pattern a group lies in), and refiners and printing never fail on such mentions; witnesses for each exclusion.
* C57 (what lives): as C78, with the texts of the groups of the date and time patterns tracked by a capture-aware language analysis
  (`Lemmas/CapLang.lean`), so that every number a parser reads is one written in the text next to a month or a colon (`Spec/Ordinary.lean`).
* C79: the meaning of 107 abbreviations is written down apart from the program (`Spec/ZoneNames.lean`); the kernel compares it with the
  modelled table entry by entry, C47 carries it to every text.
* C80: a template of all the texts "h:mm ZONE" shows that only the clock time parser speaks; the single mention reaches the refiners alone, C47
  and C79 give its offset, printing adds it (as C10); the UTC reading is refuted with a witness.
* C81: a checker follows every way through a pattern and keeps what is known about the bytes just read and about word edges (Lemmas/Keys.lean); if every
  way meets a key word, the pattern finds nothing in a text without these words. The middle-endian pattern is taken apart by hand. Each condition has a
  text that violates it alone and gets a date.
* C82: the eleven other patterns find nothing (as in C81, with the one word excepted); the casual pattern, which stands between word boundaries, finds its
  word where it stands (patterns without anchors match anywhere, Lemmas/Sentence.lean) and what it finds is a whole word of the text, hence that one; after
  it nothing is found; the extracted components depend on the word only, and one mention without zone reaches the output unchanged (P60).
* C83: the ISO pattern matches the date where it stands and cannot match elsewhere (its groups are taken apart, P61). The clock-time pattern may match inside
  the date: a template of all these texts (runs of non-digits around the ten bytes, Lemmas/Template.lean) shows that it can stop only before a dash of
  the date, so that what it finds is shorter and overlaps; the overlap refiner keeps the date (C42, C43). The others are silent as in C81.
* C84: the three patterns are taken apart into words separated by blanks (Lemmas/Tokens.lean): a match that begins before the phrase ends before it or has the
  first word of the phrase among its own, and a match that begins at the phrase reads the same words. What the parser then computes depends on those words only,
  not on the place (P62 deadlines, P63 weeks, P64 holidays). The other patterns are silent as in C81.
* C85: the backtracking of the clock-time pattern is followed step by step with `First r s s'` ("the search engine leaves `r` in state `s'` before any other"; Lemmas/First.lean):
  the first start with a match is the blank (or the word `at`/`from` before it) in front of the first digit, and its first match takes the whole time. The other patterns are
  silent: the middle-endian and ISO patterns by what stands before a digit, the rest as in C81.
* C86: the specification is `Spec/Numbers.lean` (`NoNumberIsATime`, three conditions on the numbers of a text). Every match of the clock-time pattern, at whatever place of the text the
  search has come to, is shown to consist of exactly one number of the text (`clock_match`, with the invariant `Cut` that the search never resumes inside a word), from which no hour can be
  read, so that the mention has no date; an ISO match has a number > 24 in place of the month; the other patterns cannot match. Induction over the scan (`Scan`).
* C87: every match of the month-name pattern in a text without digits is one of the month spellings, standing as a word (`month_match`), so in a text with one month it is that one
  (`month_place`), and some match exists unless the month follows a single blank at the start (`month_found`); its year is C28's nearest year. For `May.` the priority of the alternatives
  (`First`) decides that the full stop belongs to the name, which the month table does not know: month 0, an exception (`c87_may_with_a_full_stop_kills`).
* C88: every match of the middle-endian pattern in a text with one number of one or two digits reads the month, blank, day and mark that stand there, wherever it starts (`me_match`: the month
  before the digits is the only one that fits, the optional year and range need digits or `to`), and there is one (`me_found`). The month-name pattern refuses a month before a number
  (`md_month`), the ISO pattern needs four digits, and a clock time read from a bare day starts after the month (`clock_start`), so it is shorter and lies inside the longer mention (C43).
* C89: every match of the month-name pattern is a month alone or a month with four digits and an era (`month_cases`); in a text with one number of four digits after a month and a blank only the second is possible, and reads that month and year (`my_match`); the middle-endian pattern wants at most two digits (`my_middle`); the clock time that the code reads in the same four digits overlaps the month and is shorter (`clock_start`, `lead_length`), so the overlap refiner drops it.
* C90: every match of the middle-endian pattern in a text with one number reads that number and goes on with blanks and then a word, `to` or a hyphen (`me_front`), so a text where neither follows has no match (`da_middle`); the month-name pattern does not match before a number (`da_month`), and the clock pattern either rejects the number (`clock_rejects`, for endings glued to it and for numbers that are no hour) or reads it (`clock_prints_in`).
* C91: two mentions, one of the clock parser (`clock_mention`, from C85) and one of the casual-date parser (`day_mention`, from C82), every other parser silent (`others_silent`); the mention of the time begins at the blank before it or before its `at` (`clock_lead`), so it lies behind the day and the blanks the day swallowed (`lead_after`); then the refiners as for two mentions (`run_two`, `prints_date_time`). `Spec/Days.lean` says which day a word names.
* C92, C93: the same with the mention of a part of the day (`part_mention`, from C83), which passes for a date and for a time: the merging of date and time takes its date when a clock time stands with it and its time when a day stands with it (`prints_either`), whichever comes first; it begins behind the other mention unless just blanks stand between them (`part_lead`, `part_after`, `lead_after`). `partHours` in `Spec/Days.lean` lists the hours.
* C94: the casual-date pattern finds the first name of a day where it stands (`casualDate_first`), again in the rest of the text, and then nothing (`casualDate_none`); so the parser returns two mentions (`execute_two`), the others are silent, and the text between the mentions is the text between the words without the blanks the first mention swallowed, so it holds a range word iff that text does (`two_days`); then `prints_joined` and `prints_separate` (C76). `MomentNamed` in `Spec/Days.lean` says what each word stands for.
* C95: the mentions are those the twelve parsers return (`Mention`, `run_mentions`); the overlap refiner keeps the first (`overlap_first`, from C42 and C43) and nothing before it, and for every mention removed one that reaches beyond it (`overlap_reaches`), so a kept mention in between is a neighbour (`not_parted`); the other three refiners leave the head of the list alone and otherwise only throw (`tzOne_keeps`, `mdt_keeps_first`, `mdr_keeps_first`). Instance with six mentions in P77.
* C96: the same for the first two (`overlap_first_two`), which the date-range refiner joins (`mdrStep_joined`). Instance with five mentions in P77.
* C97: the same for the first two, which the date-time refiner merges (`mdtStep_date_time`); what follows does not touch the merged mention. Instance with four mentions in P77.
* C98: along the matches of the casual-date pattern (`Scan`), each is a name of a day and names a moment (`casualDate_any`, `moment_exists`), so the parser never fails and returns moments only, by induction (`days_scan`); the first two matches are where the first two words stand (`days_next`); all other parsers are silent (`days_mentions`); then C95 and C96.
* C99 (partial: refuted for a range word with only blanks between it and the second month, `c99_march_to_june_refuted`, `c99_a_range_word_right_before_the_month_is_lost`): each match of the month-name pattern is a character or nothing (`lead_at`), a month and blanks (`month_at`), and the first month is found first (`month_first`, `MonthMatch.begins`); then as C98 (`months_scan`, `months_next`, `months_mentions`). A mention is taken to begin at the character before the month, so what the range refiner sees between two months ends before that character.
* C100: two parsers speak (`days_months_mentions`). The matches of the one whose word comes first are followed as in C98 and C99; those of the other begin behind the first mention with all blanks that belong to it, because its first match of the whole text does (`months_behind`, `days_behind`, from `word_place`: a word found elsewhere stands behind) and a scan never goes back (`months_from`, `days_from`). Then C95. The side conditions are needed (`c100_conditions_are_needed`).
* C101: the same with two words: a second word of the other kind is the first match of the other parser (`no_word_across`), one of the same kind the next match of the same; what is left of either scan begins behind both. Four cases (`day_month_heads`, `month_day_heads`, `day_day_heads`, `month_month_heads`) give one description of the head of the mentions (`HeadsOf`), from which C95 and C96 give what is printed. Which range words count is the predicate `Between`.
* C102: every match of the casual-time parser is a mention that counts as a date without a time and as a time without a date (`IsPart`, `parts_scan`); the first two are found where the words stand (`casualTime_first`), and C97's lemma (`date_time_refined`, widened to a first mention that is both) gives the merged one, with the date of the first and the hour of the second. The merged ones are all dates (`mdt_parts_total`), so the run ends normally (`afterOverlaps_parts`).

Where a property is false of the code, the negation is proved with a witness, the true part is proved in a
theorem with suffix `_partial`, and the property is reported as `partial`.

## 3. Trusted base

**Checker.** Lean 4.33.0's kernel, through `lake build`. No axioms of our own, no compiled-code evaluation. The theorems
depend on at most `propext`, `Classical.choice` and `Quot.sound` (checked with `#print axioms` on every theorem in
MANIFEST.json: 117 use all three, 26 `propext` and `Quot.sound`, 4 `propext` only at the last count). `decide +kernel` is
kernel reduction and adds nothing.

**Reading.** The code is not run here. That the model says what the C++ does rests on reading; every definition cites
its lines. `tools/` contains only generators (property list, manifest, pattern trees); the pattern trees are
re-checked by the kernel against the verbatim pattern strings (`compile_*` theorems in `Model/PatternAst.lean`).

**Modelled, function by function**

* `src/result.{hpp,cpp}`: everything but stream output to stderr.
* `src/utils/utils.{hpp,cpp}`: all tables and functions that some parser or refiner calls.
* `src/parsers/parsers.{hpp,cpp}`: `execute`, with `regex_search` on the remaining text, the `regex_error` handler, the
  use of the stale match, the lower-casing of the caller's string.
* all thirteen `src/parsers/en/*.hpp` (the relative and the weekday parser too, although `main` does not use the former
  and the pattern of the latter never compiles).
* all of `src/refiners/**`.
* `time.cpp`: all of `main`: argument count and usage message, reference date, parser list, sort, refiner list, printing.

**Modelled libraries (trusted as read, not part of /repo)**

* libstdc++ `std::regex`, ECMAScript grammar: scanner, compiler, depth-first executor with its rules for empty loop
  iterations, lookaheads, word boundaries and captures that survive iterations. Stack overflow of the recursive
  executor on very long texts is not modelled.
* `std::stoi`, `std::stof` (correct rounding to a 24-bit significand), `tolower` in the "C" locale, `substr`, `find`.
* `std::sort` is any index-sorted permutation; theorems quantify over all of them.
* Boost.Date_Time: day numbers, `ymd` round trip, range checks 1400..9999 and their exceptions, `day_of_week`,
  `months`/`years` functors with end-of-month snap, `nth_kday_of_month` etc., `ptime` in microseconds, `to_simple_string`,
  `time_from_string` (date fields that are missing, an empty or absent time of day differ between Boost versions: `unspec`).
  Arithmetic that would wrap in Boost's 16/32-bit fields is the outcome `unspec`, never a value.

**Undefined behaviour.** Three reads (an uninitialised `char`, a dangling reference, an iterator into a reassigned string) are
parameters (`Rt`). Theorems say which `Rt` they need: all, those that keep the iterator distance (`Rt.Benign`, true of
libstdc++ where it is a pointer difference), or `Rt.strict` (reports `ub`) for the theorems that locate the undefined reads.

**Not modelled.** Reading the clock (its answer is an argument, any time), the diagnostics on stderr, memory
exhaustion, stack depth, the content of `test/`, Bazel files.

## 4. Where model and English property disagree

The code violates a number of the properties a user relies on. In each such case the property is kept in
`properties.jsonl` with its failure named, a witness theorem `..._refuted` is proved, and the part that holds is proved
as `..._partial`. Status `partial` in MANIFEST.json means this, or that part of the statement is unproved (then the note says so).

## 5. Seeded faults

`seeded/LOG.jsonl` has one line per edited model: definition, edit, claim broken, theorems that failed, theorems tightened.
