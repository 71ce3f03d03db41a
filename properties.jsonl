{"id": "C01", "title": "Last assignment wins, otherwise last implied value, otherwise 0", "statement": "After any sequence of setX(v) and implyComponent(name,v) calls on a default-constructed ParsedComponents, each getX() returns the argument of the last setX call for that component if there was one, otherwise the value of the last implyComponent for it, otherwise 0. In particular implyComponent never overrides a set value and no call changes another component.", "quantifier": "every finite history of set/imply calls, all eight components, all int values", "why_tests_cant": "the set of call histories is infinite; a test fixes a handful of orders", "anchors": ["src/result.cpp: ParsedComponents::setYear..setTimeZoneOffset, implyComponent, getYear..getTimeZoneOffset"]}
{"id": "C02", "title": "isCertain reports exactly the assigned components (all names but \"min\")", "statement": "After any history of setX/implyComponent calls, isCertain(name) for year, month, mday, wday, hour, sec, tzoffset is true iff the matching setX was called at least once.", "quantifier": "every finite history, seven component names", "why_tests_cant": "infinite histories", "anchors": ["src/result.cpp: ParsedComponents::isCertain"]}
{"id": "C03", "title": "isCertain(\"min\") reports whether the minute was assigned", "statement": "After any history, isCertain(\"min\") is true iff setMinute was called. (The code reads the key \"minute\", which no setter writes, so this is false of the code; what is proved is that isCertain(\"min\") is false after every history.)", "quantifier": "every finite history", "why_tests_cant": "infinite histories", "anchors": ["src/result.cpp: ParsedComponents::isCertain (line 278)"]}
{"id": "C04", "title": "Unknown component names are inert", "statement": "For any string that is not one of the eight component names, implyComponent(name,v) changes no getter and no isCertain answer, and isCertain(name) is false.", "quantifier": "all strings, all histories before the call", "why_tests_cant": "infinite domain of names", "anchors": ["src/result.cpp: implyComponent, isCertain"]}
{"id": "C05", "title": "Copying and assigning a ParsedResult preserves everything observable", "statement": "For any ParsedResult r, a copy of r (copy constructor, or operator=) has the same index, text length, tags, start components, end() flag, toDate() outcome, and, when end() is true, the same end components; copying twice is the same as copying once.", "quantifier": "every ParsedResult value", "why_tests_cant": "infinite state space", "anchors": ["src/result.cpp: ParsedResult copy constructor, operator="]}
{"id": "C06", "title": "A tag reads true iff the first tag operation on it was setTag", "statement": "After any sequence of setTag/getTag calls on a fresh result, getTag(m) returns true iff m was set at least once and the first operation in the history that mentions m is setTag(m). getTag has a side effect: reading an absent tag fixes it to false for ever.", "quantifier": "every finite history of setTag/getTag calls over all fifteen tags", "why_tests_cant": "infinite histories", "anchors": ["src/result.cpp: ParsedResult::setTag, getTag"]}
{"id": "C07", "title": "setTag(m) makes getTag(m) true", "statement": "After any history, calling setTag(m) makes the next getTag(m) return true. (False of the code: see C06; proved for histories in which m was not read before being set.)", "quantifier": "every finite history", "why_tests_cant": "infinite histories", "anchors": ["src/result.cpp: setTag, getTag"]}
{"id": "C08", "title": "toDate prints exactly the start date and time", "statement": "For every result whose start components are a civil date in years 1400..9999 and a time of day with hour 0..23, minute and second 0..59, with no end and no extracted time zone, toDate() returns YYYY-Mon-DD HH:MM:SS for exactly those components; hence distinct date-times print differently.", "quantifier": "all valid date-times", "why_tests_cant": "about 2.7e11 date-times", "anchors": ["src/result.cpp: ParsedResult::toDate"]}
{"id": "C09", "title": "toDate throws exactly on non-dates", "statement": "For every result without an end whose start year, month and day are in 0..65535 and hour, minute and second are a time of day (below 24, 60 and 60), toDate() terminates normally iff (year, month, day) is a real calendar date with year in 1400..9999; otherwise it throws (std::out_of_range family).", "quantifier": "all component values in range", "why_tests_cant": "too many triples; tests check a few dates", "anchors": ["src/result.cpp: ParsedResult::toDate"]}
{"id": "C10", "title": "A time-zone tag shifts both ends of a range alike", "statement": "If a result carries the ExtractTimeZoneAbbreviation tag, toDate() prints start and end both shifted by the zone offset. (False of the code: the shifted end is computed and discarded. Proved: the printed start is shifted, the printed end is never shifted.)", "quantifier": "all results with an end date and all offsets", "why_tests_cant": "infinite domain", "anchors": ["src/result.cpp: ParsedResult::toDate lines 420-438"]}
{"id": "C11", "title": "hasPossibleDates is false exactly for the all-zero result", "statement": "hasPossibleDates() is false iff year, month, mday, hour, minute and second getters are all 0 and end() is false.", "quantifier": "every ParsedResult value", "why_tests_cant": "infinite state space", "anchors": ["src/result.cpp: ParsedResult::hasPossibleDates"]}
{"id": "C12", "title": "isPossibleDate accepts a valid date with its weekday", "statement": "For every valid civil date-time whose wday component is its actual weekday, isPossibleDate() returns true. (False of the code: it validates the date 1900 years later and can even throw. Proved: the exact condition under which it returns true, false or throws, and that it returns true for no valid date with its real weekday.)", "quantifier": "all valid date-times", "why_tests_cant": "huge domain", "anchors": ["src/result.cpp: ParsedComponents::isPossibleDate"]}
{"id": "C13", "title": "Day arithmetic used by the parsers is the Gregorian calendar", "statement": "The day-number/calendar conversions the parsers rely on agree with the proleptic Gregorian calendar defined by leap-year rule and month lengths: converting a civil date to a day number and back is the identity, the next civil day has the next day number, and day_of_week advances by one per day with 1970-01-01 a Thursday.", "quantifier": "every civil date in 1400..9999", "why_tests_cant": "3.1 million dates and all offsets", "anchors": ["src/utils/utils.hpp: gregorian namespace alias", "src/parsers/en/ENDeadlineFormatParser.hpp: extract"]}
{"id": "C14", "title": "Every parser terminates on every text", "statement": "For every parser and every input text, execute() performs finitely many match iterations (at most one more than the text length); no pattern can match the empty string.", "quantifier": "all 13 parsers, all byte strings, all reference times", "why_tests_cant": "unbounded texts; non-termination cannot be observed by a test", "anchors": ["src/parsers/parsers.cpp: Parser::execute", "src/parsers/en/*: getPattern"]}
{"id": "C15", "title": "Reported spans lie inside the text, are ordered and do not overlap", "statement": "Every result of execute() has textLength() > 0 and getIndex()+textLength() <= text length; within one execute() call results are in strictly increasing index order and pairwise non-overlapping.", "quantifier": "all 13 parsers, all texts below 2^32 bytes, all reference times", "why_tests_cant": "unbounded texts", "anchors": ["src/parsers/parsers.cpp: Parser::execute"]}
{"id": "C16", "title": "Parsing ignores letter case and lower-cases the caller's string", "statement": "execute(t) gives the same results as execute(t') whenever t and t' differ only in ASCII letter case; after the call the caller's string is the ASCII lower-case of the original, of the same length, and a second call leaves it unchanged. The whole program prints the same line for both.", "quantifier": "all parsers, all texts", "why_tests_cant": "unbounded texts", "anchors": ["src/parsers/parsers.cpp: Parser::execute line 30", "src/utils/utils.cpp: toLowerCase"]}
{"id": "C17", "title": "Weekday phrases such as \"last friday\" are recognised", "statement": "execute() of the weekday parser on a text containing a weekday name yields a result (README: last friday, next tuesday). (False of the code: its pattern has unbalanced parentheses, every call fails to compile the regex; proved: it returns no result for any text.)", "quantifier": "all texts", "why_tests_cant": "a claim about all texts", "anchors": ["src/parsers/en/ENDayOfTheWeekParser.hpp: getPattern", "README.md"]}
{"id": "C18", "title": "\"N units ago\" and \"N units from now\" phrases are recognised", "statement": "The time-ago and time-later parsers recognise \"<number> <unit> ago/later/from now\" (README: 7 years ago, 4 days from now). (False of the code: the raw-string pattern demands a literal backslash after the unit; proved: on every text without a backslash both return no result.)", "quantifier": "all texts", "why_tests_cant": "a claim about all texts", "anchors": ["src/parsers/en/ENTimeAgoFormatParser.hpp: getPattern", "src/parsers/en/ENTimeLaterParser.hpp: getPattern", "README.md"]}
{"id": "C19", "title": "Christmas is recognised", "statement": "The holiday parser recognises christmas (README). (False of the code: pattern demands a literal backslash after the word; proved: no result of the holiday parser on a backslash-free text is 24 or 25 December.)", "quantifier": "all texts, all reference dates", "why_tests_cant": "a claim about all texts", "anchors": ["src/parsers/en/ENUSHolidaysParser.hpp: getPattern", "README.md"]}
{"id": "C20", "title": "Parsing does not depend on earlier calls", "statement": "The result of execute(text, ref) is a function of text and ref only, whatever was parsed before in the same process. (False of the code: the week parser inserts unknown words into a shared table that the deadline and relative parsers consult. Proved: a witness; that the eleven other parsers, the week parser included, are history-independent; and that the deadline and relative parsers are when no inserted word occurs in the text.)", "quantifier": "all histories of execute calls over all parsers", "why_tests_cant": "infinite histories", "anchors": ["src/parsers/en/ENWeekExperessionParser.hpp: extract line 33", "src/utils/utils.hpp: INTEGER_WORDS", "src/parsers/en/ENDeadlineFormatParser.hpp: extract line 38"]}
{"id": "C21", "title": "Casual date words denote the right day", "statement": "For every reference time, today/tonight/now denote the reference date, yesterday the day before, tomorrow/tmr the day after unless the reference hour is 0 (then the reference date), last night the day before when the hour is above 6 and else the reference date; hours are 22 for tonight, the reference time for now, reference hour for yesterday, 0 otherwise.", "quantifier": "all reference times whose neighbours are in 1400..9999", "why_tests_cant": "every date incl. month/year/leap boundaries", "anchors": ["src/parsers/en/ENCasualDateParser.hpp: extract"]}
{"id": "C22", "title": "Casual time words denote the right hour of the reference day", "statement": "For every reference time, morning/noon/afternoon/evening/night (with or without \"this\") give hour 6/12/15/20/20 on the reference date with the reference minute and second 0, none of them marked certain.", "quantifier": "all reference times, all accepted phrases", "why_tests_cant": "all reference times", "anchors": ["src/parsers/en/ENCasualTimeParser.hpp: extract"]}
{"id": "C23", "title": "\"in N days/weeks/months/years\" adds exactly N units", "statement": "For every N (digits, any number of them; or one..twelve, a, an, a few; at most 32767 months, 2730 years) the text \"in N days\" (\"weeks\", \"months\", \"years\") yields exactly one result whose date is the reference date plus N days (7N days; N months / 12N months with day clipped to month length, end of month staying end of month), as long as it is not after 9999; the time is 00:00:00.", "quantifier": "all N, all reference times", "why_tests_cant": "infinite numbers times all dates", "anchors": ["src/parsers/en/ENDeadlineFormatParser.hpp: extract"]}
{"id": "C24", "title": "\"in N hours/minutes/seconds\" is the reference time plus N units", "statement": "For every N the result of \"in N hours\" (minutes, seconds) is the instant N hours after the reference. (False of the code when midnight is crossed: the date stays the reference date. Proved: time of day is always right, and the whole instant is right when midnight is not crossed.)", "quantifier": "all N below 2^24, all reference times", "why_tests_cant": "infinite", "anchors": ["src/parsers/en/ENDeadlineFormatParser.hpp: extract lines 115-136"]}
{"id": "C25", "title": "Abbreviated units are honoured by deadlines", "statement": "\"in N hrs/mins/secs/wks/yrs\" adds N units. (False of the code: the pattern accepts the abbreviations but the arithmetic ignores them; proved: the result is the reference time itself for every N.)", "quantifier": "all N, all reference times", "why_tests_cant": "infinite", "anchors": ["src/parsers/en/ENDeadlineFormatParser.hpp: getPattern, extract"]}
{"id": "C26", "title": "Half units", "statement": "\"in half an hour/a day/a week/a month/a year/a minute/a second\" adds 30 minutes/12 hours (to the minute)/3 days/15 days/6 months/30 s/1 s to the reference (for hour and smaller the date stays the reference date, see C24).", "quantifier": "all reference times", "why_tests_cant": "all reference times", "anchors": ["src/parsers/en/ENDeadlineFormatParser.hpp: extract"]}
{"id": "C27", "title": "ISO dates round-trip", "statement": "For every valid civil date in 0001..9999 written YYYY-MM-DD (and with THH:MM and THH:MM:SS), the ISO parser yields exactly one result with exactly those components, spanning the whole text; the ISO parser never throws on any text.", "quantifier": "all dates and times; all texts for the no-throw part", "why_tests_cant": "3 million dates times 86400 times", "anchors": ["src/parsers/en/ENISOFormatParser.hpp: extract"]}
{"id": "C28", "title": "ISO time-zone offsets are signed minutes", "statement": "A suffix +HH:MM or -HH:MM sets the offset to +(60 HH+MM) or -(60 HH+MM) minutes; Z or none sets 0. (False of the code for -00:MM, which gives +MM. Proved for all others, and for -00:MM what it gives.)", "quantifier": "all HH, MM", "why_tests_cant": "10^4 suffixes times texts", "anchors": ["src/parsers/en/ENISOFormatParser.hpp: extract lines 56-74"]}
{"id": "C29", "title": "An ISO result is always printable", "statement": "Any result the ISO parser returns is a real date, so toDate() does not throw. (False of the code: 2019-02-30 and years before 1400 are accepted. Proved: month is 1..12 and day 1..31 in every ISO result, and the exact condition for printability.)", "quantifier": "all texts", "why_tests_cant": "all texts", "anchors": ["src/parsers/en/ENISOFormatParser.hpp: extract line 40"]}
{"id": "C30", "title": "Month and day without a year resolve to the nearest year", "statement": "A month-day (or month) mention without a year resolves to one of the previous, same or next year of the reference, and no other of these three candidates is strictly nearer to the reference date; every spelling of a month name is recognised. (False of the code: on 30 August before a leap year 28 February goes to the wrong year, because Boost keeps the end of a month when it adds a year; 29 February can become a non-date; jun, jun. and may. are not recognised. Proved for everything else, on every text and for every spelling.)", "quantifier": "all reference dates in 1401..9998, all month/day pairs valid in the reference year", "why_tests_cant": "millions of combinations", "anchors": ["src/parsers/en/ENMonthNameMiddleEndianParser.hpp: extract", "src/parsers/en/ENMonthNameParser.hpp: extract"]}
{"id": "C31", "title": "Era suffixes", "statement": "An explicit year Y is used as written, minus 543 with BE, negated with BC; a number below 100 without era becomes 20YY. (False of the code in these cases, witnesses proved: a year that means -1, that is 1 BC or 542 BE, collides with the \"no year\" sentinel; \"march 2012 bc\" with a blank; a full date at the end of the text. Proved for all other years, every spelling of the month and every era, and on every text that any reported year is written in it or the nearest.)", "quantifier": "all years, all reference dates", "why_tests_cant": "all years", "anchors": ["src/parsers/en/ENMonthNameMiddleEndianParser.hpp: extract", "src/parsers/en/ENMonthNameParser.hpp: extract"]}
{"id": "C32", "title": "Ordinal words", "statement": "argToOrdinalValue maps every English ordinal first..thirty first, with space or hyphen, any case and extra blanks, to 1..31, and everything else to 0.", "quantifier": "all strings", "why_tests_cant": "infinite strings", "anchors": ["src/utils/utils.cpp: argToOrdinalValue"]}
{"id": "C33", "title": "A single clock time has hour 0..24 and minute, second below 60", "statement": "Every result of the time-expression parser without a range part has hour 0..24, minute 0..59 and second 0..59, on the reference date; with am/pm the hour is the usual 12-hour conversion (12am=0, 12pm=12). (Exception, proved: HH:MM:SS with a minute of 60 or more yields a result with nothing but the second. Texts with no range separator in them are considered.)", "quantifier": "all texts, all reference times", "why_tests_cant": "all texts", "anchors": ["src/parsers/en/ENTimeExpressionParser.hpp: extract"]}
{"id": "C34", "title": "Range start hours stay within a day", "statement": "A time range result also has start hour 0..24. (False of the code: \"20:00 to 9 pm\" gives hour 32. Proved: on every text hours are at most 36 and minutes and seconds below 60, start and end on the reference date; for all HH:MM[ am|pm] to HH:MM[ am|pm] the exact hours: a missing am/pm is taken from the other side by adding 12 to anything but 12, if neither has one from an uninitialised byte; both given: exactly the two times.)", "quantifier": "all texts", "why_tests_cant": "all texts", "anchors": ["src/parsers/en/ENTimeExpressionParser.hpp: extract lines 168-177"]}
{"id": "C35", "title": "Time ranges are evaluated without undefined behaviour", "statement": "Evaluating \"A to B\" reads no indeterminate or dangling memory. (False of the code: ampm_s is read uninitialised when neither side has am/pm and a reference into a destroyed string is read when B has am/pm. Proved: each of the two happens on every range of the form HH:MM to HH:MM; nothing else can go wrong on any text; and a text without a range separator never fails.)", "quantifier": "all texts, all reference times", "why_tests_cant": "undefined behaviour is not observable by a passing test", "anchors": ["src/parsers/en/ENTimeExpressionParser.hpp: extract lines 45, 163, 181"]}
{"id": "C36", "title": "US holidays fall on their statutory day in every year", "statement": "For every year 1400..9999 the parser puts independence day on 4 Jul, new year on 1 Jan, veterans day on 11 Nov, mlk day on the third Monday of January, presidents day on the third Monday of February, memorial day on the last Monday of May, labor day on the first Monday of September, columbus day on the second Monday of October, thanksgiving on the fourth Thursday of November, all at 00:00; and on every text, every result of the parser contains the name of a holiday and lies on the day of that name (black friday: see C37).", "quantifier": "all years", "why_tests_cant": "8600 years", "anchors": ["src/parsers/en/ENUSHolidaysParser.hpp: extract"]}
{"id": "C37", "title": "Black Friday is the day after Thanksgiving", "statement": "For every year black friday is the Friday after the fourth Thursday of November. (False of the code: one day is added twice; proved: the result is the Saturday two days after Thanksgiving in every year, and the wday component is 6.)", "quantifier": "all years", "why_tests_cant": "8600 years", "anchors": ["src/parsers/en/ENUSHolidaysParser.hpp: extract lines 103-114"]}
{"id": "C38", "title": "\"next/last N weeks\" moves by exactly 7N days", "statement": "For every N below 2^31 (digits, however many; or one..twelve) the text \"next N weeks\" (\"last N weeks\") yields exactly one result of the week parser, dated 7N days after (before) the reference as long as that date is in 1400..9999; \"next week\"/\"last week\" move 7 days; \"this week\" gives the reference date; N of 2^31 or more throws out of execute().", "quantifier": "all N, all reference times", "why_tests_cant": "infinite", "anchors": ["src/parsers/en/ENWeekExperessionParser.hpp: extract"]}
{"id": "C39", "title": "\"this week/month/year\" is the calendar period containing the reference", "statement": "The relative parser gives for \"this week\" the Sunday..Saturday week, for \"this month\" first..last day of month, for \"this year\" 1 Jan..31 Dec, each containing the reference date (as long as the period lies in 1400..9999 and the empty word was not inserted into the shared word table, see C20).", "quantifier": "all reference dates", "why_tests_cant": "3.1 million dates", "anchors": ["src/parsers/en/ENRelativeDateFormatParser.hpp: extract"]}
{"id": "C40", "title": "\"next/last N units\" of the relative parser is an exact offset", "statement": "For every N (digits), \"next N days/weeks/months/years/hours/minutes/seconds\" (last/past: backwards) yields the reference shifted by exactly N units, including the date when midnight is crossed, as long as the result is in 1400..9999; few means 3, no number means 1.", "quantifier": "all N below 2^24 (months: 32767, years: 2730), all reference times", "why_tests_cant": "infinite", "anchors": ["src/parsers/en/ENRelativeDateFormatParser.hpp: extract"]}
{"id": "C41", "title": "Weekday resolution is the Sunday-based week", "statement": "updateParsedComponent(ref, weekday, modifier) yields the date in the Sunday-to-Saturday week of ref shifted by -1, 0, +1 weeks for last/past, this/none, next, falling on the requested weekday; \"early\" adds 06:01 and \"late\" 20:01 as the time.", "quantifier": "all reference dates in 1401..9998, 7 weekdays, modifiers, timings", "why_tests_cant": "21 million combinations", "anchors": ["src/parsers/en/ENDayOfTheWeekParser.hpp: updateParsedComponent"]}
{"id": "C42", "title": "Overlap removal returns a sub-list with disjoint spans", "statement": "For any result list sorted by index, the overlap remover returns a sub-sequence of its input in which every result ends before the next begins.", "quantifier": "all sorted lists of results", "why_tests_cant": "infinite lists", "anchors": ["src/refiners/OverlapRemovalRefiner.hpp: refine"]}
{"id": "C43", "title": "The longest match survives overlap removal", "statement": "A result strictly longer than every other result of the list is always kept; among the longest results the first in the list is kept; a non-empty list of non-empty results never becomes empty.", "quantifier": "all lists of results", "why_tests_cant": "infinite lists", "anchors": ["src/refiners/OverlapRemovalRefiner.hpp: refine"]}
{"id": "C44", "title": "Overlap removal is idempotent", "statement": "Applying the overlap remover twice to a sorted list of non-empty results gives the same as once.", "quantifier": "all sorted lists", "why_tests_cant": "infinite lists", "anchors": ["src/refiners/OverlapRemovalRefiner.hpp: refine"]}
{"id": "C45", "title": "Overlap removal only discards results that overlap a kept one", "statement": "Every discarded result overlaps some kept result. (False of the code: A overlaps B and C, B dropped for A, A dropped for C. Proved: a witness, and that every discarded result is linked to a kept one by a chain of overlaps.)", "quantifier": "all sorted lists", "why_tests_cant": "infinite lists", "anchors": ["src/refiners/OverlapRemovalRefiner.hpp: refine"]}
{"id": "C46", "title": "The unstable sort cannot change the outcome of overlap removal", "statement": "If no two results have the same index and the same length, any two index-sorted arrangements of the same results give the same list after overlap removal.", "quantifier": "all result multisets, all orders std::sort may produce", "why_tests_cant": "std::sort order is unspecified; a test sees one", "anchors": ["time.cpp: main std::sort", "src/refiners/OverlapRemovalRefiner.hpp: refine"]}
{"id": "C47", "title": "Time-zone refiner touches only times followed by a known zone", "statement": "The time-zone refiner returns the same number of results with the same indices; a result is changed only if it carries the time-expression tag and the rest of the text after it is exactly an optional-blank, optionally parenthesised 2-4 letter abbreviation known to the table; then its start offset becomes the table value unless it was already certain (and so was the one of its end, if it has one), its text becomes the abbreviation, and no other component changes.", "quantifier": "all result lists, all texts", "why_tests_cant": "infinite", "anchors": ["src/refiners/ExtractTimeZoneAbbreviation.hpp: refine"]}
{"id": "C48", "title": "Merging a date and a time keeps the date of one and the time of the other", "statement": "If the date result has no minute or second of its own, the merged result has the date components of the date result, the hour/minute/second of the time result, a span covering both spans, and the tag ENMergeDateAndTimeRefiner unless that tag had been read before.", "quantifier": "all pairs of results", "why_tests_cant": "infinite", "anchors": ["src/refiners/en/ENMergeDateAndTimeRefiner.hpp: mergeDateTimeComponent, mergeResult"]}
{"id": "C49", "title": "Only adjacent date and time mentions are merged", "statement": "A date-only and a time-only result are merged only if the text between them is a connector. (False of the code: the connector pattern matches the empty string; proved: any neighbouring date-only/time-only pair whose span is inside the text is merged whatever lies between.)", "quantifier": "all texts and result pairs", "why_tests_cant": "infinite", "anchors": ["src/refiners/en/ENMergeDateAndTimeRefiner.hpp: isAbleToMerge"]}
{"id": "C50", "title": "Date/time merging leaves other results alone", "statement": "If no neighbouring pair is a date-only/time-only pair the refiner returns its input unchanged; merging never loses a result that took no part in a merge. (Known defect, proved: when the last pair merges, its second element is also kept.)", "quantifier": "all result lists", "why_tests_cant": "infinite", "anchors": ["src/refiners/en/ENMergeDateAndTimeRefiner.hpp: refine"]}
{"id": "C51", "title": "A merged range never ends before it starts", "statement": "Whenever the range refiner merges two results, the merged result has end() true and its end date-time is not before its start date-time.", "quantifier": "all pairs of results with printable dates", "why_tests_cant": "infinite", "anchors": ["src/refiners/en/ENMergeDateRangeRefiner.hpp: mergeResult"]}
{"id": "C52", "title": "Range merging passes unmerged results through", "statement": "If nothing can be merged the range refiner returns its input. (False of the code: the last result is replaced by a copy of the one before it. Proved: exactly that, and that the first result always survives.)", "quantifier": "all result lists with at least two elements", "why_tests_cant": "infinite", "anchors": ["src/refiners/en/ENMergeDateRangeRefiner.hpp: refine"]}
{"id": "C53", "title": "The program says \"Invalid date\" iff no parser found anything", "statement": "The program prints \"[???] -- Invalid date\" iff every parser returned no result; otherwise it goes on to print the first refined result.", "quantifier": "all texts, all reference times, all sort orders", "why_tests_cant": "all texts", "anchors": ["time.cpp: main"]}
{"id": "C54", "title": "Refiners never index outside the text", "statement": "For every text and every list of parser results, no refiner takes a substring outside the text: the only exceptions a refiner can throw are the \"not a date\" ones of the date library.", "quantifier": "all texts, all reference times, all sort orders", "why_tests_cant": "all texts", "anchors": ["src/refiners/*: refine", "time.cpp: main"]}
{"id": "C55", "title": "A bare ISO date is printed back by the program", "statement": "For every valid civil date in 1400..9999, the program run on YYYY-MM-DD prints exactly that date at 00:00:00, whatever the reference time and sort order.", "quantifier": "all dates, all reference times", "why_tests_cant": "3.1 million dates", "anchors": ["time.cpp: main", "src/parsers/en/ENISOFormatParser.hpp"]}
{"id": "C56", "title": "The documented phrases work end to end", "statement": "For every reference time the README phrases today, tomorrow, yesterday, mlk day, independence day print the right date. (last friday, next tuesday, christmas, 7 years ago and 4 days from now do not: nothing is found in the first three, and \"N years ago\" and \"N days from now\" print the reference date at N o'clock; tomorrow prints today between 00:00 and 00:59, yesterday has the hour of the reference. Proved for every reference time.)", "quantifier": "all reference times", "why_tests_cant": "all reference times", "anchors": ["README.md", "time.cpp: main"]}
{"id": "C57", "title": "The program never dies with an uncaught exception", "statement": "On every text main terminates normally. (False of the code: every ISO date that is no calendar date of 1400..9999, may., 12:75:30, march 1999bc, next N weeks from 2^31 on. Proved: these witnesses; and that every ordinary text is answered, for every reference time in 1500..6900, where ordinary means: no backslash, no may., no ranges, numbers up to 2700, days that exist in the month before them, years 1401..9998 after a month, and proper times where there are seconds; each of these conditions is needed.)", "quantifier": "all texts, all reference times", "why_tests_cant": "all texts", "anchors": ["time.cpp: main"]}
{"id": "C58", "title": "The printed result does not depend on the tie-breaking of std::sort unless two parsers report the same span", "statement": "For any text, if no two parser results have both equal index and equal length then every index-sorted order yields the same output line. (The condition is needed: for noon two parsers report the whole text, and what is printed depends on the sort; proved.)", "quantifier": "all texts, all reference times, all sort orders", "why_tests_cant": "one implementation, one order", "anchors": ["time.cpp: main"]}
{"id": "C59", "title": "Every result says which parser it came from", "statement": "Every result returned by a parser carries the tag of that parser and no other tag. (First half false of the code: a date deadline such as \"in 5 days\" is untagged, and the week parser has no tag; proved: no foreign tag ever for all thirteen parsers, and own tag always for the casual-date, casual-time, middle-endian, month-name, ISO and holiday parsers.)", "quantifier": "all texts, all reference times, all parsers", "why_tests_cant": "all texts", "anchors": ["src/parsers/en/*: extract", "src/result.hpp: setTag, getTag"]}
{"id": "C60", "title": "A mention that covers the whole text decides what is printed", "statement": "If no parser throws on the text, one parser returns a mention that covers the whole text, and every other mention is shorter, the program prints exactly the date of that mention, whatever order std::sort gives to mentions at the same place.", "quantifier": "all texts, all reference times, all sort orders", "why_tests_cant": "all texts and sort orders", "anchors": ["time.cpp: main", "src/refiners/OverlapRemovalRefiner.hpp: refine"]}
{"id": "C61", "title": "Clock times and parts of the day are printed on the reference date", "statement": "For every reference time, the program run on a written clock time below 24:00 (5, 17:30, 5:30 pm, 12 am, 05:30:15 p.m., ...) prints the reference date at that time on the 24-hour clock, and run on morning, afternoon, evening, night (with or without \"this\") prints the reference date at 06, 15, 20, 20 hours and the minute of the reference.", "quantifier": "all clock times in the listed forms, all reference times", "why_tests_cant": "5 million clock texts times all reference times", "anchors": ["time.cpp: main", "src/parsers/en/ENTimeExpressionParser.hpp", "src/parsers/en/ENCasualTimeParser.hpp"]}
{"id": "C62", "title": "Deadlines are printed end to end", "statement": "For every N in digits (however many), the program run on \"in N days\" or \"within N days\" (weeks, months, years) prints the date N units after the reference date at 00:00:00, and run on \"in N hours\" (minutes, seconds) prints the instant N units after the reference when midnight is not crossed.", "quantifier": "all N, all reference times, all sort orders", "why_tests_cant": "infinite", "anchors": ["time.cpp: main", "src/parsers/en/ENDeadlineFormatParser.hpp"]}
{"id": "C63", "title": "Week phrases are printed end to end", "statement": "For every N in digits below 2^31 (however many digits), and for one..twelve, the program run on \"next N weeks\" or \"last N weeks\" prints the date 7N days after or before the reference date at 00:00:00 when that date is in 1400..9999; \"next week\" and \"last week\" print the date 7 days away.", "quantifier": "all N, all reference times, all sort orders", "why_tests_cant": "infinite", "anchors": ["time.cpp: main", "src/parsers/en/ENWeekExperessionParser.hpp"]}
{"id": "C64", "title": "Month phrases are printed end to end", "statement": "For every reference time in 1401..9998 the program run on a month name in any spelling (full, three letters, with full stop, sept; not jun, jun. and may.) prints the first of that month in the year that is nearest to the reference date; followed by a year in four digits and an era (none, BE, AD, BC) it prints the first of that month in the year that is meant, if that is one of 1400..9999.", "quantifier": "all spellings, all years, all reference times, all sort orders", "why_tests_cant": "10^4 years times all reference times", "anchors": ["time.cpp: main", "src/parsers/en/ENMonthNameParser.hpp"]}
{"id": "C65", "title": "The arithmetic of ago and later is right on the texts these parsers accept", "statement": "The time-ago and time-later patterns demand a backslash before the closing word (see C22). On the texts they do accept, for every N in digits (however many), one..twelve, a, an, a few, \"N days\\ago\" yields one result covering the text whose date is N days before the reference date (weeks 7N; months and years by the calendar with the day clipped to the length of the month), and for N from 1 to below 2^24 hours, minutes, seconds give the instant N units before the reference with its date, also across midnight; \"\\later\", \"\\from now\" give the same after the reference.", "quantifier": "all N, all units, all reference times, both parsers", "why_tests_cant": "infinite", "anchors": ["src/parsers/en/ENTimeAgoFormatParser.hpp: extract", "src/parsers/en/ENTimeLaterParser.hpp: extract"]}
{"id": "C66", "title": "A range of days within a month runs from the first day to the end of the second", "statement": "For every spelling of a month, \"march 5 - 12\" and \"march 5 to 12\" (days in one or two digits, with or without st, nd, rd, th) yield one result from the first day at 00:00:00 to the second day of the same month and year at 23:59:00, in the year that puts the first day nearest to the reference; the program prints exactly that. On every text, a result of the month-and-day parser that has an end has it in the month and year of its start, at 23:59:00. (The code does not check the second day: it may be before the first, and if it does not exist the program dies. Proved for every reference time.)", "quantifier": "all spellings, all pairs of days, all reference times, all texts", "why_tests_cant": "infinite", "anchors": ["src/parsers/en/ENMonthNameMiddleEndianParser.hpp: extract", "time.cpp: main"]}
{"id": "C67", "title": "A weekday written before a date is recorded as written", "statement": "For every name of a day of the week followed by a comma or blank, a month name and a day, the result has that weekday as a certain component (0 = Sunday) besides the month and day in the nearest year; on every text, a certain weekday in a result of this parser is one whose name is in the mention.", "quantifier": "all weekday names, months, days, reference times, all texts", "why_tests_cant": "infinite", "anchors": ["src/parsers/en/ENMonthNameMiddleEndianParser.hpp: extract"]}
{"id": "C68", "title": "The end of a merged date and time is the end time on the same or the next day", "statement": "A date without an end merged with a time that has one (march 5 with 9pm - 11pm) ends at the end time on the same day, or on the day after if the end time is earlier in the day than the start time (9pm - 1am); a date with an end merged with a time ends on the end date at the end of the time. (False on the last day of a month: the next day is written as the day number plus one, which is not a date, and printing it throws. Proved: the rule, and this refutation.)", "quantifier": "all texts and result pairs with dates in 1400..9999", "why_tests_cant": "infinite", "anchors": ["src/refiners/en/ENMergeDateAndTimeRefiner.hpp: mergeResult"]}
{"id": "C69", "title": "Two dates with a range word between them become a range", "statement": "Two neighbouring mentions of dates without an end, joined by and, to, through or -, become one mention from the first date to the second, or from the first to the first if the second is earlier; it begins where the first mention begins. (If nothing follows, the refiner puts the mention twice into its list.)", "quantifier": "all texts and pairs of mentions with valid dates", "why_tests_cant": "infinite", "anchors": ["src/refiners/en/ENMergeDateRangeRefiner.hpp: refine, mergeResult"]}
{"id": "C70", "title": "Times without a colon, after at and from, noon and midnight", "statement": "For every reference time three or four digits with a value above 100 (930, 1730, hour up to 24, minute below 60), with or without am/pm and at/from before it, yield one result at that hour and minute of the reference date, covering the text; so do at/from followed by any clock time of C33, and noon (12:00) and midnight (0:00); the program prints that time for hours below 24 (noon: see C58). (False for times right after midnight: 0005 to 0024 are read as the hours 5 to 24; proved.)", "quantifier": "all times in the listed forms, all reference times, all sort orders", "why_tests_cant": "5 million texts times all reference times", "anchors": ["src/parsers/en/ENTimeExpressionParser.hpp: extract", "time.cpp: main"]}
{"id": "C71", "title": "New Year's Eve is 31 December", "statement": "For every reference time new year's eve is 31 December of the reference year. (True if something follows it; at the end of the text the code reads new year's and answers 1 January. Proved: both.)", "quantifier": "all reference times", "why_tests_cant": "8600 years", "anchors": ["src/parsers/en/ENUSHolidaysParser.hpp: extract"]}
{"id": "C72", "title": "The reference argument is read as written", "statement": "For every date in 1400..9999 and time of day, the second argument YYYY-MM-DD HH:MM:SS makes the program answer as of exactly that date and time, whatever the text is and whatever the clock shows; with the text now the program prints that date and time back.", "quantifier": "all dates and times, all texts, all clock readings, all sort orders", "why_tests_cant": "7.4*10^10 dates and times, all texts", "anchors": ["time.cpp: main"]}
{"id": "C73", "title": "A printed date can be given back as the reference argument", "statement": "For every date in 1400..9999 and time of day, the form in which the program prints it (2019-Mar-15 07:05:00) is accepted as second argument and read as the same date and time; with the text now the same line is printed again.", "quantifier": "all dates and times, all texts", "why_tests_cant": "7.4*10^10 dates and times", "anchors": ["time.cpp: main", "src/result.cpp: toDate"]}
{"id": "C74", "title": "A reference argument that is no date is rejected before any text is read", "statement": "If the date of a second argument of the form YYYY-MM-DD HH:MM:SS does not exist, or the argument begins with a letter (arguments in the wrong order), the program ends with an exception whatever the text is; a time of day that does not exist is rejected too. (The last is false of the code: hours from 24 and minutes and seconds from 60 are accepted and counted on from midnight; proved.)", "quantifier": "all dates of up to four, two, two digits, all continuations, all texts", "why_tests_cant": "infinite", "anchors": ["time.cpp: main"]}
{"id": "C75", "title": "The usage message appears exactly for a wrong number of arguments", "statement": "The program prints its usage message if and only if the number of arguments is neither one nor two; the clock influences the answer only if there is exactly one argument.", "quantifier": "all argument lists, all clock readings", "why_tests_cant": "infinite", "anchors": ["time.cpp: main, printUsage"]}
{"id": "C76", "title": "Two ISO dates in one text: a range if joined, else the first", "statement": "For every two ISO dates and every reference time, the program run on the two with \" - \", \"-\", \" -\", \" to \", \" through \" or \" and \" between them prints the range from the first date to the second (from the first to the first if the second is earlier); with a blank, a comma, a semicolon, \"or\", \"until\" or \"till\" between them it prints the first.", "quantifier": "all pairs of dates in 1400..9999, the listed separators, all reference times, all sort orders", "why_tests_cant": "10^13 pairs of dates times all reference times", "anchors": ["time.cpp: main", "src/refiners/en/ENMergeDateRangeRefiner.hpp: refine", "src/refiners/OverlapRemovalRefiner.hpp: refine"]}
{"id": "C77", "title": "A date and a time of day in one text are one moment", "statement": "For every date, every clock time and every reference time, the program run on the date followed by the time (\"2019-03-05 at 9:30 pm\", with a blank, \"at\" or a comma between) prints that date at that time. (True of ISO dates and today with every clock time in the forms of C33; false after tomorrow, yesterday, tmr, where one of the two is lost, and after holidays, where the time is lost: proved.)", "quantifier": "all dates in 1400..9999, all clock times, all reference times, all sort orders", "why_tests_cant": "10^11 texts times all reference times", "anchors": ["time.cpp: main", "src/refiners/en/ENMergeDateAndTimeRefiner.hpp: refine"]}
{"id": "C78", "title": "A text made of words only never kills the program", "statement": "For every text without digits and every reference time in the years 1404..9980 the program prints a line: no exception, no undefined behaviour, no endless loop. (False in four situations, each with a witness: the word may followed by a full stop; a backslash; an ordinal word naming a day that the named month does not have in every year, such as february thirtieth; an ordinal word after to or a dash. Proved for all other texts without digits.)", "quantifier": "all texts without digits, all reference times, all sort orders", "why_tests_cant": "infinite", "anchors": ["time.cpp: main", "every parser and refiner"]}
{"id": "C79", "title": "Common zone abbreviations have their usual offset, except half hours west", "statement": "For each of 107 common time-zone abbreviations (UTC, EST, CEST, IST, ...; Spec/ZoneNames.lean), in any letter case, a time of day followed by it carries the usual offset from UTC if the zone lies east or its offset is a whole number of hours; the half-hour zones west of UTC (NST, NDT, HNT, HAT, MART) are known, but their offset is an hour too far east.", "quantifier": "all listed abbreviations in any letter case, all texts", "why_tests_cant": "all letter cases, all texts and results", "anchors": ["src/refiners/ExtractTimeZoneAbbreviation.hpp: refine", "src/utils/utils.hpp"]}
{"id": "C80", "title": "A clock time with a time zone is printed in universal time", "statement": "For every reference time, every written clock time (C33, with or without am and pm) followed by a blank and one of the best known zone abbreviations (utc, gmt, wet, cet, cest, eet, est, edt, cdt, mst, mdt, pst, pdt, ist, jst, kst), such as 9:30 pm est, the program prints that moment of the reference date in UTC. (False of the code except in the zones of offset 0: the offset is added instead of subtracted, so that 9:30 pm est prints 16:30; proved for all these times, zones and reference times.)", "quantifier": "all reference times, all clock times, sixteen zones", "why_tests_cant": "all reference times and clock times", "anchors": ["src/refiners/ExtractTimeZoneAbbreviation.hpp, src/result.cpp: toDate, src/parsers/en/ENTimeExpressionParser.hpp, time.cpp: main"]}
{"id": "C81", "title": "A text that names no date is answered Invalid date", "statement": "For every text and every reference time: if the text has no digit, no backslash, and none of the listed date words (now, today, tonight, tomorrow, tmr, yesterday, lastnight, morning, afternoon, evening, noon, night, midnight, the months, a month and an ordinal, the words of the holidays, black with friday, last/next/this with week, in/within with a unit of time; Spec/DateWords.lean), the program prints the line that says Invalid date. Each of these conditions is needed. Weekdays, ago and later are not among the words: the program finds no date in see you on friday or ten minutes ago.", "quantifier": "all texts without the listed words, all reference times, all sort orders", "why_tests_cant": "infinite", "anchors": ["time.cpp: main", "every parser"]}
{"id": "C82", "title": "The words around a date word do not matter", "statement": "For every text with exactly one date word (in the sense of C81), which is now, today, tonight, tomorrow, tmr, yesterday, morning, afternoon, evening or night in any letter case and stands in the text once as a word of its own, and for every reference time, the program does exactly what it does when it is given that word alone: could we meet Tomorrow, dear? is answered like tomorrow.", "quantifier": "all texts around the word, all letter cases, all reference times, all sort orders", "why_tests_cant": "infinite", "anchors": ["time.cpp: main", "src/parsers/en/ENCasualDateParser.hpp, src/parsers/en/ENCasualTimeParser.hpp", "src/parsers/parser.cpp: execute", "every other parser"]}
{"id": "C83", "title": "An ISO date is found wherever it stands in a text", "statement": "For every date in the years 1400..9999 written as YYYY-MM-DD, every text before and after it (of any length, without digits and without the date words of C81, the date not being part of a longer word), and every reference time, the program prints that date at 00:00:00, unless the date follows at or from: see you at 2019-03-05 is read as a range of clock times (proved). Each condition is needed.", "quantifier": "all dates in 1400..9999, all texts around, all reference times, all sort orders", "why_tests_cant": "infinite", "anchors": ["time.cpp: main", "src/parsers/en/ENISOFormatParser.hpp", "src/parsers/en/ENTimeExpressionParser.hpp", "src/refiners/OverlapRemovalRefiner.hpp: refine", "every other parser"]}
{"id": "C84", "title": "A deadline, a week or a holiday is found wherever it stands in a text", "statement": "For every text whose only words for a time are one deadline with a written number (in two weeks, within half an hour), one week phrase (this week, next week, last three weeks) or one single-word holiday name followed by another word (labor day, thanksgiving dinner), in upper or lower case, and whatever stands before and after it, the program does for every reference time exactly what it does with the phrase alone. Each condition (no second phrase, no last or next directly before a week phrase, no week directly after it, a word after the holiday) is needed (proved).", "quantifier": "all texts around the phrase (any length), all reference times, all sort orders", "why_tests_cant": "infinite", "anchors": ["time.cpp: main", "src/parsers/en/ENDeadlineFormatParser.hpp", "src/parsers/en/ENWeekExperessionParser.hpp", "src/parsers/en/ENUSHolidaysParser.hpp", "every other parser"]}
{"id": "C85", "title": "A clock time is found wherever it stands in a text", "statement": "For every text with one clock time (9, 09:30, 17:30:15, 930 or 1730, perhaps followed by am, pm or o'clock, in upper or lower case), preceded by a blank or nothing and not followed by a letter, digit or underscore, and with no other digits and no other words for a time, the program prints, for every reference time, that time of day on the day of the reference time. Each condition (nothing after it that could be read as am or pm, no month name directly before, not only a time zone after it, no other number) is needed (proved).", "quantifier": "all texts around the time (any length), all clock times, all reference times, all sort orders", "why_tests_cant": "infinite", "anchors": ["time.cpp: main", "src/parsers/en/ENTimeExpressionParser.hpp", "every other parser"]}
{"id": "C86", "title": "Numbers that cannot be a time of day are not read as one", "statement": "For every text with none of the program's words for dates and times, in which every number has more than four digits, or is glued to a letter on a side where the program wants a word to end, or has a value that is neither an hour (0 to 24) nor an hour and a minute (such as 930), and in which no colon stands between digits and no number follows the name of a month, the program answers that there is no date, for every reference time. In particular, prices, quantities, dotted and hyphenated numbers made of such numbers are not read as dates. Each of the three conditions is needed (proved): I paid 24 dollars is read as a time.", "quantifier": "all texts (any length), all numbers in them, all reference times, all sort orders", "why_tests_cant": "infinite", "anchors": ["time.cpp: main", "src/parsers/en/ENTimeExpressionParser.hpp", "src/parsers/en/ENISOFormatParser.hpp", "every other parser"]}
{"id": "C87", "title": "A month is found wherever it stands in a text", "statement": "For every text without digits whose only word for a date is one month name or abbreviation (any letter case; jun is not one), which stands in it once and as a word of its own, whatever stands before and after it, and for every reference time in the years 1401..9998, the program prints the first day of that month at 00:00:00 in the year that puts that day nearest to the reference date. Two situations are excepted, both proved for every such text: a month after a single blank at the very beginning of the text is not found, and May directly followed by a full stop (We met in May.) ends the program with an uncaught exception. The other conditions are needed too (proved).", "quantifier": "all texts around the month (any length), all 23 spellings in any letter case, all reference times, all sort orders", "why_tests_cant": "infinite", "anchors": ["time.cpp: main", "src/parsers/en/ENMonthNameParser.hpp", "every other parser"]}
{"id": "C88", "title": "A month and a day are found wherever they stand in a text", "statement": "For every text whose only date is one month name or abbreviation (any letter case), one blank, a day of that month in one or two digits, with or without st, nd, rd, th, and then blanks and another word, whatever stands before and after (without digits, other dates and times, and without to, am, pm and the like right after the day), and for every reference time in the years 1401..9998, the program prints that day at 00:00:00 in the year that puts it nearest to the reference date. 29 February, and 28 February in the year before a leap year, are left out: for them the code is wrong (C30). The conditions are needed: at the end of the text, before a full stop or a comma, and beside another number, something else is printed (proved).", "quantifier": "all texts around the date (any length), all 23 spellings of months in any letter case, all days, all reference times, all sort orders", "why_tests_cant": "infinite", "anchors": ["time.cpp: main", "src/parsers/en/ENMonthNameMiddleEndianParser.hpp", "every other parser"]}
{"id": "C89", "title": "A month and a year are found wherever they stand in a text", "statement": "For every text whose only date is one month name or abbreviation (any letter case), one blank and a year in four digits from 1400 to 9999, followed by the end of the text or by anything but a letter, digit or underscore, whatever stands before and after (without digits, other dates and times, without BE, am, pm or o'clock right after the year, not after four blanks in a row and not after a single blank that begins the text), and for every reference time, the program prints the first of that month of that year at 00:00:00, although the same four digits are also read as a clock time. Under the same conditions a year from 0100 to 1399 ends the program with an out-of-range exception. The conditions on blanks, BE, other numbers and words that touch are needed: there something else is printed (proved).", "quantifier": "all texts around the date (any length), all 23 spellings of months in any letter case, all years, all reference times, all sort orders", "why_tests_cant": "infinite", "anchors": ["time.cpp: main", "src/parsers/en/ENMonthNameParser.hpp", "every other parser"]}
{"id": "C90", "title": "A month and a day that no word follows are not found", "statement": "For every text whose only date is one month name or abbreviation (any letter case), one blank and a day in one or two digits, with or without st, nd, rd or th, after which come blanks and then the end of the text or a sign that is no letter, digit, underscore or hyphen, whatever stands before and after (without digits and other dates and times): if the day has its ending or is 25 or more, the program answers that there is no date (\"[???] -- Invalid date\"), for every reference time; if the day is bare and 23 or less (and no time zone ends the text), the program takes it for an hour and prints that hour of the day of the reference time. \"March 5th.\", \"on March 5\" at the end of a sentence, are such texts.", "quantifier": "all texts around the date (any length), all 23 spellings of months in any letter case, all days, all reference times, all sort orders", "why_tests_cant": "infinite", "anchors": ["time.cpp: main", "src/parsers/en/ENMonthNameMiddleEndianParser.hpp", "src/parsers/en/ENTimeExpressionParser.hpp", "every other parser"]}
{"id": "C91", "title": "A clock time and a day named in words, in either order, in any text", "statement": "For every text with exactly one clock time (hour, perhaps minutes and seconds, perhaps am, pm or o'clock) and exactly one of the words today, tonight, tomorrow, tmr and yesterday, each in any letter case, with any texts before, between and after them that have no digits and no other words for dates and times: the program prints that time on the day the word names (today; the next day, or today in the first hour of the day; the previous day), whichever of the two stands first, if after the second one there is no \"and\", \"to\", \"through\" or hyphen and, when tomorrow, tmr or yesterday stands first, more than blanks, \"at\" or \"from\" stands between it and the time. \"Let us meet tomorrow at 5pm\" is not read as tomorrow at 5pm; \"Let us meet at 5pm tomorrow\" and \"tomorrow, at 5pm\" are.", "quantifier": "all texts around the time and the day (any length), all times and spellings, all five words in any letter case, all reference times, all sort orders", "why_tests_cant": "infinite", "anchors": ["time.cpp: main", "src/parsers/en/ENTimeExpressionParser.hpp", "src/parsers/en/ENCasualDateParser.hpp", "src/refiners/en/ENMergeDateAndTimeRefiner.hpp", "src/refiners/OverlapRemovalRefiner.hpp"]}
{"id": "C92", "title": "A clock time and a part of the day, in either order, in any text", "statement": "For every text with exactly one clock time (hour, perhaps minutes and seconds, perhaps am, pm or o'clock) and exactly one of the words morning, afternoon, evening and night, each in any letter case, with any texts before, between and after them that have no digits and no other words for dates and times: the program prints that time on the day of the reference time, whichever of the two stands first, if after the second one there is no \"and\", \"to\", \"through\" or hyphen and, when the time stands first, more than blanks stands between them. The part of the day changes nothing: \"at 9 in the evening\" is 09:00.", "quantifier": "all texts around the time and the part of the day (any length), all times and spellings, all four words in any letter case, all reference times, all sort orders", "why_tests_cant": "infinite", "anchors": ["time.cpp: main", "src/parsers/en/ENTimeExpressionParser.hpp", "src/parsers/en/ENCasualTimeParser.hpp", "src/refiners/en/ENMergeDateAndTimeRefiner.hpp", "src/refiners/OverlapRemovalRefiner.hpp"]}
{"id": "C93", "title": "A day named in words and a part of the day, in either order, in any text", "statement": "For every text with exactly one of the words today, tonight, tomorrow, tmr and yesterday and exactly one of the words morning, afternoon, evening and night, each in any letter case, with any texts before, between and after them that have no digits and no other words for dates and times: the program prints the day the first kind of word names at the hour of the second (6, 15, 20, 20) with the minutes of the reference time, whichever of the two stands first, if after the second one there is no \"and\", \"to\", \"through\" or hyphen and, when tomorrow, tmr or yesterday stands first, more than blanks stands between them. \"Tomorrow morning\" is not read as tomorrow in the morning; \"tomorrow in the morning\" is.", "quantifier": "all texts around the day and the part of the day (any length), all pairs of words in any letter case, all reference times, all sort orders", "why_tests_cant": "infinite", "anchors": ["time.cpp: main", "src/parsers/en/ENCasualDateParser.hpp", "src/parsers/en/ENCasualTimeParser.hpp", "src/refiners/en/ENMergeDateAndTimeRefiner.hpp", "src/refiners/OverlapRemovalRefiner.hpp"]}
{"id": "C94", "title": "Two days named in words in any text: a range if and only if a range word stands between them", "statement": "For every text with exactly two of the words now, today, tonight, tomorrow, tmr and yesterday (or one of them twice), in any letter case, with any texts before, between and after them that have no digits and no other words for dates and times: if \"and\", \"to\", \"through\" or a hyphen occurs between them (anywhere, even inside a word), the program prints the range from the first moment to the second, and from the first to itself if the second is earlier; otherwise it prints the first moment alone.", "quantifier": "all texts around the two words (any length), all pairs of words in any letter case, all reference times, all sort orders", "why_tests_cant": "infinite", "anchors": ["time.cpp: main", "src/parsers/en/ENCasualDateParser.hpp", "src/refiners/en/ENMergeDateRangeRefiner.hpp", "src/refiners/en/ENMergeDateAndTimeRefiner.hpp", "src/refiners/OverlapRemovalRefiner.hpp"]}
{"id": "C95", "title": "Whatever is found in a text, the first mention is what is printed, if nothing is merged with it", "statement": "Take any text, found to hold any number of mentions by any of the parsers. If one mention comes before all those it does not share a character with, is longer than those it shares a character with, no time zone follows it, and no later mention is merged with it (none that makes a date and a time with it or has a range word between, unless another surviving mention stands between them), then the program prints exactly the date of that mention, or it ends with one of the \"not a date\" exceptions of Boost. It throws nothing if every mention is a calendar date and no two form a date and a time, or if no two mentions are related.", "quantifier": "all texts in which all parsers return, all sets of mentions, all reference times, all sort orders", "why_tests_cant": "infinite", "anchors": ["time.cpp: main", "src/refiners/OverlapRemovalRefiner.hpp", "src/refiners/ExtractTimeZoneAbbreviation.hpp", "src/refiners/en/ENMergeDateAndTimeRefiner.hpp", "src/refiners/en/ENMergeDateRangeRefiner.hpp"]}
{"id": "C96", "title": "Whatever is found in a text, its first two dates are printed as a range, if a range word joins them", "statement": "Take any text with any number of mentions, the first two of which (each longer than those it shares a character with) are dates without an end, with \"and\", \"to\", \"through\" or a hyphen between them and no time zone after them: if they are not a date and a time and no clock time is merged with the second, the program prints the range from the first to the second, or from the first to itself if the second is earlier - or it ends with one of the \"not a date\" exceptions. It throws nothing if every mention is a calendar date and no two form a date and a time.", "quantifier": "all texts in which all parsers return, all sets of mentions, all reference times, all sort orders", "why_tests_cant": "infinite", "anchors": ["time.cpp: main", "src/refiners/OverlapRemovalRefiner.hpp", "src/refiners/ExtractTimeZoneAbbreviation.hpp", "src/refiners/en/ENMergeDateAndTimeRefiner.hpp", "src/refiners/en/ENMergeDateRangeRefiner.hpp"]}
{"id": "C97", "title": "Whatever is found in a text, its first date and time are printed together", "statement": "Take any text with any number of mentions, the first two of which (each longer than those it shares a character with) are a date without a time and a time without a date, in either order (the first may be both, as the name of a part of the day is, if the second is a time without a date or such a name too), without ends and without time zones: if no range word joins a later mention to the second, and none follows it at the end of the text, the program prints that date at that time - or it ends with one of the \"not a date\" exceptions.", "quantifier": "all texts in which all parsers return, all sets of mentions, all reference times, all sort orders", "why_tests_cant": "infinite", "anchors": ["time.cpp: main", "src/refiners/OverlapRemovalRefiner.hpp", "src/refiners/ExtractTimeZoneAbbreviation.hpp", "src/refiners/en/ENMergeDateAndTimeRefiner.hpp", "src/refiners/en/ENMergeDateRangeRefiner.hpp"]}
{"id": "C98", "title": "Any number of days named in words in any text: the first two decide what is printed", "statement": "For every text with any number of the words now, today, tonight, tomorrow, tmr and yesterday, in any letter case and order, and no digits and no other words for dates and times: if \"and\", \"to\", \"through\" or a hyphen occurs between the first two of them, the program prints the range from the first moment to the second (to the first, if the second is earlier), whatever follows; otherwise it prints the first moment alone. If no such word or hyphen follows the first of them at all, its moment is printed, whether or not others follow.", "quantifier": "all texts with one or more of the words (any length, any number of them), all reference times in the years 1401 to 9998, all sort orders", "why_tests_cant": "infinite", "anchors": ["time.cpp: main", "src/parsers/en/ENCasualDateParser.hpp", "src/refiners/en/ENMergeDateRangeRefiner.hpp", "src/refiners/en/ENMergeDateAndTimeRefiner.hpp", "src/refiners/OverlapRemovalRefiner.hpp"]}
{"id": "C99", "title": "Any number of months named in any text: the first two decide what is printed", "statement": "For every text with any number of names of months (in full or short, in any letter case and order), and no digits and no other words for dates and times: if \"and\", \"to\", \"through\" or a hyphen stands between the first two months, the program prints the range from the first day of the first month to the first day of the second, each in its nearest year (to the first, if the second is earlier), whatever follows; otherwise it prints the first month alone. (The code keeps this only for range words before the last character that is no blank in front of the second month: \"march and in june\" is a range, \"march to june\" is March alone.) If no such word or hyphen follows the first month at all, it is printed alone, whether or not others follow.", "quantifier": "all texts with one or more months (any length, any number of them; the first not after one single blank at the beginning, or after two blanks), all reference times in the years 1401 to 9998, all sort orders", "why_tests_cant": "infinite", "anchors": ["time.cpp: main", "src/parsers/en/ENMonthNameParser.hpp", "src/refiners/en/ENMergeDateRangeRefiner.hpp", "src/refiners/en/ENMergeDateAndTimeRefiner.hpp", "src/refiners/OverlapRemovalRefiner.hpp"]}
{"id": "C100", "title": "Days and months, any number of each, in any text: the first is printed if no range word follows it", "statement": "For every text that names any number of days (\"now\", \"today\", \"tonight\", \"tomorrow\", \"tmr\", \"yesterday\") and any number of months (in full or short), in any letter case and order, and that has no digits and no other words for dates and times: if no \"and\", \"to\", \"through\" or hyphen follows the first of them anywhere (not even inside another word), the program prints the first alone - the moment of the day, or the first day of the month in its nearest year - however many of both kinds follow, or none. A first day must have no month right behind it (the program prints that month in its stead); a first month may have anything behind it.", "quantifier": "all texts with one or more days and months (any length, any number of them; a first month not after one single blank at the beginning, nor after two blanks), all reference times in the years 1401 to 9998, all sort orders", "why_tests_cant": "infinite", "anchors": ["time.cpp: main", "src/parsers/en/ENCasualDateParser.hpp", "src/parsers/en/ENMonthNameParser.hpp", "src/refiners/en/ENMergeDateRangeRefiner.hpp", "src/refiners/en/ENMergeDateAndTimeRefiner.hpp", "src/refiners/OverlapRemovalRefiner.hpp"]}
{"id": "C101", "title": "Days and months, any number of each, in any text: the first two decide what is printed", "statement": "For every text of the kind of C100 that names at least two days or months, of either kind and in either order: let the gap be what stands between the first two - or, if the second is a month, what stands there before the last character that is no blank. If \"and\", \"to\", \"through\" or a hyphen stands in the gap, the program prints the range from the first to the second (to the first again, if the second is earlier), whatever follows; if none does, it prints the first alone, whatever follows - be it a range word, or \"today\", which has \"to\" inside. If the second is a day, no month may stand right behind it.", "quantifier": "all texts with two or more days and months (any length, any number of them; a first month not after one single blank at the beginning, nor after two blanks; something other than blanks before a second month), all reference times in the years 1401 to 9998, all sort orders", "why_tests_cant": "infinite", "anchors": ["time.cpp: main", "src/parsers/en/ENCasualDateParser.hpp", "src/parsers/en/ENMonthNameParser.hpp", "src/refiners/en/ENMergeDateRangeRefiner.hpp", "src/refiners/en/ENMergeDateAndTimeRefiner.hpp", "src/refiners/OverlapRemovalRefiner.hpp"]}
{"id": "C102", "title": "Two or more parts of the day in any text: the hour of the second is printed", "statement": "For every text with two or more of the words morning, afternoon, evening and night (in any letter case and order, the same one twice, too), and no digits and no other words for dates and times: if no \"and\", \"to\", \"through\" or hyphen follows the second of them anywhere, the program prints the hour of the second (6, 15, 20 and 20) on the day of the reference time, with the minute of the reference time, whatever stands between the two - \"morning or evening\", \"from morning to evening\" - and however many follow. The first is lost, and no range is printed.", "quantifier": "all texts with two or more of the words (any length, any number of them), all reference times, all sort orders", "why_tests_cant": "infinite", "anchors": ["time.cpp: main", "src/parsers/en/ENCasualTimeParser.hpp", "src/refiners/en/ENMergeDateAndTimeRefiner.hpp", "src/refiners/en/ENMergeDateRangeRefiner.hpp", "src/refiners/OverlapRemovalRefiner.hpp"]}
