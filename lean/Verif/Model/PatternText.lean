import Verif.Regex.Compile
/-!
# The pattern strings of the program, verbatim

Each literal below is one raw string literal of the cited lines, in order (adjacent literals are
concatenated, as in C++).  All parser patterns are built with `std::regex::icase`.
-/
namespace Chrono.Pat

/-- src/parsers/en/ENCasualTimeParser.hpp:17-19 -/
def casualTime : Text := txt!
  r"(\b)"
  r"((this)?\s*(morning|afternoon|evening|noon|night))"
  r"(\b)"

/-- src/parsers/en/ENDeadlineFormatParser.hpp:14-23 -/
def deadline : Text := txt!
  r"(\b)"
  r"(within|in)\s+"
  r"("
  r"(?:one|two|three|four|five|six|seven|eight|nine|ten|eleven|twelve)|"
  r"[0-9]+|"
  r"an?(?:\s+few)?|"
  r"half(?:\s+an?)?"
  r")"
  r"\s+(sec(?:ond)?s?|min(?:ute)?s?|h(?:ou)?rs?|days?|w(?:ee)?ks?|months?|y(?:ea)?rs?)"
  r"(\b)"

/-- src/parsers/en/ENDayOfTheWeekParser.hpp:24-29 -/
def dayOfWeek : Text := txt!
  r"(\b)"
  r"(earl(?:ier|y)|late)?"
  r"(?:\s*(this|last|next)\s*)?)"
  r"(Sun(?:day)?|Mon(?:day)?|Tue(?:s(?:day)?)?|Wed(?:nesday)?|Thu(?:r(?:s(?:day)?)?)?|Fri(?:day)?|Sat(?:urday)?)"
  r"(?:\s*(this|last|next)\s*)?(?:(week)\s*)?"
  r"(\b"

/-- src/parsers/en/ENCasualDateParser.hpp:15-18 -/
def casualDate : Text := txt!
  r"(\b)"
  r"(now|today|tonight|last\s*night|(?:tomorrow|tmr|yesterday)\s*"
  r"|tomorrow|tmr|yesterday)"
  r"(\b)"

/-- src/parsers/en/ENMonthNameMiddleEndianParser.hpp:31-58 -/
def middleEndian : Text := txt!
  r"(\b)"
  r"(?:"
  r"(?:on\s*?)?"
  r"(Sun(?:day)?|Mon(?:day)?|Tue(?:s(?:day)?)?|Wed(?:nesday)?|Thu(?:r(?:s(?:day)?)?)?|Fri(?:day)?|Sat(?:urday)?)\s*,?\s*)?"
  r"(Jan(?:uary|\.)?|Feb(?:ruary|\.)?|Mar(?:ch|\.)?|Apr(?:il|\.)?|May\.?|Jun(?:e|\.)?|"
  r"Jul(?:\.|y)?|Aug(?:ust|\.)?|Sep(?:\.|t(?:\.|ember)?)?|Oct(?:ober|\.)?|Nov(?:\.|ember)?|Dec(?:ember|\.)?)"
  r"(?:-|\/|\s*,?\s*)(([0-9]{1,2})"
  r"(?:st|nd|rd|th)?|"
  r"first|second|third|fourth|fifth|sixth|seventh|eighth|ninth|tenth|"
  r"eleventh|twelfth|thirteenth|fourteenth|fifteenth|sixteenth|seventeenth|eighteenth|nineteenth|twentieth|"
  r"twenty[ -]first|twenty[ -]second|twenty[ -]third|twenty[ -]fourth|twenty[ -]fifth|twenty[ -]sixth|twenty[ -]seventh|twenty[ -]eighth|twenty[ -]ninth|thirtieth"
  r"|thirty[ -]first"
  r")"
  r"(?!\s*"
  r"(?:am|pm))\s+"
  r"(?:"
  r"(?:to|\-)\s*"
  r"(([0-9]{1,2})"
  r"(?:st|nd|rd|th)?|"
  r"first|second|third|fourth|fifth|sixth|seventh|eighth|ninth|tenth|"
  r"eleventh|twelfth|thirteenth|fourteenth|fifteenth|sixteenth|seventheenth|eighteenth|nineteenth|twentieth|"
  r"twenty[ -]first|twenty[ -]second|twenty[ -]third|twenty[ -]fourth|twenty[ -]fifth|twenty[ -]sixth|twenty[ -]seventh|twenty[ -]eighth|twenty[ -]ninth|"
  r"thirtieth|thirty[ -]first)\s*"
  r")?"
  r"(?:"
  r"(?:-|\/|\s*,?\s*)(?:([0-9]{4})\s*(BE|AD|BC)?|([0-9]{1,4})\s*(AD|BC))\s+"
  r")?"
  r"(\b)(?!\:\d)"

/-- src/parsers/en/ENTimeLaterParser.hpp:15-23 -/
def timeLater : Text := txt!
  r"(\b)"
  r"((?:"
  r"((?:one|two|three|four|five|six|seven|eight|nine|ten|eleven|twelve)|"
  r"[0-9]+"
  r"|an?(?:\s*few)?|half(?:\s+an?)?"
  r#"")\s+"#
  r"(sec(?:onds?)?|min(?:ute)?s?|hours?|weeks?|days?|months?|years?)\\s*)+)"
  r"(?:later|after|from now|henceforth|forward|out)"
  r"(\b)"

/-- src/parsers/en/ENMonthNameParser.hpp:23-26 -/
def monthName : Text := txt!
  r"(^|\D\s+|[^\w\s])(Jan\.?|January|Feb\.?|February|Mar\.?|March|"
  r"Apr\.?|April|May\.?|Jun\\.?|June|Jul\.?|July|Aug\.?|August|Sep\.?|"
  r"Sept\.?|September|Oct\.?|October|Nov\.?|November|Dec\.?|December)\s*"
  r"(?:[,-]?\s*([0-9]{4})(\s*BE|AD|BC)?)?(?=[^\s\w]|\s+[^0-9]|\s+$|$)"

/-- src/parsers/en/ENTimeAgoFormatParser.hpp:14-17 -/
def timeAgo : Text := txt!
  r"(\b)(?:within\s*)?((?:((?:one|two|three|four|five|six|seven|eight|nine|"
  r"ten|eleven|twelve)|[0-9]+|an?(?:\s*few)?|half(?:\s*an?)?)\s*(sec(?:onds?)?|"
  r"min(?:ute)?s?|hours?|weeks?|days?|months?|years?)\\s*)+)(?:ago|before|earlier)"
  r"(\b)"

/-- src/parsers/en/ENTimeExpressionParser.hpp:25-31 -/
def timeExpr : Text := txt!
  r"(^|\s|T)(?:(?:at|from)\s*)?"
  r"?(\d{1,4}|noon|midnight)(?:(?:\.|\:|\：)(\d{1,2})(?:(?:\:|\：)"
  r"(\d{2})(?:\.(\d{1,6}))?)?)?(?:\s*(A\.M\.?|P\.M\.?|AM?|PM?|"
  r"O\W*CLOCK))?(?=\W|$)"
  r" ?((^|\s*)(\-|\–|\~|\〜|to|\?)\s*(\d{1,4})(?:(?:\.|\:|\：)"
  r"(\d{1,2})(?:(?:\.|\:|\：)(\d{1,2})(?:\.(\d{1,6}))?)?)?(?:\s*"
  r"(A\.M\.?|P\.M\.?|AM?|PM?|O\W*CLOCK))?(\b))?"

/-- src/parsers/en/ENISOFormatParser.hpp:26-29 -/
def iso : Text := txt!
  r"(\b)"
  r"([0-9]{4})\-([0-9]{1,2})\-([0-9]{1,2})(?:T([0-9]{1,2}):([0-9]{1,2})"
  r"(?::([0-9]{1,2})(?:\.(\d{1,4}))?)?(?:Z|([+-]\d{2}):?(\d{2})?)?)?"
  r"(\b)"

/-- src/parsers/en/ENUSHolidaysParser.hpp:13-19 -/
def holiday : Text := txt!
  r"(\b)"
  r"(Independence|President\'s|New\s*Year\'s(?:\s*eve)?|"
  r"Columbus|MLK|Martin\s*Luther\s*King\s*(?:Junior|Jr|Jnr)|"
  r"Thanksgiving|Memorial|Labor|Veteran(?:s|\\'s)|Christmas\\s*(?:eve)?|"
  r"black\s*Friday)\s+"
  r"(?:day)?"
  r"(\b)"

/-- src/parsers/en/ENWeekExperessionParser.hpp:13-17 -/
def week : Text := txt!
  r"(\b)"
  r"((?:last|next)\s+"
  r"(?:(\d+)|(\w{3,9}))?\s*"
  r"weeks?|this\s*week)"
  r"(\b)"

/-- src/parsers/en/ENRelativeDateFormatParser.hpp:19-22 -/
def relative : Text := txt!
  r"(\b)(this|next|last|past)\s*( (?:one|two|three|four|five|six|seven|"
  r"eight|nine|ten|eleven|twelve)|[0-9]+|few|half(?:\s*an?)?)?\s*(seconds?|"
  r"min(?:ute)?s?|hour(?:s)?|day(?:s)?|week(?:s)?|month(?:s)?|year(?:s)?)(?=\s*)"
  r"(\b)"

/-- src/refiners/ExtractTimeZoneAbbreviation.hpp:6 (`icase`) -/
def tzName : Text := txt! "^\\s*\\(?([A-Z]{2,4})\\)?(?=\\W|$)"

/-- src/refiners/en/ENMergeDateAndTimeRefiner.hpp:5 (`icase`) -/
def connector : Text := txt! "(T|at|on|of|,|-)?"

/-- src/refiners/en/ENMergeDateRangeRefiner.hpp:6 (no `icase`) -/
def rangeTo : Text := txt! r"\s*(and|to|through|\-)\s*"

/-- src/parsers/en/ENTimeExpressionParser.hpp:128 (no `icase`) -/
def toGuard : Text := txt! r"^\s*(\+|\-)\s*\d{3,4}$"

/-- src/parsers/en/ENCasualDateParser.hpp:42 (`icase`) -/
def lastNight : Text := txt! "last\\s*night"

/-- src/parsers/en/ENDeadlineFormatParser.hpp:64 (no `icase`), ENRelativeDateFormatParser.hpp:33 (`icase`) -/
def dwmy : Text := txt! "day|week|month|year"

/-- src/utils/utils.cpp:15 (no `icase`) -/
def collapse : Text := txt! "^ +| +$|( ) +"

/-- `INTEGER_WORDS_PATTERN`, src/utils/utils.hpp:190 with `keysToString`, utils.cpp:20-31: the keys in
alphabetical order (`std::map`), separated by `|` -/
def integerWordsPattern : Text := txt! "(?:eight|eleven|five|four|nine|one|seven|six|ten|three|twelve|two)"

/-- `TIME_UNIT`, src/utils/utils.hpp:192-193 (`icase`) -/
def timeUnit : Text :=
  txt!"(" ++ integerWordsPattern ++ txt!"|[0-9]+|an?(?:\\s*few)?|half(?:\\s*an?)?)\\s*" ++
  txt!"(sec(?:onds?)?|min(?:ute)?s?|hours?|weeks?|days?|months?|years?)\\s*"

end Chrono.Pat
