import Verif.Model.PatternAst
/-!
# Tables of `src/utils/utils.hpp` and the functions of `src/utils/utils.cpp`
-/
namespace Chrono

/-- Initial value of `utils::INTEGER_WORDS`, utils.hpp:53-66. -/
def integerWords : WordMap :=
  [(txt!"one", 1), (txt!"two", 2), (txt!"three", 3), (txt!"four", 4), (txt!"five", 5), (txt!"six", 6),
   (txt!"seven", 7), (txt!"eight", 8), (txt!"nine", 9), (txt!"ten", 10), (txt!"eleven", 11),
   (txt!"twelve", 12)]

/-- `utils::ORDINAL_WORDS`, utils.hpp:68-100. -/
def ordinalWords : WordMap :=
  [(txt!"first", 1), (txt!"second", 2), (txt!"third", 3), (txt!"fourth", 4), (txt!"fifth", 5),
   (txt!"sixth", 6), (txt!"seventh", 7), (txt!"eighth", 8), (txt!"ninth", 9), (txt!"tenth", 10),
   (txt!"eleventh", 11), (txt!"twelfth", 12), (txt!"thirteenth", 13), (txt!"fourteenth", 14),
   (txt!"fifteenth", 15), (txt!"sixteenth", 16), (txt!"seventeenth", 17), (txt!"eighteenth", 18),
   (txt!"nineteenth", 19), (txt!"twentieth", 20), (txt!"twenty first", 21), (txt!"twenty second", 22),
   (txt!"twenty third", 23), (txt!"twenty fourth", 24), (txt!"twenty fifth", 25),
   (txt!"twenty sixth", 26), (txt!"twenty seventh", 27), (txt!"twenty eighth", 28),
   (txt!"twenty ninth", 29), (txt!"thirtieth", 30), (txt!"thirty first", 31)]

/-- `utils::MONTH_CONSTANTS`, utils.hpp:103-116. (Lookups use `operator[]`; inserting the default 0 for an
absent key is not observable because every lookup of that map goes through `operator[]`.) -/
def monthConstants : WordMap :=
  [(txt!"january", 1), (txt!"jan", 1), (txt!"jan.", 1), (txt!"february", 2), (txt!"feb", 2), (txt!"feb.", 2),
   (txt!"march", 3), (txt!"mar", 3), (txt!"mar.", 3), (txt!"april", 4), (txt!"apr", 4), (txt!"apr.", 4),
   (txt!"may", 5), (txt!"june", 6), (txt!"jun", 6), (txt!"jun.", 6), (txt!"july", 7), (txt!"jul", 7),
   (txt!"jul.", 7), (txt!"august", 8), (txt!"aug", 8), (txt!"aug.", 8), (txt!"september", 9),
   (txt!"sep", 9), (txt!"sep.", 9), (txt!"sept", 9), (txt!"sept.", 9), (txt!"october", 10),
   (txt!"oct", 10), (txt!"oct.", 10), (txt!"november", 11), (txt!"nov", 11), (txt!"nov.", 11),
   (txt!"december", 12), (txt!"dec", 12), (txt!"dec.", 12)]

/-- `utils::WEEKDAY_OFFSET`, utils.hpp:118-126 (same remark). -/
def weekdayOffset : WordMap :=
  [(txt!"sunday", 0), (txt!"sun", 0), (txt!"monday", 1), (txt!"mon", 1), (txt!"tuesday", 2),
   (txt!"tue", 2), (txt!"tues", 2), (txt!"wednesday", 3), (txt!"wed", 3), (txt!"thursday", 4),
   (txt!"thur", 4), (txt!"thurs", 4), (txt!"thu", 4), (txt!"friday", 5), (txt!"fri", 5),
   (txt!"saturday", 6), (txt!"sat", 6)]

/-- `utils::DEFAULT_TIMEZONE_ABBR_MAP`, utils.hpp:128-168: minutes east of UTC. -/
def tzTable : List (Text × Int) := [
  (txt!"ACDT", 630), (txt!"ACST", 570), (txt!"ADT", -180), (txt!"AEDT", 660), (txt!"AEST", 600),
  (txt!"AFT", 270), (txt!"AKDT", -480), (txt!"AKST", -540), (txt!"ALMT", 360), (txt!"AMST", -180),
  (txt!"AMT", -240), (txt!"ANAST", 720), (txt!"ANAT", 720), (txt!"AQTT", 300), (txt!"ART", -180),
  (txt!"AST", -240), (txt!"AWDT", 540), (txt!"AWST", 480), (txt!"AZOST", 0), (txt!"AZOT", -60),
  (txt!"AZST", 300), (txt!"AZT", 240), (txt!"BNT", 480), (txt!"BOT", -240), (txt!"BRST", -120),
  (txt!"BRT", -180), (txt!"BST", 60), (txt!"BTT", 360), (txt!"CAST", 480), (txt!"CAT", 120),
  (txt!"CCT", 390), (txt!"CDT", -300), (txt!"CEST", 120), (txt!"CET", 60), (txt!"CHADT", 825),
  (txt!"CHAST", 765), (txt!"CKT", -600), (txt!"CLST", -180), (txt!"CLT", -240), (txt!"COT", -300),
  (txt!"CST", -360), (txt!"CVT", -60), (txt!"CXT", 420), (txt!"ChST", 600), (txt!"DAVT", 420),
  (txt!"EASST", -300), (txt!"EAST", -360), (txt!"EAT", 180), (txt!"ECT", -300), (txt!"EDT", -240),
  (txt!"EEST", 180), (txt!"EET", 120), (txt!"EGST", 0), (txt!"EGT", -60), (txt!"EST", -300),
  (txt!"ET", -300), (txt!"FJST", 780), (txt!"FJT", 720), (txt!"FKST", -180), (txt!"FKT", -240),
  (txt!"FNT", -120), (txt!"GALT", -360), (txt!"GAMT", -540), (txt!"GET", 240), (txt!"GFT", -180),
  (txt!"GILT", 720), (txt!"GMT", 0), (txt!"GST", 240), (txt!"GYT", -240), (txt!"HAA", -180),
  (txt!"HAC", -300), (txt!"HADT", -540), (txt!"HAE", -240), (txt!"HAP", -420), (txt!"HAR", -360),
  (txt!"HAST", -600), (txt!"HAT", -90), (txt!"HAY", -480), (txt!"HKT", 480), (txt!"HLV", -210),
  (txt!"HNA", -240), (txt!"HNC", -360), (txt!"HNE", -300), (txt!"HNP", -480), (txt!"HNR", -420),
  (txt!"HNT", -150), (txt!"HNY", -540), (txt!"HOVT", 420), (txt!"ICT", 420), (txt!"IDT", 180),
  (txt!"IOT", 360), (txt!"IRDT", 270), (txt!"IRKST", 540), (txt!"IRKT", 540), (txt!"IRST", 210),
  (txt!"IST", 330), (txt!"JST", 540), (txt!"KGT", 360), (txt!"KRAST", 480), (txt!"KRAT", 480),
  (txt!"KST", 540), (txt!"KUYT", 240), (txt!"LHDT", 660), (txt!"LHST", 630), (txt!"LINT", 840),
  (txt!"MAGST", 720), (txt!"MAGT", 720), (txt!"MART", -510), (txt!"MAWT", 300), (txt!"MDT", -360),
  (txt!"MESZ", 120), (txt!"MEZ", 60), (txt!"MHT", 720), (txt!"MMT", 390), (txt!"MSD", 240),
  (txt!"MSK", 240), (txt!"MST", -420), (txt!"MUT", 240), (txt!"MVT", 300), (txt!"MYT", 480),
  (txt!"NCT", 660), (txt!"NDT", -90), (txt!"NFT", 690), (txt!"NOVST", 420), (txt!"NOVT", 360),
  (txt!"NPT", 345), (txt!"NST", -150), (txt!"NUT", -660), (txt!"NZDT", 780), (txt!"NZST", 720),
  (txt!"OMSST", 420), (txt!"OMST", 420), (txt!"PDT", -420), (txt!"PET", -300), (txt!"PETST", 720),
  (txt!"PETT", 720), (txt!"PGT", 600), (txt!"PHOT", 780), (txt!"PHT", 480), (txt!"PKT", 300),
  (txt!"PMDT", -120), (txt!"PMST", -180), (txt!"PONT", 660), (txt!"PST", -480), (txt!"PT", -480),
  (txt!"PWT", 540), (txt!"PYST", -180), (txt!"PYT", -240), (txt!"RET", 240), (txt!"SAMT", 240),
  (txt!"SAST", 120), (txt!"SBT", 660), (txt!"SCT", 240), (txt!"SGT", 480), (txt!"SRT", -180),
  (txt!"SST", -660), (txt!"TAHT", -600), (txt!"TFT", 300), (txt!"TJT", 300), (txt!"TKT", 780),
  (txt!"TLT", 540), (txt!"TMT", 300), (txt!"TVT", 720), (txt!"ULAT", 480), (txt!"UTC", 0),
  (txt!"UYST", -120), (txt!"UYT", -180), (txt!"UZT", 300), (txt!"VET", -210), (txt!"VLAST", 660),
  (txt!"VLAT", 660), (txt!"VUT", 660), (txt!"WAST", 120), (txt!"WAT", 60), (txt!"WEST", 60),
  (txt!"WESZ", 60), (txt!"WET", 0), (txt!"WEZ", 0), (txt!"WFT", 720), (txt!"WGST", -120),
  (txt!"WGT", -180), (txt!"WIB", 420), (txt!"WIT", 540), (txt!"WITA", 480), (txt!"WST", 780),
  (txt!"WT", 0), (txt!"YAKST", 600), (txt!"YAKT", 600), (txt!"YAPT", 600), (txt!"YEKST", 360),
  (txt!"YEKT", 360)]

def tzLookup : List (Text × Int) → Text → Option Int
  | [], _ => none
  | (k, v) :: r, s => if k = s then some v else tzLookup r s

/-- Run `std::regex_search(t, std::regex(p, flags))` for its boolean result; an uncompilable pattern throws. -/
def searches (ic : Bool) (p t : Text) : Out Bool :=
  match compile ic p with
  | none => .exn .regexError
  | some r => .ok (r.search t).isSome

/-- `std::regex_replace(arg, std::regex("-"), " ")`, utils.cpp:14. -/
def dashToSpace (t : Text) : Text := t.map (fun c => if c == 45 then 32 else c)

/-- `std::regex_replace(value, std::regex("^ +| +$|( ) +"), "$1")`, utils.cpp:15. -/
def collapseBlanks (t : Text) : Text :=
  Ast.collapse.replaceAll (fun mt => mt.str 1) (t.length + 1) none t

/-- `utils::argToOrdinalValue`, utils.cpp:13-18. -/
def argToOrdinalValue (arg : Text) : Nat := ordinalWords.get (toLower (collapseBlanks (dashToSpace arg)))

/-- The `std::map<std::string,float>` filled by `collectDateTimeFragment`: the seven possible keys. -/
structure Fragments where
  day : Option FNum := none
  hour : Option FNum := none
  minute : Option FNum := none
  month : Option FNum := none
  second : Option FNum := none
  week : Option FNum := none
  year : Option FNum := none
  deriving DecidableEq, Repr

/-- `fragments[key] > 0`. -/
def fpos : Option FNum → Bool
  | some (.int n) => decide (0 < n)
  | some .half => true
  | none => false

/-- `utils::collectDateTimeFragment`, utils.cpp:48-81. The `INTEGER_WORDS` table is the copy of utils.cpp's
translation unit (the header defines it `static`), which nobody modifies. `regex_search` for a plain word is
`contains` on the lower-cased element (`icase`). -/
def collectFragment (mt : Match) (f : Fragments) : Out Fragments := do
  let num := toLower (mt.str 1)
  let v : FNum ←
    match integerWords.lookup num with
    | some n => pure (FNum.int n)
    | none =>
      if num = txt!"a" ∨ num = txt!"an" then pure (FNum.int 1)
      else if contains txt!"few" num then pure (FNum.int 3)
      else if contains txt!"half" num then pure FNum.half
      else do
        let n ← stoi num
        pure (FNum.ofNat n.toNat)   -- the group holds digits only: `n ≥ 0`
  let el := toLower (mt.str 2)
  if contains txt!"hour" el then return { f with hour := some v }
  else if contains txt!"min" el then return { f with minute := some v }
  else if contains txt!"sec" el then return { f with second := some v }
  else if contains txt!"week" el then return { f with week := some v }
  else if contains txt!"day" el then return { f with day := some v }
  else if contains txt!"month" el then return { f with month := some v }
  else if contains txt!"year" el then return { f with year := some v }
  else return f

/-- `utils::extractDateTimeUnitFragments`, utils.cpp:33-46: note that the remaining text drops the first
`match[0].length()` characters, not everything up to the end of the match. -/
def extractFragments (r : Re) : Nat → Text → Fragments → Out Fragments
  | 0, _, _ => .diverge
  | n + 1, t, f =>
    match r.search t with
    | none => .ok f
    | some mt => do
      let f' ← collectFragment mt f
      let t' ← substr t mt.length
      extractFragments r n t' f'

end Chrono
