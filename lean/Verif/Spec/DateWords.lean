import Verif.Spec.Ordinary
/-!
# Specification vocabulary: texts without date words

Nothing here refers to the model.
-/
namespace Chrono.Spec
open Chrono

/-- Letter, digit or underscore. -/
def WordChar (c : Nat) : Prop := 65 ≤ c ∧ c ≤ 90 ∨ 97 ≤ c ∧ c ≤ 122 ∨ 48 ≤ c ∧ c ≤ 57 ∨ c = 95

/-- `w` stands in the text at the beginning of a word, or anywhere; at the end of a word, or anywhere. -/
def Occurs (atStart : Bool) (w : Text) (atEnd : Bool) (text : Text) : Prop :=
  ∃ a b, text = a ++ w ++ b ∧ (atStart = true → ∀ c, a.getLast? = some c → ¬ WordChar c) ∧
    (atEnd = true → ∀ c, b.head? = some c → ¬ WordChar c)

/-- `w` is a word of the text. -/
abbrev WholeWord (w text : Text) : Prop := Occurs true w true text

/-- A word of the text begins with `w`. -/
abbrev BeginsAWord (w text : Text) : Prop := Occurs true w false text

/-- A word of the text ends with `w`. -/
abbrev EndsAWord (w text : Text) : Prop := Occurs false w true text

/-- Parts of a day. -/
def partsOfDay : List Text := [txt!"morning", txt!"afternoon", txt!"evening", txt!"noon", txt!"night"]

/-- Words that name a time of day. -/
def clockWords : List Text := [txt!"noon", txt!"midnight"]

/-- Words that name a day by its distance from today. -/
def nearDays : List Text := [txt!"now", txt!"today", txt!"tonight", txt!"tomorrow", txt!"tmr", txt!"yesterday"]

/-- The names of the months, and their abbreviations (that of June is not read). -/
def monthForms : List Text :=
  [txt!"jan", txt!"january", txt!"feb", txt!"february", txt!"mar", txt!"march", txt!"apr", txt!"april", txt!"may", txt!"june", txt!"jul",
   txt!"july", txt!"aug", txt!"august", txt!"sep", txt!"sept", txt!"september", txt!"oct", txt!"october", txt!"nov", txt!"november",
   txt!"dec", txt!"december"]

/-- Words that begin the name of a holiday. -/
def holidayWords : List Text :=
  [txt!"independence", txt!"president's", txt!"columbus", txt!"mlk", txt!"thanksgiving", txt!"memorial", txt!"labor", txt!"veterans"]

/-- Units of time. -/
def unitWords : List Text :=
  [txt!"sec", txt!"secs", txt!"second", txt!"seconds", txt!"min", txt!"mins", txt!"minute", txt!"minutes", txt!"hr", txt!"hrs", txt!"hour",
   txt!"hours", txt!"day", txt!"days", txt!"wk", txt!"wks", txt!"week", txt!"weeks", txt!"month", txt!"months", txt!"yr", txt!"yrs",
   txt!"year", txt!"years"]

/-- Nothing like `next week` (in lower case). -/
def NoWeek (t : Text) : Prop :=
  (¬ WholeWord txt!"last" t ∧ ¬ WholeWord txt!"next" t ∧ ¬ BeginsAWord txt!"this" t) ∨ (¬ EndsAWord txt!"week" t ∧ ¬ EndsAWord txt!"weeks" t)

/-- Nothing like `in two days` (in lower case). -/
def NoDeadline (t : Text) : Prop :=
  (¬ WholeWord txt!"in" t ∧ ¬ WholeWord txt!"within" t) ∨ ∀ w ∈ unitWords, ¬ WholeWord w t

/-- The text names no date and no time, except perhaps by digits and by the words `except` (words are compared in lower case). -/
structure FewDateWords (except : List Text) (text : Text) : Prop where
  backslash : 92 ∉ text
  days : ∀ w ∈ nearDays, w ∉ except → ¬ WholeWord w (toLower text)
  parts : ∀ w ∈ partsOfDay, w ∉ except → ¬ WholeWord w (toLower text)
  thisPart : ∀ w ∈ partsOfDay, ¬ WholeWord (txt!"this" ++ w) (toLower text)
  lastNight : ¬ BeginsAWord txt!"last" (toLower text) ∨ ¬ WholeWord txt!"lastnight" (toLower text) ∧ ¬ WholeWord txt!"night" (toLower text)
  /-- No word begins with `noon` or `midnight`, and neither stands directly after a `t` or after `from`. -/
  clock : ∀ w ∈ clockWords, ¬ BeginsAWord w (toLower text) ∧ ¬ txt!"t" ++ w <:+: toLower text ∧ ¬ txt!"from" ++ w <:+: toLower text
  months : ∀ w ∈ monthForms, w ∉ except → ¬ WholeWord w (toLower text)
  /-- No day of a month is written with an ordinal, as in `december first`. -/
  dates : ∀ w m gap o d, monthWord w m = true → Gap gap → 1 ≤ d → d ≤ 31 → words o = ordinalName d → ¬ w ++ gap ++ o <:+: toLower text
  holidays : ∀ w ∈ holidayWords, w ∉ except → ¬ WholeWord w (toLower text)
  newYear : ¬ txt!"year's" <:+: toLower text
  luther : ¬ txt!"luther" <:+: toLower text
  blackFriday : ¬ BeginsAWord txt!"black" (toLower text) ∨ ¬ EndsAWord txt!"friday" (toLower text)
  weeks : txt!"week" ∉ except → NoWeek (toLower text)
  deadlines : txt!"in" ∉ except → NoDeadline (toLower text)

/-- The text names no date and no time, except perhaps by the words `except`. -/
structure NoDateWordsBut (except : List Text) (text : Text) : Prop extends FewDateWords except text where
  digits : NoDigits text

/-- The text names no date and no time. -/
abbrev NoDateWords (text : Text) : Prop := NoDateWordsBut [] text

/-- What stands between `p` and `s` is not a part of a longer word. -/
def StandsApart (p s : Text) : Prop := (∀ c, p.getLast? = some c → ¬ WordChar c) ∧ ∀ c, s.head? = some c → ¬ WordChar c

/-- The text (in lower case) ends with `at` or `from` and blanks, at the beginning of the text, after a blank or after a `t`. -/
def EndsWithAt (text : Text) : Prop :=
  ∃ a, ∃ w ∈ [txt!"at", txt!"from"], ∃ b, Blanks b ∧ toLower text = a ++ w ++ b ∧ ∀ c, a.getLast? = some c → Blank c ∨ c = 116

/-- The text ends with one of the words and blanks. -/
def EndsWithOneOf (ws : List Text) (text : Text) : Prop := ∃ a, ∃ w ∈ ws, ∃ g, Blanks g ∧ text = a ++ w ++ g

/-- The text begins with blanks and the word. -/
def BeginsWithWord (w text : Text) : Prop := ∃ g b, Blanks g ∧ text = g ++ w ++ b

/-- The text goes on with blanks and another word. -/
def GoesOnWithAWord (text : Text) : Prop := ∃ g c b, Blanks g ∧ g ≠ [] ∧ WordChar c ∧ text = g ++ c :: b

/-- The text goes on with am, pm or o'clock: blanks and one of their spellings, at the end of a word. -/
def SaysHalf (text : Text) : Prop :=
  ∃ g w r, Blanks g ∧ toLower text = g ++ w ++ r ∧ (∀ c, r.head? = some c → ¬ WordChar c) ∧
    (w ∈ [txt!"a", txt!"p", txt!"am", txt!"pm", txt!"a.m", txt!"p.m", txt!"a.m.", txt!"p.m."] ∨
      ∃ x, w = txt!"o" ++ x ++ txt!"clock" ∧ ∀ c ∈ x, ¬ WordChar c)

/-- How am, pm and o'clock are written. -/
def halves : List (Text × Option Bool) :=
  [(txt!"am", some false), (txt!"a.m.", some false), (txt!"pm", some true), (txt!"p.m.", some true), (txt!"o'clock", none)]

/-- What is written after a time in the text: blanks and one of the spellings of am (`some false`), pm (`some true`) and o'clock (`none`), or nothing. -/
def HalfWritten (sfx : Text) (ap : Option Bool) (after : Text) : Prop :=
  sfx = [] ∧ ap = none ∧ ¬ SaysHalf after ∨ ∃ b w, Blanks b ∧ (w, ap) ∈ halves ∧ sfx = b ++ w

/-- Nothing but the abbreviation of a time zone, perhaps in parentheses, is left of the text. -/
def OnlyAZone (text : Text) : Prop := ∃ abbr off, ZoneSuffix (toLower text) abbr ∧ ZoneOffset abbr off

/-- The text (in lower case) ends with the name of a month and blanks, commas or hyphens. -/
def EndsWithMonth (text : Text) : Prop := ∃ a w m gap, monthWord w m = true ∧ Gap gap ∧ toLower text = a ++ w ++ gap

end Chrono.Spec
