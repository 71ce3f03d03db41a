NOTES.update({
'C03':('partial','The property is false of the code (isCertain reads key "minute"); proved: the answer is always false, plus a witness history refuting the property.'),
'C07':('partial','False of the code in general; proved for histories that do not read the tag before setting it, and the failure otherwise.'),
'C10':('partial','False of the code (the end is never shifted); proved: exactly what is printed, plus a refuting witness.'),
'C12':('partial','False of the code; proved: the exact condition for the outcome, and that no valid date with its real weekday is accepted.'),
'C45':('partial','False of the code; proved: witness, and the chain-of-overlaps version.'),
'C49':('partial','False of the code (the connector pattern matches everywhere); proved: every such pair is merged, plus a witness.'),
'C50':('proved','Both clauses and the known defect (the second element of the last pair is kept) are proved.'),
'C52':('partial','False of the code; proved: exactly what is returned instead, the witness, and survival of the first result.'),
})
NOTES.update({
'C56':('partial','False for part of the README phrases; proved what each of them prints for every reference time.'),
})
NOTES.update({
'C24':('partial','False of the code when midnight is crossed and for N of 2^24 or more (witnesses proved); proved: time of day always right below 2^24, whole instant right when midnight is not crossed.'),
'C25':('partial','False of the code; proved: for every N the result is the reference time itself, plus a witness.'),
})
NOTES.update({
'C30':('partial','False of the code in the cases listed in the statement (witnesses proved); proved otherwise, on every text and for every spelling.'),
'C31':('partial','False of the code in the cases listed in the statement (witnesses proved); proved otherwise.'),
'C57':('partial','False of the code; proved: families of texts on which the program dies, for every reference time, and that every ordinary text (Spec/Ordinary.lean) is answered; each condition there is needed (witnesses).'),
})
NOTES.update({
'C78':('partial','Proved for every text without digits outside four listed situations; in each of these it is false and refuted with a witness.'),
'C77':('partial','Proved for ISO dates and today with every clock time of C33; refuted for tomorrow, yesterday, tmr and for holidays (the time is lost, for every holiday, time and reference).'),
})
NOTES.update({
'C80':('partial','False of the code except in zones of offset 0 (refuted for every time, zone and reference); proved what is printed instead.'),
})
NOTES.update({
'C17':('partial','False of the code (the pattern does not compile); proved: nothing is ever recognised, on every text.'),
'C18':('partial','False of the code (the patterns ask for a backslash); proved: nothing is recognised in any text without a backslash, plus the README phrases as witnesses.'),
'C19':('partial','False of the code (the pattern asks for a backslash); proved: no result of any text without a backslash is Christmas, plus witnesses.'),
'C20':('partial','False of the code (the relative parser adds to a global table); proved: eleven parsers ignore all history, the others see it only through added words that occur in the text, and a refuting history.'),
'C28':('partial','False of the code in the case named in the statement (refuted); proved for every other offset.'),
'C29':('partial','False of the code (impossible dates are accepted); proved: printable exactly when the written date exists, plus refuting witnesses.'),
'C33':('partial','False of the code for HH:MM:SS with a minute from 60 on (refuted); proved otherwise on every text without range separators and for every written clock time.'),
'C34':('partial','False of the code (hours up to 36); proved: the exact bounds on every text, plus witnesses.'),
'C35':('partial','False of the code (an uninitialised and a dangling read); proved: exactly which ranges read them, on every text.'),
'C37':('partial','False of the code (two days after); proved: exactly which day it gives, for every year.'),
'C59':('partial','First half false of the code (untagged date deadlines, week parser); proved: no foreign tag ever, own tag always for six parsers.'),
'C66':('partial','False of the code in the cases named in the statement (refuted); proved otherwise, for every month, days and reference time.'),
'C67':('partial','Proved on every text; for phrases except 28 and 29 February, where the nearest year is wrong (C30).'),
'C68':('partial','False of the code in the cases named in the statement (refuted); proved otherwise.'),
'C70':('partial','False of the code in the cases named in the statement (refuted); proved otherwise for every time and reference.'),
'C71':('partial','False of the code (refuted for every year); proved what is printed instead.'),
'C74':('partial','False of the code in the cases named in the statement (refuted); proved otherwise.'),
})
NOTES.update({
'C99':('partial','False of the code when only blanks stand between the range word and the second month (refuted by a witness and for every such text); proved for every other place of the range word, and for texts without one.'),
})
