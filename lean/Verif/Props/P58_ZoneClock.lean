import Verif.Props.P54_WordAndTime
import Verif.Props.P52_ZoneNames
/-!
# C80: a clock time followed by a time zone
-/
namespace Chrono.Props
open Chrono Chrono.Spec Chrono.Boost

/-- If one mention, at the start of the text, is all that any parser returns, it alone reaches the other refiners. -/
theorem run_one {rt : Rt} (hrt : Rt.Defined rt) {sort : List PResult → List PResult} (hs : Sorts sort) {text : Text}
    (hlen : text.length < 4294967296) {ref : PTime} {a : PResult} (h0 : a.index = 0)
    (ha : ∃ P ∈ mainParsers, ∃ rs, ParserReturns rt ref text P rs ∧ a ∈ rs)
    (hall : ∀ P ∈ mainParsers, ∃ rs, ParserReturns rt ref text P rs ∧ ∀ x ∈ rs, x = a) :
    mainRun rt sort text ref = (do
      let rs ← tzRefine [a] (toLower text)
      let rs ← mdtRefine rs (toLower text)
      let rs ← mdrRefine rs (toLower text)
      printResult rs) := by
  obtain ⟨rss, h4⟩ := forall₂_of_forall (fun P hP => (hall P hP).imp fun _ h => h.1)
  obtain ⟨g, hg⟩ := runParsers_main.2 ⟨rss, h4, rfl⟩
  obtain ⟨hp, hso⟩ := hs rss.flatten
  have hne := returned_nonEmpty hrt.stale hrt.stops hlen h4
  have ma := (mem_flatten_of_returns h4).2 ha
  have hall' : ∀ x ∈ sort rss.flatten, x = a := by
    intro x hx
    obtain ⟨P, hP, rs, h1, h2⟩ := (mem_flatten_of_returns h4).1 (hp.mem_iff.1 hx)
    obtain ⟨rs', h3, h5⟩ := hall P hP
    rw [parserReturns_unique h1 h3] at h2
    exact h5 x h2
  rw [mainRun_eq hg]
  have ho : overlapRefine (sort rss.flatten) = [a] := by
    refine overlapRefine_whole hso (hp.mem_iff.2 ma) (n := a.textLength) (fun x hx => ?_) h0 rfl fun x hx => .inl (hall' x hx)
    rw [hall' x hx]
    exact ⟨(hne a ma).1, by unfold stop; omega⟩
  unfold runRefiners textAfter
  simp only [ho]
  cases tzRefine [a] (toLower text) <;> simp
  rename_i rs
  cases mdtRefine rs (toLower text) <;> simp

/-- The time-expression parser leaves the time zone open. -/
theorem timeExpr_noOffset {rt : Rt} {g : Globals} {tx : Text} {mt : Match} {ref : PTime} {idx : Nat} {res : PResult}
    (h : timeExprExtract rt g tx mt ref idx = .ok res) (h7 : mt.str 7 = []) : res.startDate.certain .tzoffset = false := by
  unfold timeExprExtract at h
  obtain ⟨T, -, h⟩ := Out.bind_eq_ok.1 h
  obtain ⟨b, -, h⟩ := Out.bind_eq_ok.1 h
  have e0 : (PResult.mk' ref idx T).startDate.certain .tzoffset = false := by simp [Comps.certain, Comps.certainKey]
  cases b
  · simp only [Bool.false_eq_true, if_false] at h
    obtain ⟨o, -, h⟩ := Out.bind_eq_ok.1 h
    cases o with
    | none => simp only [Out.pure_eq, Out.ok.injEq] at h; rw [← h]; exact e0
    | some s =>
      simp only at h
      have e1 : (if (mt.str 4).isEmpty = true then PResult.mk' ref idx T else (PResult.mk' ref idx T).onStart (·.set .sec s)).startDate.certain .tzoffset = false := by
        split
        · exact e0
        · simp [Comps.certain, Comps.certainKey]
      generalize (if (mt.str 4).isEmpty = true then PResult.mk' ref idx T else (PResult.mk' ref idx T).onStart (·.set .sec s)) = r at h e1
      obtain ⟨hh, -, h⟩ := Out.bind_eq_ok.1 h
      obtain ⟨hm, -, h⟩ := Out.bind_eq_ok.1 h
      have hfin : ∀ {p : Prop} [Decidable p] {y : Out PResult}, (if p then pure r else y) = .ok res → res = r ∨ y = .ok res := by
        intro p _ y hy
        split at hy
        · simp only [Out.pure_eq, Out.ok.injEq] at hy; exact .inl hy.symm
        · exact .inr hy
      rcases hfin h with rfl | h
      · exact e1
      rcases hfin h with rfl | h
      · exact e1
      rcases hfin h with rfl | h
      · exact e1
      rw [h7] at h
      simp only [List.isEmpty_nil, if_true] at h
      obtain ⟨w, hw, h⟩ := Out.bind_eq_ok.1 h
      simp only [Out.pure_eq, Out.ok.injEq] at h
      subst h
      unfold setStart at hw
      obtain ⟨d, -, hw⟩ := Out.bind_eq_ok.1 hw
      obtain ⟨m, -, hw⟩ := Out.bind_eq_ok.1 hw
      obtain ⟨y, -, hw⟩ := Out.bind_eq_ok.1 hw
      simp only [Out.pure_eq, Out.ok.injEq] at hw
      rw [← hw]
      simpa [Comps.certain, Comps.certainKey] using e1
  · simp only [if_true, Out.pure_eq, Out.ok.injEq] at h
    rw [← h]; exact e0

theorem silent_of {i j : Nat} {t : Text} {P : Parser} (ho : othersSilent i t = true) (hj : mainParsers[j]? = some P) (hji : j ≠ i) : silent P t = true := by
  have hj12 : j < 12 := (List.getElem?_eq_some_iff.1 hj).1
  have h1 := List.all_eq_true.1 ho j (by simp [hj12])
  rw [mainPatterns_get, hj] at h1
  simp only [Option.bind_some, Bool.or_eq_true, beq_iff_eq, hji, false_or] at h1
  unfold silent
  revert h1
  cases P.pattern <;> simp

/-- A result with a zone and without an end prints its start plus the offset. -/
theorem prints_shifted {r : PResult} {t u : DateTime} {off : Int} (ht : t.Valid) (hu : u.Valid) (hr : Reads r.startDate t)
    (hoff : r.startDate.get .tzoffset = off) (hshift : instant u = instant t + 60 * off) (htz : r.getTag .extractTZ = true) (he : r.hasEnd = false) :
    r.toDate = .ok u.format := by
  obtain ⟨T, hT, hus⟩ := date_of_reads hr ht
  have hadd : (T.addMinutes off).us = instant u * 1000000 + 0 := by
    unfold PTime.addMinutes PTime.addSeconds
    rw [hshift, hus]; ring
  have hs := toSimpleString_instant hu _ 0 (by decide) (by decide) hadd
  unfold PResult.toDate
  rw [hT]
  simp [htz, hoff, hs, he]

/-- The best known time zones. -/
def famousZones : List (Text × Meridian) :=
  [(txt!"UTC", false, 0, 0), (txt!"GMT", false, 0, 0), (txt!"WET", false, 0, 0), (txt!"CET", false, 1, 0), (txt!"CEST", false, 2, 0), (txt!"EET", false, 2, 0),
   (txt!"EST", true, 5, 0), (txt!"EDT", true, 4, 0), (txt!"CDT", true, 5, 0), (txt!"MST", true, 7, 0), (txt!"MDT", true, 6, 0), (txt!"PST", true, 8, 0),
   (txt!"PDT", true, 7, 0), (txt!"IST", false, 5, 30), (txt!"JST", false, 9, 0), (txt!"KST", false, 9, 0)]

theorem famous_usual : ∀ z ∈ famousZones, (toUpper (toLower z.1), z.2) ∈ usualZones ∧ (z.2.1 = false ∨ z.2.2.2 = 0) ∧ toLower (toLower z.1) = toLower z.1 ∧
    2 ≤ (toLower z.1).length ∧ (toLower z.1).length ≤ 4 ∧ (∀ c ∈ toLower z.1, Letter c) ∧ z.2.minutes ≤ 840 ∧ -720 ≤ z.2.minutes := by decide +kernel

/-- A clock time, a blank, an abbreviation: `9:30 pm est`. -/
def zoneClockText (short : Bool) (h : Nat) (t : Tail) (sfx abbr : Text) : Text := clockText short h t sfx ++ (txt!" " ++ abbr)

def zoneClockCheck (short : Bool) (t : Tail) (sfx abbr : Text) : Bool :=
  let clock := clockText short 11 t sfx
  let rep := clock ++ (txt!" " ++ abbr)
  checkStep Ast.timeExpr (rep.drop 0) 0 (clock.length + 1) (clockSpans short t sfx) &&
  (Ast.timeExpr.search (rep.drop (clock.length + 1))).isNone && decide (rep.length < 100)

/-- The shape of all these texts: digits and colons, blanks, letters of am and pm, and the abbreviation. -/
def zoneSlots (abbr : Text) : List Slot := [⟨txt!"0123456789:", true⟩] ++ ([⟨txt!" ", true⟩] ++ ([⟨txt!"amp", true⟩] ++ fixed (txt!" " ++ abbr)))

/-- No other parser finds anything in texts of that shape. -/
def zoneOthers (abbr : Text) : Bool :=
  (List.range 12).all fun j => j == 8 || match (mainPatterns[j]?).join with | none => true | some r => r.nowhere (zoneSlots abbr)

theorem zone_others {abbr t : Text} (h : zoneOthers abbr = true) (hi : Inst (zoneSlots abbr) t) : othersSilent 8 t = true := by
  unfold zoneOthers at h
  unfold othersSilent
  rw [List.all_eq_true] at *
  intro j hj
  have := h j hj
  rw [Bool.or_eq_true] at *
  refine this.imp id fun h => ?_
  cases hr : (mainPatterns[j]?).join with
  | none => rfl
  | some r =>
    rw [hr] at h
    simp only
    rw [Re.nowhere_sound h hi]
    rfl

theorem zone_inst {short : Bool} {h : Nat} {t : Tail} {s : Text × Option Bool} (hs : s ∈ someSuffixes) (abbr : Text) :
    Inst (zoneSlots abbr) (zoneClockText short h t s.1 abbr) := by
  have hd : ∀ n, dig n ∈ txt!"0123456789:" := by
    intro n
    have h1 : dig n = 48 + n % 10 := by unfold dig; omega
    have := Nat.mod_lt n (show 10 > 0 by decide)
    rw [h1]
    generalize n % 10 = k at *
    interval_cases k <;> decide
  have ht : ∀ n, ∀ c ∈ two n, c ∈ txt!"0123456789:" := by
    intro n c hc
    simp only [two, List.mem_cons, List.not_mem_nil, or_false] at hc
    rcases hc with rfl | rfl <;> exact hd _
  have h1 : ∀ c ∈ hourText short h ++ t.text, c ∈ txt!"0123456789:" := by
    intro c hc
    rw [List.mem_append] at hc
    rcases hc with hc | hc
    · cases short
      · exact ht _ _ hc
      · simp only [hourText, if_true, List.mem_cons, List.not_mem_nil, or_false] at hc
        rw [hc]; exact hd _
    · cases t with
      | none => cases hc
      | minutes mi =>
        simp only [Tail.text, List.mem_append] at hc
        rcases hc with hc | hc
        · rw [List.mem_singleton.1 hc]; decide
        · exact ht _ _ hc
      | seconds mi s =>
        simp only [Tail.text, List.mem_append] at hc
        rcases hc with ((hc | hc) | hc) | hc
        · rw [List.mem_singleton.1 hc]; decide
        · exact ht _ _ hc
        · rw [List.mem_singleton.1 hc]; decide
        · exact ht _ _ hc
  obtain ⟨b, l, e, hb, hl⟩ : ∃ b l, s.1 = b ++ l ∧ (∀ c ∈ b, c ∈ txt!" ") ∧ ∀ c ∈ l, c ∈ txt!"amp" := by
    simp only [someSuffixes, List.mem_cons, List.not_mem_nil, or_false] at hs
    rcases hs with rfl | rfl | rfl
    · exact ⟨[], [], by decide, by decide, by decide⟩
    · exact ⟨txt!" ", txt!"am", by decide, by decide, by decide⟩
    · exact ⟨txt!" ", txt!"pm", by decide, by decide, by decide⟩
  unfold zoneClockText clockText zoneSlots
  rw [e, show hourText short h ++ t.text ++ (b ++ l) ++ (txt!" " ++ abbr) = (hourText short h ++ t.text) ++ (b ++ (l ++ (txt!" " ++ abbr))) by simp]
  exact (Inst.run h1).append ((Inst.run hb).append ((Inst.run hl).append (Inst.fixed _)))

def zoneClockChecks (z : Text × Meridian) : Bool :=
  zoneOthers (toLower z.1) &&
  [true, false].all fun short => [Tail.none, .minutes 11, .seconds 11 11].all fun t => someSuffixes.all fun s => zoneClockCheck short t s.1 (toLower z.1)

theorem zone_checks1 : ∀ z ∈ famousZones.take 4, zoneClockChecks z = true := by decide +kernel
theorem zone_checks2 : ∀ z ∈ (famousZones.drop 4).take 4, zoneClockChecks z = true := by decide +kernel
theorem zone_checks3 : ∀ z ∈ (famousZones.drop 8).take 4, zoneClockChecks z = true := by decide +kernel
theorem zone_checks4 : ∀ z ∈ (famousZones.drop 12).take 4, zoneClockChecks z = true := by decide +kernel

theorem zone_checks : ∀ z ∈ famousZones, zoneClockChecks z = true := by
  intro z hz
  have : z ∈ famousZones.take 4 ++ ((famousZones.drop 4).take 4 ++ ((famousZones.drop 8).take 4 ++ (famousZones.drop 12).take 4)) := hz
  simp only [List.mem_append] at this
  rcases this with h | h | h | h
  · exact zone_checks1 z h
  · exact zone_checks2 z h
  · exact zone_checks3 z h
  · exact zone_checks4 z h

/-- What the time-expression parser makes of it. -/
theorem zoneClock_found {rt : Rt} {g : Globals} {ref : PTime} {x : DateTime} (hx : RefReads ref x) {short : Bool} {h : Nat} {t : Tail}
    {s : Text × Option Bool} (hsf : s ∈ someSuffixes) (hh : h ≤ 24) (h9 : short = true → h ≤ 9) (h12 : s.1 ≠ [] → h ≤ 12) (hmi : t.minute < 60)
    (hsec : t.second < 60) {abbr T : Text} (hT : T = zoneClockText short h t s.1 abbr) {mt : Match} (u2 : mt.start = 0)
    (u4 : mt.str 0 = slice T 0 ((clockText short h t s.1).length + 1))
    (u5 : ∀ x ∈ clockSpans short t.ones s.1, x.1 ≠ 0 → mt.str x.1 = spanText T x.2) :
    ∃ res, timeExprExtract rt g T mt ref 0 = .ok res ∧ res.index = 0 ∧
      res.text = clockText short h t s.1 ++ txt!" " ∧
      DateIs res.startDate x.date ∧ TimeIs res.startDate (hour24 h s.2) t.minute t.second ∧ res.hasEnd = false ∧
      res.getTag .timeExpression = true ∧ res.startDate.certain .tzoffset = false := by
  have hsf' : s ∈ suffixes := by
    simp only [someSuffixes, List.mem_cons, List.not_mem_nil, or_false] at hsf
    rcases hsf with rfl | rfl | rfl <;> decide
  have hg : ∀ n o, (n, o) ∈ clockSpans short t.ones s.1 → n ≠ 0 → mt.str n = spanText T o := fun n o hm hn => u5 (n, o) hm hn
  rw [hT] at hg u4
  have g1 : mt.str 1 = [] := hg 1 (some (0, 0)) (by simp [clockSpans]) (by simp)
  have g2 : mt.str 2 = hourText short h := by
    rw [hg 2 (some (0, hourSpan short)) (by simp [clockSpans]) (by simp)]
    cases short <;> cases t <;> rfl
  have g3 : mt.str 3 = (match t with | .none => [] | .minutes mi => two mi | .seconds mi _ => two mi) := by
    cases t with
    | none => exact hg 3 none (by simp [clockSpans, Tail.ones]) (by decide)
    | minutes mi =>
      rw [hg 3 (some (hourSpan short + 1, hourSpan short + 3)) (by simp [clockSpans, Tail.ones]) (by simp)]
      cases short <;> rfl
    | seconds mi s =>
      rw [hg 3 (some (hourSpan short + 1, hourSpan short + 3)) (by simp [clockSpans, Tail.ones]) (by simp)]
      cases short <;> rfl
  have g4 : mt.str 4 = (match t with | .seconds _ s => two s | _ => []) := by
    cases t with
    | none => exact hg 4 none (by simp [clockSpans, Tail.ones]) (by decide)
    | minutes mi => exact hg 4 none (by simp [clockSpans, Tail.ones]) (by decide)
    | seconds mi s =>
      rw [hg 4 (some (hourSpan short + 4, hourSpan short + 6)) (by simp [clockSpans, Tail.ones]) (by simp)]
      cases short <;> rfl
  have g6 : mt.str 6 = (match s.1 with | 32 :: w => w | w => w) := by
    rw [hg 6 _ (by
      simp only [clockSpans, List.mem_cons, Prod.mk.injEq, List.not_mem_nil, or_false]
      exact .inr (.inr (.inr (.inr (.inl ⟨trivial, rfl⟩))))) (by simp)]
    simp only [someSuffixes, List.mem_cons, List.not_mem_nil, or_false] at hsf
    rcases hsf with rfl | rfl | rfl <;> cases short <;> cases t <;> rfl
  have g7 : mt.str 7 = [] := hg 7 none (by simp [clockSpans]) (by decide)
  have hb : h < (if short then 10 else 100) := by
    cases short
    · simp; omega
    · simp; have := h9 rfl; omega
  obtain ⟨res, he, e1, e2, e3, e4, e5, e6, e7, e8⟩ := clock_extract (rt := rt) (g := g) (tx := T) (idx := 0)
    (h := h) (mi := t.minute) (s := t.second) (k := hour24 h s.2) hx u2 g1 (by rw [g2]; exact hourOf_text hb)
    (by rw [g3]; cases t with
      | none => exact .inl ⟨rfl, rfl, by omega⟩
      | minutes mi => exact .inr ⟨two_ne _, stoi_two (by simp [Tail.minute] at hmi; omega)⟩
      | seconds mi s => exact .inr ⟨two_ne _, stoi_two (by simp [Tail.minute] at hmi; omega)⟩)
    (by rw [g4]; cases t with
      | none => exact .inl ⟨rfl, rfl⟩
      | minutes mi => exact .inl ⟨rfl, rfl⟩
      | seconds mi s => exact .inr ⟨two_ne _, stoi_two (by simp [Tail.second] at hsec; omega)⟩)
    hh hmi hsec
    (suffix_hour hsf' h12 g6)
    g7
  refine ⟨res, he, e1, ?_, e3, e4, e5, e8, timeExpr_noOffset he g7⟩
  rw [e2, u4]
  unfold zoneClockText slice
  rw [List.drop_zero, Nat.sub_zero, ← List.append_assoc, List.take_left' (by simp)]

/-- **C80 (what is printed).** For every reference time, every written clock time (with or without am and pm) and each of the best known time zones, a
text such as `9:30 pm est` prints the time on the reference date *plus* the offset of the zone (west is negative). -/
theorem c80_offset_is_added_partial (rt : Rt) (hrt : Rt.Defined rt) (sort : List PResult → List PResult) (hs : Sorts sort)
    (ref : PTime) (x : DateTime) (hx : RefReads ref x) (z : Text × Meridian) (hz : z ∈ famousZones)
    (short : Bool) (h : Nat) (t : Tail) (s : Text × Option Bool) (hsf : s ∈ someSuffixes)
    (hh : h < 24) (h9 : short = true → h ≤ 9) (h12 : s.1 ≠ [] → h ≤ 12) (hmi : t.minute < 60) (hsec : t.second < 60)
    (u : DateTime) (hu : u.Valid)
    (hshift : instant u = instant ⟨x.year, x.month, x.day, hour24 h s.2, t.minute, t.second⟩ + 60 * z.2.minutes) :
    mainRun rt sort (clockText short h t s.1 ++ (txt!" " ++ toLower z.1)) ref = .ok (foundLine ++ u.format) := by
  obtain ⟨z1, z2, z3, z4, z5, z6, -, -⟩ := famous_usual z hz
  have hck : zoneClockCheck short t.ones s.1 (toLower z.1) = true := by
    have hck := zone_checks z hz
    unfold zoneClockChecks at hck
    rw [Bool.and_eq_true] at hck
    have h2 := List.all_eq_true.1 hck.2 short (by cases short <;> simp)
    have h3 := List.all_eq_true.1 h2 t.ones (by cases t <;> simp [Tail.ones])
    exact List.all_eq_true.1 h3 s hsf
  have hsf' : s ∈ suffixes := by
    simp only [someSuffixes, List.mem_cons, List.not_mem_nil, or_false] at hsf
    rcases hsf with rfl | rfl | rfl <;> decide
  have c1 : zoneOthers (toLower z.1) = true := by
    have hck := zone_checks z hz
    unfold zoneClockChecks at hck
    rw [Bool.and_eq_true] at hck
    exact hck.1
  generalize habb : toLower z.1 = abbr at *
  unfold zoneClockCheck at hck
  simp only [Bool.and_eq_true, decide_eq_true_eq] at hck
  obtain ⟨⟨c2, c3⟩, c4⟩ := hck
  have hdr : List.Forall₂ DigitRel (zoneClockText short h t s.1 abbr) (clockText short 11 t.ones s.1 ++ (txt!" " ++ abbr)) :=
    dr_append (dr_clock short h t s.1) (dr_same _)
  have hclk : (clockText short 11 t.ones s.1).length = (clockText short h t s.1).length := (dr_clock short h t s.1).length_eq.symm
  have hlow : toLower (zoneClockText short h t s.1 abbr) = zoneClockText short h t s.1 abbr := by
    unfold zoneClockText
    rw [toLower_append, toLower_append, z3, toLower_clock hsf']; rfl
  obtain ⟨mt, u1, u2, u3, u4, u5⟩ := foundStep _ 0 _ _ _ timeExpr_blind c2 hdr
  rw [List.drop_zero] at u1 u4 u5
  rw [hclk] at u3 u4
  obtain ⟨res, r1, r2, r3, r4, r5, r6, r7, r8⟩ := zoneClock_found (rt := rt) (g := integerWords) hx hsf (by omega) h9 h12 hmi hsec (abbr := abbr) rfl u2 u4 u5
  have hlen : (zoneClockText short h t s.1 abbr).length < 100 := by rw [forall₂_length hdr]; exact c4
  have hrs : ParserReturns rt ref (zoneClockText short h t s.1 abbr) timeExprParser [res.copy] := by
    refine ⟨integerWords, execute_one (mt := mt) hrt.stale timeExpr_pattern timeExpr_min (by rw [hlow]; exact u1) ?_ ?_ ?_⟩
    · rw [hlow, u2]; exact pureExtract_ok r1
    · refine hasPossibleDates_of_year ?_
      rw [r4.1]
      have := hx.valid.1.1
      simp only [DateTime.date]
      omega
    · rw [hlow, u3]
      have := foundEnd (r := Ast.timeExpr) _ _ timeExpr_blind c3 hdr
      rw [hclk] at this
      exact this
  have hkeep := (keeps_timeExpr (rt := rt) hrt.stops).of_ok r1
  have htag : res.copy.tags .extractTZ = none := by
    rcases hkeep.2.2 .extractTZ with h | ⟨h, -⟩
    · exact h
    · cases h
  have hrun := run_one hrt hs (text := zoneClockText short h t s.1 abbr) (by omega) (ref := ref) (a := res.copy) r2
    ⟨timeExprParser, by simp [mainParsers], _, hrs, by simp⟩ (by
      intro P hP
      obtain ⟨j, hj⟩ := List.mem_iff_getElem?.1 hP
      by_cases hj8 : j = 8
      · subst hj8
        have e : P = timeExprParser := (Option.some.inj hj).symm
        subst e
        exact ⟨_, hrs, by simp⟩
      · refine ⟨[], silent_returns ?_, by simp⟩
        have := zone_others c1 (zone_inst (short := short) (h := h) (t := t) hsf abbr)
        rw [hlow]
        exact silent_of this hj hj8)
  rw [hlow] at hrun
  show mainRun rt sort (zoneClockText short h t s.1 abbr) ref = _
  rw [hrun]
  obtain ⟨rs', q1, q2, q3⟩ := c47_only_tagged_times_before_known_zone [res.copy] (zoneClockText short h t s.1 abbr)
  rw [q1]
  match rs', q2 with
  | [r'], _ =>
    have q4 := q3 0 (by simp) (by simp)
    simp only [List.getElem_cons_zero] at q4
    obtain ⟨-, k1, k2, k3, -, k5⟩ := q4
    have hL : res.copy.index + res.copy.text.length = (clockText short h t s.1).length + 1 := by
      show res.index + res.text.length = _
      rw [r2, r3]; simp
    have hf : FollowedByZone (zoneClockText short h t s.1 abbr) res.copy abbr z.2.minutes := by
      refine ⟨?_, ⟨[], [], [], ?_, by simp, .inl rfl, .inl rfl, z4, z5, z6⟩, (c79_usual_meaning abbr z.2 z1 z2 _).2 rfl⟩
      · unfold stop PResult.textLength
        rw [hL]
        unfold zoneClockText
        simp only [List.length_append, List.length_cons, List.length_nil]
        omega
      · unfold stop PResult.textLength
        rw [hL]
        unfold zoneClockText
        rw [← List.append_assoc, List.drop_left' (by simp)]
        simp
    obtain ⟨-, m1, m2, -⟩ := k5 abbr _ r7 hf
    rw [if_neg (by rw [show res.copy.startDate.certain .tzoffset = false from r8]; simp)] at m1
    have m2 := m2 htag
    have h24 : hour24 h s.2 < 24 := by
      unfold hour24
      rcases s.2 with _ | _ | _ <;> simp <;> omega
    simp only [Out.bind_ok, mdtRefine, mdrRefine, printResult]
    have hv : (DateTime.mk x.year x.month x.day (hour24 h s.2) t.minute t.second).Valid := ⟨hx.valid.1, h24, hmi, hsec⟩
    have hread : Reads r'.startDate ⟨x.year, x.month, x.day, hour24 h s.2, t.minute, t.second⟩ := by
      obtain ⟨d1, d2, d3⟩ := r4
      obtain ⟨t1, t2, t3⟩ := r5
      refine ⟨?_, ?_, ?_, ?_, ?_, ?_⟩ <;> rw [k3 _ (by decide)] <;> assumption
    rw [prints_shifted hv hu hread m1 hshift m2 (by rw [k1]; exact r6)]
    rfl

/-- **C80 is false of the code**: except in the zones of offset 0, what is printed is never the time in UTC (`v`, which is the local time *minus*
the offset) -- for every reference time and every clock time. -/
theorem c80_utc_refuted (rt : Rt) (hrt : Rt.Defined rt) (sort : List PResult → List PResult) (hs : Sorts sort)
    (ref : PTime) (x : DateTime) (hx : RefReads ref x) (z : Text × Meridian) (hz : z ∈ famousZones) (hz0 : z.2.minutes ≠ 0)
    (short : Bool) (h : Nat) (t : Tail) (s : Text × Option Bool) (hsf : s ∈ someSuffixes)
    (hh : h < 24) (h9 : short = true → h ≤ 9) (h12 : s.1 ≠ [] → h ≤ 12) (hmi : t.minute < 60) (hsec : t.second < 60)
    (u v : DateTime) (hu : u.Valid) (hv : v.Valid)
    (hshift : instant u = instant ⟨x.year, x.month, x.day, hour24 h s.2, t.minute, t.second⟩ + 60 * z.2.minutes)
    (hutc : instant v = instant ⟨x.year, x.month, x.day, hour24 h s.2, t.minute, t.second⟩ - 60 * z.2.minutes) :
    mainRun rt sort (clockText short h t s.1 ++ (txt!" " ++ toLower z.1)) ref ≠ .ok (foundLine ++ v.format) := by
  rw [c80_offset_is_added_partial rt hrt sort hs ref x hx z hz short h t s hsf hh h9 h12 hmi hsec u hu hshift]
  intro he
  simp only [Out.ok.injEq, List.append_cancel_left_eq] at he
  have := c08_format_injective u v hu hv he
  rw [this, hutc] at hshift
  generalize instant _ = a at hshift
  omega

/-- The hypotheses are met: `9:30 pm est` on 2019-03-15 prints 16:30 (it is 02:30 the next day in UTC) … -/
example : (DateTime.mk 2019 3 15 16 30 0).Valid ∧ (txt!"EST", true, 5, 0) ∈ famousZones ∧ (txt!" pm", some true) ∈ someSuffixes ∧
    hour24 9 (some true) = 21 ∧ instant ⟨2019, 3, 15, 16, 30, 0⟩ = instant ⟨2019, 3, 15, 21, 30, 0⟩ + 60 * Meridian.minutes (true, 5, 0) ∧
    instant ⟨2019, 3, 16, 2, 30, 0⟩ = instant ⟨2019, 3, 15, 21, 30, 0⟩ - 60 * Meridian.minutes (true, 5, 0) := by decide +kernel
/-- … and so says the model evaluated by the kernel. -/
example : printed (mainRun (Rt.usual 0) sortKeep txt!"9:30 pm EST" exampleRef) txt!"Date:\t2019-Mar-15 16:30:00" = true := by decide +kernel

end Chrono.Props
