import Verif.Props.P44_IsoRanges
/-!
# C77: a date and a time of day in one text
-/
namespace Chrono.Props
open Chrono Chrono.Spec Chrono.Boost

/-! ## A date and a time among the refiners -/

/-- A merged result has no tags but those of the two and its own mark. -/
theorem mdtMerge_tags {text : Text} {d t m : PResult} (h : mdtMerge text d t = .ok m) :
    ∀ g, m.getTag g = true → g = .mergeDateAndTime ∨ d.getTag g = true ∨ t.getTag g = true := by
  unfold mdtMerge at h
  obtain ⟨e?, he, h⟩ := Out.bind_eq_ok.1 h
  obtain ⟨tx, htx, h⟩ := Out.bind_eq_ok.1 h
  simp only [Out.pure_eq, Out.ok.injEq] at h
  subst h
  intro g hg
  by_cases hm : g = .mergeDateAndTime
  · exact .inl hm
  · right
    obtain ⟨-, -, -, -, -, -, s7⟩ := setTag_fields (copyTags t (((mergedRecord d (mergeDateTimeComponent d.startDate t.startDate) e?).setIndex
      (min (mergedRecord d (mergeDateTimeComponent d.startDate t.startDate) e?).index t.index)).setText tx)) .mergeDateAndTime
    obtain ⟨z, hz, -, -, -, -, -, -, z7, -⟩ := copyTags_fields t (((mergedRecord d (mergeDateTimeComponent d.startDate t.startDate) e?).setIndex
      (min (mergedRecord d (mergeDateTimeComponent d.startDate t.startDate) e?).index t.index)).setText tx)
    rw [hz] at s7
    rw [hz] at hg
    have h' : z.getTag g = true := by
      unfold PResult.getTag at hg ⊢; rwa [s7 g hm] at hg
    rcases z7 g h' with h | h
    · left
      cases e? with
      | none => exact h
      | some e => exact h
    · exact .inr h

theorem infix_take {w l : Text} {n : Nat} (h : w <:+: l.take n) : w <:+: l := h.trans (List.take_prefix n l).isInfix

/-- The range refiner leaves a merged mention that covers the one after it, if no range word follows. -/
theorem mdr_covered {text : Text} {m b : PResult} (hm : NonEmpty m) (him : Inside text m) (hst : stop m = stop b)
    (htail : ∀ w ∈ rangeWords, ¬ w <:+: text.drop (stop b)) : mdrRefine [m, b] text = .ok [m, m] := by
  have hemp : m.isEmpty = false := nonEmpty_not_isEmpty hm
  have hstep : mdrStep text m b = .ok none := by
    unfold mdrStep
    split
    · have hable : mdrAble text m b = .ok false := by
        rcases mdrAble_total (b := b) him with h | h
        · exfalso
          obtain ⟨h1, h2⟩ := him
          unfold mdrAble substrN at h
          unfold stop at h1
          have e1 : PResult.toU32 ((m.index : Int) + (m.textLength : Int)) = m.index + m.textLength := by
            unfold PResult.toU32; omega
          simp only [e1] at h
          rw [if_pos (by omega)] at h
          simp only [Out.bind_ok] at h
          obtain ⟨w, hw, hi⟩ := (rangeTo_search_iff _).1 h
          have := infix_take hi
          unfold stop at hst htail
          rw [hst] at this
          exact htail w hw this
        · exact h
      rw [hable]; rfl
    · rfl
  show mdrLoop text m [m, b] = _
  unfold mdrLoop
  rw [hstep]
  simp only [Out.bind_ok]
  unfold mdrLoop
  rw [hemp]
  rfl

/-- The list the refiners get is a date and a time, in either order, without ends: the program prints the date at that time. -/
theorem prints_date_time {rt : Rt} {sort : List PResult → List PResult} {text : Text} {ref : PTime} {a b : PResult}
    (hna : NonEmpty a) (hnb : NonEmpty b) (hia : Inside (toLower text) a) (hib : Inside (toLower text) b) (hab : Before a b)
    (hrun : mainRun rt sort text ref = (do
      let rs ← tzRefine [a, b] (toLower text)
      let rs ← mdtRefine rs (toLower text)
      let rs ← mdrRefine rs (toLower text)
      printResult rs))
    (hza : ∀ abbr off, a.getTag .timeExpression = true → ¬ FollowedByZone (toLower text) a abbr off)
    (hzb : ∀ abbr off, b.getTag .timeExpression = true → ¬ FollowedByZone (toLower text) b abbr off)
    (htail : ∀ w ∈ rangeWords, ¬ w <:+: (toLower text).drop (stop b))
    (hxa : a.getTag .extractTZ = false) (hxb : b.getTag .extractTZ = false) (hea : a.hasEnd = false) (heb : b.hasEnd = false)
    {d t : PResult} (hdt : d = a ∧ t = b ∨ d = b ∧ t = a) (hd : NoTime d.startDate) (hd' : isTimeOnly d = false) (ht : isTimeOnly t = true) (ht' : isDateOnly t = false)
    {y mo da h mi s : Nat} (hdate : DateIs d.startDate (y, mo, da)) (htime : TimeIs t.startDate h mi s)
    (hv : (DateTime.mk y mo da h mi s).Valid) :
    mainRun rt sort text ref = .ok (foundLine ++ (DateTime.mk y mo da h mi s).format) := by
  obtain ⟨a', b', e, ⟨a1, a2, a3, a4, a5, a6⟩, ⟨b1, b2, b3, b4, b5, b6⟩⟩ := tz_two hza hzb
  have hsa : stop a' = stop a := by unfold stop PResult.textLength; rw [a1, a2]
  have hsb : stop b' = stop b := by unfold stop PResult.textLength; rw [b1, b2]
  have hna' : NonEmpty a' := by unfold NonEmpty PResult.textLength at *; rw [a2]; exact hna
  have hnb' : NonEmpty b' := by unfold NonEmpty PResult.textLength at *; rw [b2]; exact hnb
  have hia' : Inside (toLower text) a' := by unfold Inside at *; rw [hsa]; exact hia
  have hib' : Inside (toLower text) b' := by unfold Inside at *; rw [hsb]; exact hib
  have hab' : Before a' b' := by unfold Before at *; rw [hsa, b1]; exact hab
  obtain ⟨D, T, hDT, D1, D2, D3, T1, T2, hDi, hTi, hDtag, hTtag⟩ : ∃ D T : PResult, (D = a' ∧ T = b' ∨ D = b' ∧ T = a') ∧
      D.startDate = d.startDate ∧ D.hasEnd = false ∧ D.getTag .extractTZ = false ∧ T.startDate = t.startDate ∧ T.hasEnd = false ∧ Inside (toLower text) D ∧
      Inside (toLower text) T ∧ D.getTag .extractTZ = false ∧ T.getTag .extractTZ = false := by
    rcases hdt with ⟨rfl, rfl⟩ | ⟨rfl, rfl⟩
    · exact ⟨a', b', .inl ⟨rfl, rfl⟩, a3, a4.trans hea, (a6 _).trans hxa, b3, b4.trans heb, hia', hib', (a6 _).trans hxa, (b6 _).trans hxb⟩
    · exact ⟨b', a', .inr ⟨rfl, rfl⟩, b3, b4.trans heb, (b6 _).trans hxb, a3, a4.trans hea, hib', hia', (b6 _).trans hxb, (a6 _).trans hxa⟩
  obtain ⟨m, hm, -⟩ := mdtMerge_end (text := toLower text) (d := D) (t := T) hDi (e? := none) (by unfold mergedEnd; rw [D2, T2]; rfl)
  obtain ⟨m1, m2, m3, m4, -⟩ := mdtMerge_ok hDi hTi hm
  have mtag := mdtMerge_tags hm
  have hD : isDateOnly D = true := by
    unfold isDateOnly; rw [D1]; unfold NoTime at hd; rw [hd.1]; rfl
  have hT : isTimeOnly T = true := by unfold isTimeOnly at *; rw [T1]; exact ht
  have hD' : isTimeOnly D = false := by unfold isTimeOnly at *; rw [D1]; exact hd'
  have hT' : isDateOnly T = false := by unfold isDateOnly at *; rw [T1]; exact ht'
  have hable : mdtAble (toLower text) a' b' = .ok true := by rw [mdtAble_eq, if_pos hia'.1]
  have hstep : mdtStep (toLower text) a' b' = .ok (some m) := by
    unfold mdtStep
    rcases hDT with ⟨rfl, rfl⟩ | ⟨rfl, rfl⟩
    · simp [hD, hT, hable, hm]
    · simp [hD, hT, hD', hT', hable, hm]
  have hmdt : mdtRefine [a', b'] (toLower text) = .ok [m, b'] := by
    show mdtLoop (toLower text) b' [a', b'] = _
    unfold mdtLoop
    rw [hstep]
    simp only [Out.bind_ok]
    unfold mdtLoop
    rw [show ([] : List PResult).headD b' = b' from rfl, nonEmpty_not_isEmpty hnb']
    rfl
  have hmin : m.index = a'.index := by
    unfold Before stop at hab'
    rw [m2]
    rcases hDT with ⟨rfl, rfl⟩ | ⟨rfl, rfl⟩ <;> omega
  have hmst : stop m = stop b' := by
    unfold Before at hab'
    unfold NonEmpty at hnb'
    have : b'.index ≤ stop b' := by unfold stop; omega
    rw [m3]
    rcases hDT with ⟨rfl, rfl⟩ | ⟨rfl, rfl⟩ <;> omega
  have hnm : NonEmpty m := by
    unfold Before at hab'
    unfold NonEmpty at *
    unfold stop at *
    omega
  have him : Inside (toLower text) m := by
    unfold Inside at *
    rw [hmst]; exact hib'
  have hmdr := mdr_covered hnm him hmst (by rw [hsb]; exact htail)
  obtain ⟨g1, g2, g3⟩ := hd
  obtain ⟨k1, k2, k3, k4⟩ := mergeComponent_get d.startDate t.startDate g1 g2 g3
  obtain ⟨x1, x2, x3⟩ := hdate
  obtain ⟨t1, t2, t3⟩ := htime
  have hr : Reads m.startDate ⟨y, mo, da, h, mi, s⟩ := by
    rw [m1, D1, T1]
    exact ⟨(k1 _ (by decide) (by decide) (by decide)).trans x1, (k1 _ (by decide) (by decide) (by decide)).trans x2,
      (k1 _ (by decide) (by decide) (by decide)).trans x3, k2.trans t1, k3.trans t2, k4.trans t3⟩
  have hx : m.getTag .extractTZ = false := by
    cases h : m.getTag .extractTZ with
    | false => rfl
    | true =>
      rcases mtag _ h with h | h | h
      · cases h
      · rw [hDtag] at h; cases h
      · rw [hTtag] at h; cases h
  rw [hrun, e]
  simp only [Out.bind_ok]
  rw [hmdt]
  simp only [Out.bind_ok]
  rw [hmdr]
  simp only [Out.bind_ok]
  have := c08_toDate_prints_start m _ hv hr (by rw [m4, D2, T2]; rfl) hx
  simp [printResult, this, foundLine]

/-- A time-zone abbreviation has at least two letters. -/
theorem noZone_short {text : Text} {r : PResult} {abbr : Text} {off : Int} (h : text.length ≤ stop r + 1) :
    ¬ FollowedByZone text r abbr off := by
  rintro ⟨-, ⟨b, o, c, h1, -, -, -, h2, -⟩, -⟩
  have := congrArg List.length h1
  simp at this
  omega

/-- The second of two matches, extracted as `b`: `b` is among the results, and every other result is at the place of the first. -/
theorem second_returns {rt : Rt} {P : Parser} {r : Re} {cut : Bool} (hrt : rt.Benign) (hst : rt.Stops) (hr : P.pattern = some r)
    (hmin : 1 ≤ r.minLen) (hP : Exact P cut) {text : Text} (hlen : text.length < 4294967296) {ref : PTime} {rs : List PResult} (hret : ParserReturns rt ref text P rs)
    {mt1 mt2 : Match} {b : PResult} (hs1 : r.search (toLower text) = some mt1) (hs2 : r.search ((toLower text).drop mt1.stop) = some mt2)
    (hx2 : ∀ g, P.extract rt g ((toLower text).drop mt1.stop) mt2 ref (mt1.stop + mt2.start) = .ok (b, g)) (hd2 : b.hasPossibleDates = true)
    (hn : r.search ((toLower text).drop (mt1.stop + mt2.stop)) = none) :
    b.copy ∈ rs ∧ ∀ x ∈ rs, x = b.copy ∨ (x.index = mt1.start ∧ x.textLength = mt1.length - (if cut then mt1.lengthOf 1 else 0)) := by
  obtain ⟨g', hret⟩ := hret
  have hsc := execute_scan hrt hr hmin integerWords text ref
  rw [hret] at hsc
  have hl : (toLower text).length = text.length := by simp [toLower]
  generalize ho : (Out.ok (rs, g') : Out (List PResult × Globals)) = o at hsc
  cases hsc with
  | done hs => rw [List.drop_zero, hs1] at hs; cases hs
  | fail hs hx =>
    rw [eq_comm] at ho
    obtain ⟨y, hy, -⟩ := Out.bind_eq_ok.1 ho
    exact absurd hy (hx y)
  | @step _ _ mt res g1 out hs hx hrest =>
    rw [List.drop_zero, hs1] at hs
    cases hs
    rw [eq_comm] at ho
    obtain ⟨y, hy, ho⟩ := Out.bind_eq_ok.1 ho
    simp only [Out.ok.injEq, Prod.mk.injEq] at ho
    have e0 : Scan rt P r (toLower text) ref (mt1.stop + mt2.stop) g1 (.ok ([], g1)) := .done hn
    have e1 := Scan.step (P := P) (rt := rt) (ref := ref) hs2 (hx2 g1) e0
    rw [Nat.zero_add] at hrest
    have e2 := hrest.unique e1
    rw [hy] at e2
    simp only [Out.bind_ok, hd2, if_true, Out.ok.injEq] at e2
    obtain ⟨w1, w2⟩ := hP rt integerWords _ mt1 ref _ res g1 hst hx
    obtain ⟨p1, p2⟩ := match_pos hmin hs1
    have hm := (Re.search_ok hs1).len
    have place : res.copy.index = mt1.start ∧ res.copy.textLength = mt1.length - (if cut then mt1.lengthOf 1 else 0) := by
      refine ⟨?_, ?_⟩
      · show res.index = _
        rw [w1]; unfold PResult.toU32; omega
      · show res.text.length = _
        rw [w2, List.length_drop, hm]
    rw [← ho.1, e2]
    split
    · exact ⟨by simp, fun x hx => by
        simp only [List.mem_cons, List.not_mem_nil, or_false] at hx
        rcases hx with rfl | rfl
        · exact .inr place
        · exact .inl rfl⟩
    · exact ⟨by simp, fun x hx => by
        simp only [List.mem_cons, List.not_mem_nil, or_false] at hx
        exact .inl hx⟩

/-! ## An ISO date with a clock time -/

theorem slice_append_right (U V : Text) (a b : Nat) : slice (U ++ V) (U.length + a) (U.length + b) = slice V a b := by
  unfold slice
  rw [List.drop_append, List.drop_of_length_le (by omega)]
  simp [Nat.add_sub_add_left]

/-- The character before a match is not the last of the text. -/
theorem precededByWord_inside {mt : Match} {tx : Text} (h : 1 ≤ mt.start) (h2 : mt.start + 1 ≤ tx.length) : precededByWord mt tx = .ok false := by
  unfold precededByWord Match.position substr
  rw [if_pos (by omega), if_pos (by omega)]
  have hl : (tx.drop (mt.start - 1)).length = tx.length - (mt.start - 1) := List.length_drop
  generalize tx.drop (mt.start - 1) = l at hl
  match l, hl with
  | [], hl => simp at hl; omega
  | [c], hl => simp at hl; omega
  | c :: d :: r, _ => rfl

/-- What may stand between the date and the blank before the time, and between that blank and the time. -/
def dtSeps : List (Text × Text) := [(txt!"", txt!""), (txt!"", txt!"at "), (txt!",", txt!"")]

/-- An ISO date followed by a clock time: `2019-03-05 9:30`, `2019-03-05, at 9 pm`. -/
def isoClockText (y m d : Nat) (pre mid : Text) (short : Bool) (h : Nat) (t : Tail) (sfx : Text) : Text :=
  isoDate y m d ++ (pre ++ txt!" " ++ mid ++ clockText short h t sfx)

def shiftSpans (q : Nat) (l : List (Nat × Option (Nat × Nat))) : List (Nat × Option (Nat × Nat)) :=
  l.map fun x => (x.1, x.2.map fun p => (q + p.1, q + p.2))

def isoClockCheck (pre mid : Text) (short : Bool) (t : Tail) (sfx : Text) : Bool :=
  let clock := clockText short 11 t sfx
  let rep := txt!"1111-11-11" ++ (pre ++ txt!" " ++ mid ++ clock)
  let p := 3 + pre.length
  let q := p + 1 + mid.length
  othersBeside [8, 9] (0, 10) (7 + p, mid.length + clock.length) rep &&
  checkStep Ast.iso (rep.drop 0) 0 10 [(2, some (0, 4)), (3, some (5, 7)), (4, some (8, 10)), (5, none)] &&
  (Ast.iso.search (rep.drop 10)).isNone &&
  checkStep Ast.timeExpr (rep.drop 0) 0 7 [(1, some (0, 0))] &&
  checkStep Ast.timeExpr (rep.drop 7) p (q + clock.length) ((1, some (p, p + 1)) :: shiftSpans q ((clockSpans short t sfx).drop 1)) &&
  (Ast.timeExpr.search (rep.drop (7 + (q + clock.length)))).isNone &&
  toLower (pre ++ txt!" " ++ mid) == pre ++ txt!" " ++ mid && decide (rep.length < 100) && rep.drop (rep.length - 1) != [45]

def isoClockChecks (pre mid : Text) (s : Text × Option Bool) : Bool :=
  [true, false].all fun short => [Tail.none, .minutes 11, .seconds 11 11].all fun t => isoClockCheck pre mid short t s.1

theorem isoClock_checks0 {s : Text × Option Bool} (hs : s ∈ suffixes) : isoClockChecks txt!"" txt!"" s = true := by
  simp only [suffixes, List.mem_cons, List.not_mem_nil, or_false] at hs
  rcases hs with rfl | rfl | rfl | rfl | rfl | rfl | rfl | rfl | rfl | rfl | rfl | rfl <;> decide +kernel
theorem isoClock_checks1 {s : Text × Option Bool} (hs : s ∈ suffixes) : isoClockChecks txt!"" txt!"at " s = true := by
  simp only [suffixes, List.mem_cons, List.not_mem_nil, or_false] at hs
  rcases hs with rfl | rfl | rfl | rfl | rfl | rfl | rfl | rfl | rfl | rfl | rfl | rfl <;> decide +kernel
theorem isoClock_checks2 {s : Text × Option Bool} (hs : s ∈ suffixes) : isoClockChecks txt!"," txt!"" s = true := by
  simp only [suffixes, List.mem_cons, List.not_mem_nil, or_false] at hs
  rcases hs with rfl | rfl | rfl | rfl | rfl | rfl | rfl | rfl | rfl | rfl | rfl | rfl <;> decide +kernel

theorem isoClock_checks {sep : Text × Text} (hsep : sep ∈ dtSeps) {s : Text × Option Bool} (hs : s ∈ suffixes) :
    isoClockChecks sep.1 sep.2 s = true := by
  simp only [dtSeps, List.mem_cons, List.not_mem_nil, or_false] at hsep
  rcases hsep with rfl | rfl | rfl
  · exact isoClock_checks0 hs
  · exact isoClock_checks1 hs
  · exact isoClock_checks2 hs

end Chrono.Props
