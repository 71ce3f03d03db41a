import Verif.Props.P49_Words
import Verif.Props.P17_ClockPhrases
import Verif.Props.P13_Iso
/-!
# C78: texts without digits, the remaining parsers
-/
namespace Chrono.Props
open Chrono Chrono.Spec Chrono.Boost

/-! ## Parsers that return nothing -/

theorem dayOfWeek_lives {rt : Rt} {ref : PTime} {text : Text} : Lives rt ref text dayOfWeekParser := by
  refine lives_nil (g := integerWords) ?_
  unfold execute; rw [dayOfWeek_pattern]

theorem ago_lives {rt : Rt} {ref : PTime} {text : Text} (h : 92 ∉ text) : Lives rt ref text timeAgoParser :=
  lives_nil (c18_ago_and_later_need_a_backslash_partial rt integerWords text ref h).1

theorem later_lives {rt : Rt} {ref : PTime} {text : Text} (h : 92 ∉ text) : Lives rt ref text timeLaterParser :=
  lives_nil (c18_ago_and_later_need_a_backslash_partial rt integerWords text ref h).2

/-- A group made of digits is empty if there are none. -/
theorem digits_group_empty {text : Text} (h : NoDigits text) {r : Re} {k : Nat} {mt : Match} (hs : r.search ((toLower text).drop k) = some mt)
    (n : Nat) (hn : n ≠ 0) (hall : (r.bodies n).all (fun b => b.allB isDigitB) = true) : mt.str n = [] := by
  rcases (Re.search_ok hs).group_lang n hn with h' | ⟨body, hb, hl⟩
  · exact h'
  · have ha := hl.allB _ (List.all_eq_true.1 hall body hb)
    cases hq : mt.str n with
    | nil => rfl
    | cons c q =>
      have h1 := ha c (by rw [hq]; simp)
      rw [noDigits_group h hs n c (by rw [hq]; simp)] at h1
      simp at h1

theorem iso_lives {rt : Rt} (hrt : rt.Benign) {ref : PTime} {text : Text} (hd : NoDigits text) : Lives rt ref text isoParser := by
  refine lives_pure hrt rfl iso_pattern iso_min fun k mt hs => ?_
  exfalso
  have h2 := digits_group_empty hd hs 2 (by decide) (by decide +kernel)
  obtain ⟨body, hb, hl⟩ := (Re.search_ok hs).must_lang 2 (by decide) (by decide +kernel)
  have hall : (Ast.iso.bodies 2).all (fun b => decide (1 ≤ b.minLen)) = true := by decide +kernel
  have h1 := List.all_eq_true.1 hall body hb
  have hm := hl.minLen
  rw [h2] at hm
  simp at hm h1
  omega

/-! ## Month names -/

theorem lengthOf_one {r : Re} {t : Text} {mt : Match} (ok : MatchOk r t mt) : mt.lengthOf 1 ≤ (mt.str 0).length := by
  unfold Match.lengthOf
  rw [← ok.len]
  rcases ok.group 1 (by decide) with h' | ⟨a, b, h', h2, h3, h4, h5, -⟩
  · rw [h'.2]; simp
  · rw [h5]
    unfold slice Match.length
    rw [List.length_take]
    omega

/-- The words of the month-name pattern. -/
theorem monthName_word {text : Text} (hb : 92 ∉ text) (hm : ¬ txt!"may." <:+: toLower text) {k : Nat} {mt : Match}
    (hs : Ast.monthName.search ((toLower text).drop k) = some mt) :
    1 ≤ monthConstants.get (mt.str 2) ∧ monthConstants.get (mt.str 2) ≤ 12 := by
  have ok := Re.search_ok hs
  have hinf : mt.str 2 <:+: toLower text := (str_infix hs 2).trans (List.drop_suffix _ _).isInfix
  obtain ⟨body, hbm, hl⟩ := ok.must_lang 2 (by decide) (by decide +kernel)
  have hall : (Ast.monthName.bodies 2).all (fun b => match b.words with
      | none => false
      | some ws => ws.all fun w => w.contains 92 || w == txt!"may." ||
          decide (1 ≤ monthConstants.get w ∧ monthConstants.get w ≤ 12)) = true := by decide +kernel
  have h1 := List.all_eq_true.1 hall body hbm
  cases hw : body.words with
  | none => rw [hw] at h1; simp at h1
  | some ws =>
    rw [hw] at h1
    have hmem := hl.words ws hw
    rw [lower_of_infix hinf] at hmem
    have h2 := List.all_eq_true.1 h1 _ hmem
    simp only [Bool.or_eq_true, decide_eq_true_eq, beq_iff_eq, List.contains_iff_mem] at h2
    rcases h2 with (h2 | h2) | h2
    · exact absurd (hinf.subset h2) (mem_toLower_backslash hb)
    · rw [h2] at hinf; exact absurd hinf hm
    · exact h2

theorem firstDay {y m : Nat} (h1 : 1 ≤ m) (h2 : m ≤ 12) : Civil y m 1 := by
  have := (monthLength_bounds y m h1 h2)
  exact ⟨h1, h2, by omega, by omega⟩

theorem monthName_lives {rt : Rt} (hrt : rt.Benign) {ref : PTime} {x : DateTime} (hx : GoodRef ref x) {text : Text} (hd : NoDigits text)
    (hb : 92 ∉ text) (hm : ¬ txt!"may." <:+: toLower text) : Lives rt ref text monthNameParser := by
  refine lives_pure hrt rfl monthName_pattern (by decide +kernel) fun k mt hs => ?_
  obtain ⟨m1, m2⟩ := monthName_word hb hm hs
  have h3 := digits_group_empty hd hs 3 (by decide) (by decide +kernel)
  unfold monthNameExtract
  rw [show substr (mt.str 0) (mt.lengthOf 1) = .ok ((mt.str 0).drop (mt.lengthOf 1)) by
    unfold substr; rw [if_pos (lengthOf_one (Re.search_ok hs))]]
  simp only [Out.bind_ok, h3, List.isEmpty_nil, if_true]
  generalize monthConstants.get (mt.str 2) = m at *
  have e1 := hx.early
  have e2 := hx.late
  obtain ⟨y, hy⟩ := nearestYear_ok (m := m) (d := 1) hx.reads (firstDay m1 m2) (by omega) (by omega)
  obtain ⟨-, -, -, y', rfl, hn, -⟩ := nearestYear_sound hx.reads hy
  show Normal _ (nearestYear ref (m : Int) 1 >>= _)
  rw [show nearestYear ref (m : Int) 1 = nearestYear ref (m : Int) ((1 : Nat) : Int) from rfl, hy]
  refine normal_ok fun _ => present_start ?_ (by simp) (by simp [get_imply])
  refine printable_of (firstDay m1 m2) (y := y') (by omega) (by omega) ⟨?_, ?_, ?_⟩ ?_ ?_ ?_ <;> simp [get_imply] <;> exact upTo_zero _

/-! ## Months and ordinal words -/

theorem lang_cap {n : Nat} {r : Re} {w : Text} (h : Lang (.cap n r) w) : Lang r w := by
  obtain ⟨s, s', hr, hc⟩ := h
  cases hr with
  | cap h1 => exact ⟨_, _, h1, ⟨hc.rest, hc.pos, hc.prev⟩⟩

/-- Digits, or a word of the ordinal table, or the misspelt one. -/
def ordinalsOf : Re → Bool
  | .alt a b => ordinalsOf a && (match b.words with
      | none => false
      | some ws => ws.all fun w => w == txt!"seventheenth" || decide (1 ≤ argToOrdinalValue w ∧ argToOrdinalValue w ≤ 31))
  | .seq (.cap 7 d) _ => d.allB isDigitB && decide (1 ≤ d.minLen)
  | _ => false

theorem ordinalsOf_lang {q : Re} (h : ordinalsOf q = true) {u : Text} (hl : Lang q u) (hd : ∀ c ∈ u, isDigitB c = false)
    (hlow : toLower u = u) : OrdinalWord u := by
  induction q with
  | alt a b ia ib =>
    simp only [ordinalsOf, Bool.and_eq_true] at h
    obtain ⟨ha, hb⟩ := h
    rcases lang_alt hl with hl | hl
    · exact ia ha hl
    · cases hw : b.words with
      | none => rw [hw] at hb; simp at hb
      | some ws =>
        rw [hw] at hb
        have hmem := hl.words ws hw
        rw [hlow] at hmem
        have h2 := List.all_eq_true.1 hb _ hmem
        simp only [Bool.or_eq_true, decide_eq_true_eq, beq_iff_eq] at h2
        rcases h2 with h2 | ⟨h2, h3⟩
        · exact .inr h2
        · left
          have := (c32_ordinal u _ h2 h3).1 rfl
          rw [hlow] at this
          exact ⟨_, h2, h3, this⟩
  | seq a b =>
    obtain ⟨v, w, rfl, hv, -⟩ := lang_seq hl
    cases a with
    | cap n d =>
      by_cases hn : n = 7
      · subst hn
        simp only [ordinalsOf, Bool.and_eq_true, decide_eq_true_eq] at h
        have hv := lang_cap hv
        have hm := hv.minLen
        have ha := hv.allB _ h.1
        cases v with
        | nil => simp at hm; omega
        | cons c v =>
          have h1 := ha c (by simp)
          rw [hd c (by simp)] at h1
          simp at h1
      · unfold ordinalsOf at h
        split at h <;> simp_all
    | _ => simp [ordinalsOf] at h
  | _ => simp [ordinalsOf] at h

/-- The shape of a branch with group 6. -/
def rangeBranch : Re → Bool
  | .seq a (.seq b (.seq (.cap 6 c) _)) => (a.words == some [txt!"to", txt!"-"]) && b.allB isSpaceB && ordinalsOf c
  | _ => false

theorem middleEndian_range_branch : (Ast.middleEndian.branches 6).all rangeBranch = true := by decide +kernel

theorem middleEndian_no_range {text : Text} (hd : NoDigits text) (hr : NoOrdinalRange text) {k : Nat} {mt : Match}
    (hs : Ast.middleEndian.search ((toLower text).drop k) = some mt) : mt.str 6 = [] := by
  by_contra hne
  obtain ⟨q, hq, u, hl, hu⟩ := Re.search_branch hs 6 (by decide) hne
  have hb := List.all_eq_true.1 middleEndian_range_branch q hq
  have hinf : u <:+: toLower text := (hu.trans (str_infix hs 0)).trans (List.drop_suffix _ _).isInfix
  have hdig : ∀ c ∈ u, isDigitB c = false := fun c hc => noDigits_group hd hs 0 c (hu.subset hc)
  unfold rangeBranch at hb
  split at hb
  · rename_i a b c d
    simp only [Bool.and_eq_true, beq_iff_eq] at hb
    obtain ⟨⟨h1, h2⟩, h3⟩ := hb
    obtain ⟨ua, v, rfl, la, lv⟩ := lang_seq hl
    obtain ⟨ub, v, rfl, lb, lv⟩ := lang_seq lv
    obtain ⟨uc, v, rfl, lc, -⟩ := lang_seq lv
    have ia : ua <:+: toLower text := (List.prefix_append ua _).isInfix.trans hinf
    have ic : ua ++ ub ++ uc <:+: toLower text := by
      refine List.IsInfix.trans ?_ hinf
      exact ⟨[], v, by simp⟩
    have hma := la.words _ h1
    rw [lower_of_infix ia] at hma
    refine hr ua hma ub uc ?_ (ordinalsOf_lang h3 (lang_cap lc) (fun c hc => hdig c (by simp [hc])) ?_) ic
    · intro c hc
      have := lb.allB _ h2 c hc
      unfold isSpaceB at this
      simp only [Bool.or_eq_true, beq_iff_eq, Bool.and_eq_true, decide_eq_true_eq] at this
      exact this
    · exact lower_of_infix ((List.suffix_append (ua ++ ub) uc).isInfix.trans ic)
  · simp at hb

theorem middleEndian_lives {rt : Rt} (hrt : rt.Benign) {ref : PTime} {x : DateTime} (hx : GoodRef ref x) {text : Text} (hd : NoDigits text)
    (hm : MonthsHaveTheDays text) (hr : NoOrdinalRange text) : Lives rt ref text middleEndianParser := by
  refine lives_pure hrt rfl middleEndian_pattern (by decide +kernel) fun k mt hs => ?_
  have h5 := digits_group_empty hd hs 5 (by decide) (by decide +kernel)
  have h8 := digits_group_empty hd hs 8 (by decide) (by decide +kernel)
  have h10 := digits_group_empty hd hs 10 (by decide) (by decide +kernel)
  have h6 := middleEndian_no_range hd hr hs
  have inf : ∀ n, mt.str n <:+: toLower text := fun n => (str_infix hs n).trans (List.drop_suffix _ _).isInfix
  unfold middleEndianExtract middleEndianDay middleEndianYear
  rw [h5, h8, h10]
  simp only [List.isEmpty_nil, if_true, Bool.not_true, Bool.false_eq_true, if_false, Bool.or_self]
  show Normal _ ((pure ((argToOrdinalValue (mt.str 4) : Nat) : Int) : Out Int) >>= _)
  have hmw := monthConstants_word (w := mt.str 3)
  have hov := c32_ordinal (mt.str 4) (argToOrdinalValue (mt.str 4))
  generalize monthConstants.get (mt.str 3) = m at *
  generalize argToOrdinalValue (mt.str 4) = d at *
  refine normal_ite (fun _ => normal_ok fun h => ?_) fun hc => ?_
  · exact absurd h (by simp [PResult.hasPossibleDates])
  · have hw := (hov (by omega) (by omega)).1 rfl
    rw [lower_of_infix (inf 4)] at hw
    have hcy := hm _ m _ d (inf 3) (hmw (by omega)) (inf 4) (by omega) (by omega) hw
    have e1 := hx.early
    have e2 := hx.late
    obtain ⟨y, hy⟩ := nearestYear_ok hx.reads (hcy x.year) (by omega) (by omega)
    obtain ⟨-, -, -, y', rfl, hn, -⟩ := nearestYear_sound hx.reads hy
    show Normal _ (nearestYear ref (m : Int) (d : Int) >>= _)
    rw [hy]
    simp only [Out.bind_ok]
    unfold middleEndianRange
    rw [h6]
    refine normal_ok fun _ => present_start ?_ ?_ ?_
    · refine printable_of (hcy y') (by omega) (by omega) ⟨?_, ?_, ?_⟩ ?_ ?_ ?_ <;>
        rw [setTag_startDate] <;> split <;> simp <;> exact upTo_zero _
    · split <;> rfl
    · rw [setTag_startDate]; split <;> rfl

/-! ## Noon and midnight -/

theorem clock_words {text : Text} (hd : NoDigits text) {k : Nat} {mt : Match} (hs : Ast.timeExpr.search ((toLower text).drop k) = some mt) :
    (hourOf (mt.str 2) = .ok 12 ∨ hourOf (mt.str 2) = .ok 0) ∧ mt.str 3 = [] ∧ mt.str 4 = [] ∧ mt.str 7 = [] := by
  have ok := Re.search_ok hs
  refine ⟨?_, digits_group_empty hd hs 3 (by decide) (by decide +kernel), digits_group_empty hd hs 4 (by decide) (by decide +kernel), ?_⟩
  · obtain ⟨body, hm, hlang⟩ := ok.must_lang 2 (by decide) (by decide +kernel)
    have hb : ∃ a b c, Ast.timeExpr.bodies 2 = [.alt (.alt a b) c] ∧ a.allB isDigitB = true ∧ 1 ≤ a.minLen ∧
        b.words = some [txt!"noon"] ∧ c.words = some [txt!"midnight"] :=
      ⟨_, _, _, rfl, by decide +kernel, by decide +kernel, by decide +kernel, by decide +kernel⟩
    obtain ⟨a, b, c, hb, h1, h2, h4, h5⟩ := hb
    rw [hb, List.mem_singleton] at hm
    subst hm
    have hw : toLower (mt.str 2) = mt.str 2 := lower_of_infix ((str_infix hs 2).trans (List.drop_suffix _ _).isInfix)
    rcases lang_alt hlang with hx | hx
    · rcases lang_alt hx with hx | hx
      · exfalso
        have hm := hx.minLen
        have ha := hx.allB _ h1
        have hno := noDigits_group hd hs 2
        cases hq : mt.str 2 with
        | nil => rw [hq] at hm; simp at hm; omega
        | cons c q =>
          rw [hq] at ha hno
          have h1 := ha c (by simp)
          rw [hno c (by simp)] at h1
          simp at h1
      · have := hx.words _ h4
        rw [hw, List.mem_singleton] at this
        rw [this]; exact .inl (by decide)
    · have := hx.words _ h5
      rw [hw, List.mem_singleton] at this
      rw [this]; exact .inr (by decide)
  · by_contra h7
    have h10 := digits_group_empty hd hs 10 (by decide) (by decide +kernel)
    obtain ⟨body, hb, hl⟩ := ok.imp_lang 7 10 (by decide) (by decide) (by decide +kernel) h7
    have hall : (Ast.timeExpr.bodies 10).all (fun b => decide (1 ≤ b.minLen)) = true := by decide +kernel
    have h1 := List.all_eq_true.1 hall body hb
    have hm := hl.minLen
    rw [h10] at hm
    simp at hm h1
    omega

theorem meridiem_upTo (c : Nat) {h : Int} (hh : h = 12 ∨ h = 0) : UpTo 36 (meridiem c h) := by
  unfold meridiem
  rcases hh with rfl | rfl
  · split
    · exact ⟨0, by decide, by decide⟩
    · exact ⟨12, by decide, by simp⟩
  · split
    · exact ⟨0, by decide, by decide⟩
    · split
      · exact ⟨12, by decide, by decide⟩
      · exact ⟨0, by decide, rfl⟩

theorem timeExpr_lives {rt : Rt} (hrt : rt.Benign) {ref : PTime} {x : DateTime} (hx : GoodRef ref x) {text : Text} (hd : NoDigits text) :
    Lives rt ref text timeExprParser := by
  refine lives_pure hrt rfl timeExpr_pattern timeExpr_min fun k mt hs => ?_
  obtain ⟨h2, h3, h4, h7⟩ := clock_words hd hs
  have ok := Re.search_ok hs
  obtain ⟨⟨-, -, hc⟩, -⟩ := refReads_us hx.reads
  obtain ⟨y1, y2, y3, -⟩ := Date.year_of_ymd hx.reads.date
  have e1 := hx.early
  have e2 := hx.late
  unfold timeExprExtract
  rw [show substr (mt.str 0) (mt.lengthOf 1) = .ok ((mt.str 0).drop (mt.lengthOf 1)) by
    unfold substr; rw [if_pos (lengthOf_one ok)]]
  simp only [Out.bind_ok]
  have hp : Normal (fun _ => True) (precededByWord mt ((toLower text).drop k)) := by
    unfold precededByWord
    refine normal_ite (fun _ => ?_) fun _ => normal_ok trivial
    have := Nat.le_trans ok.le ok.stop_le
    have : substr ((toLower text).drop k) (mt.position - 1) = .ok (((toLower text).drop k).drop (mt.position - 1)) := by
      unfold substr Match.position; rw [if_pos (by omega)]
    rw [this]
    exact normal_ok trivial
  refine normal_bind hp fun b _ => normal_ite (fun _ => normal_ok fun h => absurd h (by simp [PResult.hasPossibleDates])) fun _ => ?_
  unfold fromSecond
  rw [h4, h7, h3]
  simp only [List.isEmpty_nil, if_true]
  rw [show (pure (some (-1)) : Out (Option Int)) = .ok (some (-1)) from rfl]
  simp only [Out.bind_ok]
  have key : ∀ H : Int, (H = 12 ∨ H = 0) → Normal (fun res => res.hasPossibleDates = true → Presentable res ∧ NoTimeRange res)
      (do
        let hm ← minuteOf H []
        if hm.2 ≥ 60 then return PResult.mk' ref (k + mt.start) ((mt.str 0).drop (mt.lengthOf 1))
        else if hm.1 > 24 then return PResult.mk' ref (k + mt.start) ((mt.str 0).drop (mt.lengthOf 1))
        else if !(mt.str 6).isEmpty ∧ hm.1 > 12 then return PResult.mk' ref (k + mt.start) ((mt.str 0).drop (mt.lengthOf 1))
        else
          setStart ref (PResult.mk' ref (k + mt.start) ((mt.str 0).drop (mt.lengthOf 1)))
            (match (if (mt.str 6).isEmpty then none else some (firstChar (mt.str 6)) : Option Nat) with
              | none => hm.1
              | some c => meridiem c hm.1) hm.2 >>= fun result => pure result) := by
    intro H hH
    have e : minuteOf H [] = .ok (H, 0) := by
      unfold minuteOf
      rcases hH with rfl | rfl <;> rfl
    rw [e]
    simp only [Out.bind_ok]
    rw [if_neg (by decide), if_neg (by omega), if_neg (by omega)]
    have hup : UpTo 36 (match (if (mt.str 6).isEmpty then none else some (firstChar (mt.str 6)) : Option Nat) with
              | none => H
              | some c => meridiem c H) := by
      by_cases h6 : (mt.str 6).isEmpty = true
      · rw [if_pos h6]; rcases hH with rfl | rfl
        · exact ⟨12, by decide, rfl⟩
        · exact upTo_zero _
      · rw [if_neg h6]; exact meridiem_upTo _ hH
    generalize (match (if (mt.str 6).isEmpty then none else some (firstChar (mt.str 6)) : Option Nat) with
              | none => H
              | some c => meridiem c H) = h at *
    unfold setStart
    rw [y1, y2, y3]
    simp only [Out.bind_ok]
    refine normal_ok fun _ => present_start ?_ (by simp) (by simp [get_imply])
    refine printable_of hc (by omega) (by omega) ⟨?_, ?_, ?_⟩ ?_ ?_ ?_ <;> simp [get_imply] <;> first | exact upTo_zero _ | exact hup
  rcases h2 with h2 | h2
  · rw [h2]; exact key 12 (.inl rfl)
  · rw [h2]; exact key 0 (.inr rfl)

/-- **C78 (words).** A text without digits and without a backslash is always answered, for any reference time in the years
1404..9980, provided that it does not contain `may.`, that the months it names have (in every year) the days of the month it names by
ordinal words, and that it has no ordinal word after `to` or a dash. -/
theorem c78_words_never_kill_the_program_partial (rt : Rt) (hrt : rt.Benign) (hst : rt.Stops) (sort : List PResult → List PResult) (hs : Sorts sort)
    (text : Text) (hlen : text.length < 4294967296) (ref : PTime) (x : DateTime) (hx : RefReads ref x) (h1 : 1404 ≤ x.year) (h2 : x.year ≤ 9980)
    (hd : NoDigits text) (hb : 92 ∉ text) (hmay : ¬ txt!"may." <:+: toLower text) (hm : MonthsHaveTheDays text) (hr : NoOrdinalRange text) :
    ∃ line, mainRun rt sort text ref = .ok line := by
  refine c78_program_prints_presentable_mentions rt hrt hst sort hs text hlen ref fun P hP => ?_
  have hx : GoodRef ref x := ⟨hx, h1, h2⟩
  simp only [mainParsers, List.mem_cons, List.not_mem_nil, or_false] at hP
  rcases hP with rfl | rfl | rfl | rfl | rfl | rfl | rfl | rfl | rfl | rfl | rfl | rfl
  · exact casualTime_lives hrt hx text
  · exact deadline_lives hrt hx hd
  · exact dayOfWeek_lives
  · exact casualDate_lives hrt hx text
  · exact middleEndian_lives hrt hx hd hm hr
  · exact later_lives hb
  · exact monthName_lives hrt hx hd hb hmay
  · exact ago_lives hb
  · exact timeExpr_lives hrt hx hd
  · exact iso_lives hrt hd
  · exact holiday_lives hrt hx text
  · exact week_lives hrt hx hd

end Chrono.Props
