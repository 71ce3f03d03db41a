import Verif.Props.P25_Relative
/-!
# C65: what the time-ago and time-later parsers read

On ordinary texts these two parsers find nothing (C18), because their patterns want a backslash after the unit. On the texts
they do accept, `5 days\ago`, the arithmetic is right.
-/
namespace Chrono.Props
open Chrono Chrono.Spec Chrono.Boost

/-! ## Specification -/

def agoWords : List Text := [txt!"ago", txt!"before", txt!"earlier"]
def laterWords : List Text := [txt!"later", txt!"after", txt!"from now", txt!"henceforth", txt!"forward", txt!"out"]

/-- `5 days\ago`. -/
def slashText (num u w : Text) : Text := num ++ txt!" " ++ u ++ txt!"\\" ++ w

/-- The parser that a word belongs to, and the direction. -/
inductive AgoOrLater : Parser → Text → Text → Prop where
  | ago {w : Text} (h : w ∈ agoWords) : AgoOrLater timeAgoParser w txt!"last"
  | later {w : Text} (h : w ∈ laterWords) : AgoOrLater timeLaterParser w txt!"next"

/-! ## A match that ends before the end of the text -/

end Chrono.Props

namespace Chrono

/-- The pattern matches the text with the token up to `e` characters after the token. -/
def checkRunTo (r : Re) (a b : Text) (e : Nat) (gs : List (Nat × Option (Nat × Nat))) : Bool :=
  (match r.mr ⟨0, none, a ++ runTok :: b, []⟩ Tri.yes with
  | .yes s => s.pos == a.length + 1 + e && gs.all (fun x => capSpan x.1 s.caps == x.2)
  | _ => false) && a.all (· < 256) && b.all (· < 256) && r.digitBlind

theorem foundRunTo {r : Re} {a b ds : Text} {e : Nat} (gs : List (Nat × Option (Nat × Nat))) (hc : checkRunTo r a b e gs = true)
    (hne : ds ≠ []) (hd : ∀ c ∈ ds, isDigitB c = true) :
    ∃ mt, r.search (a ++ ds ++ b) = some mt ∧ mt.start = 0 ∧ mt.stop = a.length + ds.length + e ∧
      ∀ x ∈ gs, x.1 ≠ 0 → mt.str x.1 = spanText (a ++ ds ++ b) (x.2.map fun p => (runOff a.length ds.length p.1, runOff a.length ds.length p.2)) := by
  unfold checkRunTo at hc
  simp only [Bool.and_eq_true, List.all_eq_true, decide_eq_true_eq] at hc
  obtain ⟨⟨⟨h1, h2⟩, h3⟩, h5⟩ := hc
  have hn1 : 1 ≤ ds.length := by
    have := List.length_pos_iff.2 hne; omega
  have hφ : ∀ x y, runOff a.length ds.length x < runOff a.length ds.length y ↔ x < y := by
    intro x y
    unfold runOff
    split <;> split <;> omega
  have hexp : Exp (runOff a.length ds.length) 0 (a ++ runTok :: b) (a ++ (ds ++ b)) := by
    refine exp_fixed a 0 h2 (fun j _ hj => ?_) ?_
    · unfold runOff; rw [if_pos (by omega), if_pos (by omega)]
    · refine .run hne hd ?_ ?_
      · unfold runOff; rw [if_neg (by omega), if_pos (by omega)]; omega
      · have := exp_fixed (φ := runOff a.length ds.length) b (0 + a.length + 1) h3 (fun j h _ => by
          unfold runOff; rw [if_neg (by omega), if_neg (by omega)]; omega) (z := []) (u := []) .nil
        simpa using this
  have hsim : SimR (runOff a.length ds.length) (a ++ (ds ++ b)).length ⟨0, none, a ++ (ds ++ b), []⟩ ⟨0, none, a ++ runTok :: b, []⟩ :=
    ⟨by simp [runOff], by simp, hexp, .none, rfl⟩
  have key := r.mr_sim (Q := fun s z => SimR (runOff a.length ds.length) (a ++ (ds ++ b)).length s z) hφ h5 _ _ some Tri.yes hsim
    (fun t t' h => .yes h)
  generalize hm : r.m ⟨0, none, a ++ (ds ++ b), []⟩ some = o at key
  cases ho : r.mr ⟨0, none, a ++ runTok :: b, []⟩ Tri.yes with
  | unk => rw [ho] at h1; simp at h1
  | no => rw [ho] at h1; simp at h1
  | yes z =>
    rw [ho] at h1 key
    simp only [Bool.and_eq_true, beq_iff_eq, List.all_eq_true] at h1
    cases key with
    | @yes s _ hs =>
      have hpos : s.pos = a.length + ds.length + e := by
        rw [hs.pos, h1.1]
        unfold runOff
        rw [if_neg (by omega)]
        omega
      rw [List.append_assoc] at *
      refine ⟨⟨0, s.pos, s.caps, a ++ (ds ++ b)⟩, Re.search_at_zero hm, rfl, hpos, ?_⟩
      intro x hx hx0
      unfold Match.str
      rw [if_neg hx0]
      simp only
      rw [hs.caps, capSpan_map, h1.2 x hx]
      cases x.2 <;> rfl

end Chrono

namespace Chrono.Props
open Chrono Chrono.Spec Chrono.Boost

/-! ## What the patterns find -/

def slashUnits : List Text := relUnits

def astOf (w : Text) : Re := if w ∈ agoWords then Ast.timeAgo else Ast.timeLater

theorem ago_digits_check : ((agoWords ++ laterWords).all fun w => slashUnits.all fun u =>
    checkRun (astOf w) [] (txt!" " ++ u ++ txt!"\\" ++ w)
      [(1, some (0, 0)), (2, some (0, 0 + 1 + (1 + u.length + 1)))]) = true := by decide +kernel

theorem ago_words_check (w : Text) (hw : w ∈ agoWords ++ laterWords) : (numberWords.all fun n => slashUnits.all fun u =>
    checkAt0 (astOf w) (slashText n.1 u w) [(0, slashText n.1 u w), (1, []), (2, n.1 ++ txt!" " ++ u ++ txt!"\\")]
    && toLower (slashText n.1 u w) == slashText n.1 u w) = true := by
  simp only [agoWords, laterWords, List.cons_append, List.nil_append, List.mem_cons, List.not_mem_nil, or_false] at hw
  rcases hw with rfl | rfl | rfl | rfl | rfl | rfl | rfl | rfl | rfl <;> decide +kernel


theorem toLower_slash_digits {num u w : Text} (hn : IsDigits num) (hu : u ∈ slashUnits) (hw : w ∈ agoWords ++ laterWords) :
    toLower (slashText num u w) = slashText num u w := by
  have h1 : ((agoWords ++ laterWords).all fun p => toLower p == p) = true := by decide
  have h2 : (slashUnits.all fun p => toLower p == p) = true := by decide
  have e1 : toLower w = w := by simpa using List.all_eq_true.1 h1 _ hw
  have e2 : toLower u = u := by simpa using List.all_eq_true.1 h2 _ hu
  unfold slashText
  simp only [toLower_append, e1, e2, toLower_digits (isDigits_digitB hn)]
  rfl

theorem slash_found {num u w : Text} {n : Nat} (hn : IsNumeral num n) (hu : u ∈ slashUnits) (hw : w ∈ agoWords ++ laterWords) :
    toLower (slashText num u w) = slashText num u w ∧ ∃ mt, FoundAt0 (astOf w) (slashText num u w) mt ∧
      mt.str 0 = slashText num u w ∧ mt.str 1 = [] ∧ mt.str 2 = num ++ txt!" " ++ u ++ txt!"\\" := by
  rcases hn with ⟨hd, -⟩ | hn
  · have hc := List.all_eq_true.1 (List.all_eq_true.1 ago_digits_check w hw) u hu
    obtain ⟨mt, hf, h0, hg⟩ := foundRun (ds := num) _ hc hd.1 (isDigits_digitB hd)
    have e : [] ++ num ++ (txt!" " ++ u ++ txt!"\\" ++ w) = slashText num u w := by
      unfold slashText; simp
    refine ⟨toLower_slash_digits hd hu hw, mt, by rw [← e]; exact hf, by rw [← e]; exact h0, ?_, ?_⟩
    · rw [run_get hg (.head _) (by simp)]
      rfl
    · rw [run_get hg (.tail _ (.head _)) (by simp)]
      have hl := List.length_pos_iff.2 hd.1
      unfold spanText runSpan runOff slice
      simp only [Option.map_some, List.length_nil, Nat.zero_add, Nat.le_refl, if_true, List.drop_zero, List.nil_append, Nat.sub_zero]
      rw [if_neg (by omega), show num ++ (txt!" " ++ u ++ txt!"\\" ++ w) = (num ++ txt!" " ++ u ++ txt!"\\") ++ w by simp]
      refine List.take_left' ?_
      simp; omega
  · have hc := List.all_eq_true.1 (List.all_eq_true.1 (ago_words_check w hw) _ hn) u hu
    rw [Bool.and_eq_true] at hc
    obtain ⟨mt, hf, hg⟩ := foundAt0 _ hc.1
    exact ⟨by simpa using hc.2, mt, hf, hg _ (.head _), hg _ (.tail _ (.head _)), hg _ (.tail _ (.tail _ (.head _)))⟩

/-! ## Reading number and unit -/

theorem unit_digits_check : (slashUnits.all fun u =>
    checkRunTo Ast.timeUnit [] (txt!" " ++ u ++ txt!"\\") (1 + u.length)
      [(1, some (0, 1)), (2, some (0 + 1 + 1, 0 + 1 + (1 + u.length)))]) = true := by decide +kernel

theorem unit_words_check : (numberWords.all fun n => slashUnits.all fun u =>
    match Ast.timeUnit.search (n.1 ++ txt!" " ++ u ++ txt!"\\") with
    | some mt => mt.start == 0 && mt.stop == n.1.length + 1 + u.length && mt.str 1 == n.1 && mt.str 2 == u
    | none => false) = true := by decide +kernel

theorem unit_found {num u : Text} {n : Nat} (hn : IsNumeral num n) (hu : u ∈ slashUnits) :
    ∃ mt, Ast.timeUnit.search (num ++ txt!" " ++ u ++ txt!"\\") = some mt ∧ mt.start = 0 ∧ mt.stop = num.length + 1 + u.length ∧
      mt.str 1 = num ∧ mt.str 2 = u := by
  rcases hn with ⟨hd, -⟩ | hn
  · have hc := List.all_eq_true.1 unit_digits_check u hu
    obtain ⟨mt, hf, h0, h1, hg⟩ := foundRunTo (ds := num) _ hc hd.1 (isDigits_digitB hd)
    have e : [] ++ num ++ (txt!" " ++ u ++ txt!"\\") = num ++ txt!" " ++ u ++ txt!"\\" := by simp
    refine ⟨mt, by rw [← e]; exact hf, h0, by rw [h1]; simp; omega, ?_, ?_⟩
    · rw [run_get hg (.head _) (by simp)]; exact run_mid (a := []) hd.1
    · rw [run_get hg (.tail _ (.head _)) (by simp), Option.map_some]
      have := run_post (a := []) (ds := num) (b := txt!" " ++ u ++ txt!"\\") (i := 1) (j := 1 + u.length)
      simp only [List.length_nil] at this
      rw [this]
      unfold slice; simp
  · have hc := List.all_eq_true.1 (List.all_eq_true.1 unit_words_check _ hn) u hu
    revert hc
    cases Ast.timeUnit.search (num ++ txt!" " ++ u ++ txt!"\\") with
    | none => simp
    | some mt =>
      simp only [Bool.and_eq_true, beq_iff_eq]
      rintro ⟨⟨⟨a, b⟩, c⟩, d⟩
      exact ⟨mt, rfl, a, b, c, d⟩

/-- The fragment map with one unit. -/
def fragOf (u : Text) (v : FNum) : Fragments :=
  if contains txt!"hour" u then { hour := some v }
  else if contains txt!"min" u then { minute := some v }
  else if contains txt!"sec" u then { second := some v }
  else if contains txt!"week" u then { week := some v }
  else if contains txt!"day" u then { day := some v }
  else if contains txt!"month" u then { month := some v }
  else { year := some v }

theorem collect_congr {mt mt' : Match} {f : Fragments} (h1 : mt.str 1 = mt'.str 1) (h2 : mt.str 2 = mt'.str 2) :
    collectFragment mt f = collectFragment mt' f := by
  unfold collectFragment
  rw [h1, h2]

/-- A match whose groups 1 and 2 are the given texts. -/
def unitMatch (num u : Text) : Match :=
  ⟨0, (num ++ u).length, [(1, 0, num.length), (2, num.length, (num ++ u).length)], num ++ u⟩

theorem unitMatch_one (num u : Text) : (unitMatch num u).str 1 = num := by
  simp [unitMatch, Match.str, capSpan, slice]
theorem unitMatch_two (num u : Text) : (unitMatch num u).str 2 = u := by
  simp [unitMatch, Match.str, capSpan, slice]

theorem collect_words_check : (numberWords.all fun n => slashUnits.all fun u =>
    decide (collectFragment (unitMatch n.1 u) {} = .ok (fragOf u (.int n.2)))) = true := by decide +kernel

theorem collect_ok {mt : Match} {num u : Text} {n : Nat} (hn : IsNumeral num n) (hsm : n < 16777216) (hu : u ∈ slashUnits)
    (h1 : mt.str 1 = num) (h2 : mt.str 2 = u) : collectFragment mt {} = .ok (fragOf u (.int n)) := by
  have hl : toLower u = u := by
    have h2 : (slashUnits.all fun p => toLower p == p) = true := by decide
    simpa using List.all_eq_true.1 h2 _ hu
  have hlow := toLower_numeral hn
  rcases hn with ⟨hn, rfl⟩ | hn
  · unfold collectFragment
    simp only [h1, h2, hlow, hl]
    have hd := isDigits_digitB hn
    rw [integerWords_digits hn.1 hd]
    simp only []
    have ha : ¬ (num = txt!"a" ∨ num = txt!"an") := by
      rintro (rfl | rfl) <;> exact absurd (hd 97 (by simp)) (by decide)
    rw [if_neg ha, if_neg (by rw [startsWith_no (by decide) hd]; simp), if_neg (by rw [startsWith_no (by decide) hd]; simp),
      stoi_digits hn.1 hd, ← decimalValue_eq, if_pos (by omega), Out.bind_ok, Int.toNat_natCast, f32_small hsm]
    unfold fragOf
    simp only [slashUnits, relUnits, dateUnits, timeUnits, List.mem_append, List.mem_cons, List.not_mem_nil, or_false] at hu
    rcases hu with (rfl | rfl | rfl | rfl | rfl | rfl | rfl | rfl) | (rfl | rfl | rfl | rfl | rfl | rfl) <;> rfl
  · rw [collect_congr (h1.trans (unitMatch_one num u).symm) (h2.trans (unitMatch_two num u).symm)]
    simpa using List.all_eq_true.1 (List.all_eq_true.1 collect_words_check _ hn) u hu

theorem unit_none : Ast.timeUnit.search txt!"\\" = none := by decide +kernel

theorem fragments_ok {num u : Text} {n : Nat} (hn : IsNumeral num n) (hsm : n < 16777216) (hu : u ∈ slashUnits) :
    extractFragments Ast.timeUnit ((num ++ txt!" " ++ u ++ txt!"\\").length + 1) (num ++ txt!" " ++ u ++ txt!"\\") {} =
      .ok (fragOf u (.int n)) := by
  obtain ⟨mt, h1, h2, h3, h4, h5⟩ := unit_found hn hu
  obtain ⟨k, hk⟩ : ∃ k, (num ++ txt!" " ++ u ++ txt!"\\").length = k + 1 := ⟨num.length + 1 + u.length, by simp; omega⟩
  rw [hk]
  rw [extractFragments, h1]
  simp only
  rw [collect_ok hn hsm hu h4 h5, Out.bind_ok]
  unfold substr
  have hm : mt.length = (num ++ txt!" " ++ u).length := by unfold Match.length; rw [h2, h3]; simp; omega
  rw [if_pos (by rw [hm]; simp), hm, Out.bind_ok, List.drop_left, extractFragments, unit_none]

/-! ## The results -/

theorem agoLater_mem {P : Parser} {w m : Text} (h : AgoOrLater P w m) : w ∈ agoWords ++ laterWords := by
  cases h with
  | ago h => exact List.mem_append_left _ h
  | later h => exact List.mem_append_right _ h

theorem astOf_ago {w : Text} (h : w ∈ agoWords) : astOf w = Ast.timeAgo := if_pos h
theorem astOf_later {w : Text} (h : w ∈ laterWords) : astOf w = Ast.timeLater := by
  have : (laterWords.all fun w => decide (w ∉ agoWords)) = true := by decide
  exact if_neg (by simpa using List.all_eq_true.1 this w h)

/-- What both `extract` functions do once number and unit are read: `D` is the shifted date, `p` the shifted time. -/
theorem slash_yields {rt : Rt} (hrt : rt.Benign) {g : Globals} {ref : PTime} {P : Parser} {num u w m : Text} {n : Nat}
    (hP : AgoOrLater P w m) (hn : IsNumeral num n) (hsm : n < 16777216) (hu : u ∈ slashUnits)
    {D : Date} {p : PTime}
    (hago : m = txt!"last" → ∀ r : PResult, (do
      let fr := fragOf u (.int n)
      let date := ref.date
      let t := ref
      let date ← onFrag fr.day date (fun v => do let n ← v.toInt; catchOOR date (date.addDays (-n)))
      let t ← onFrag fr.hour t (fun v => do let n ← v.toInt; pure (t.addHours (-n)))
      let t ← onFrag fr.minute t (fun v => do let n ← v.toInt; pure (t.addMinutes (-n)))
      let date ← onFrag fr.month date (fun v => do let n ← v.toInt; catchOOR date (date.addMonths (-n)))
      let t ← onFrag fr.second t (fun v => do let n ← v.toInt; pure (t.addSeconds (-n)))
      let date ← onFrag fr.week date (fun v => do let n ← v.toLong; catchOOR date (date.addDays (-(7 * n))))
      let date ← onFrag fr.year date (fun v => do let n ← v.toInt; catchOOR date (date.addMonths (-(12 * n))))
      let result ← setFromFragments r fr date t
      return result.setTag .timeAgo : Out PResult) = setFromFragments r (fragOf u (.int n)) D p >>= fun x => .ok (x.setTag .timeAgo))
    (hlat : m = txt!"next" → ∀ r : PResult, (do
      let fr := fragOf u (.int n)
      let date := ref.date
      let t := ref
      let date ← onFrag fr.day date (fun v => do let n ← v.toInt; date.addDays n)
      let t ← onFrag fr.hour t (fun v => do let n ← v.toInt; pure (t.addHours n))
      let t ← onFrag fr.minute t (fun v => do let n ← v.toInt; pure (t.addMinutes n))
      let date ← onFrag fr.month date (fun v => do let n ← v.toInt; date.addMonths n)
      let t ← onFrag fr.second t (fun v => do let n ← v.toInt; pure (t.addSeconds n))
      let date ← onFrag fr.week date (fun v => do let n ← v.toLong; date.addDays (7 * n))
      let date ← onFrag fr.year date (fun v => do let n ← v.toInt; date.addMonths (12 * n))
      let result ← setFromFragments r fr date t
      return result.setTag .timeLater : Out PResult) = setFromFragments r (fragOf u (.int n)) D p >>= fun x => .ok (x.setTag .timeLater))
    {r : PResult} (hr : setFromFragments (PResult.mk' ref 0 (slashText num u w)) (fragOf u (.int n)) D p = .ok r)
    (hix : r.index = 0) (htx : r.text = slashText num u w) (hend : r.hasEnd = false) (hyear : r.startDate.get .year ≠ 0) :
    Yields (execute rt P g (slashText num u w) ref) (slashText num u w) (fun x => x.startDate = r.startDate ∧ x.hasEnd = false) := by
  obtain ⟨hl, mt, hf, h0, h1, h2⟩ := slash_found hn hu (agoLater_mem hP)
  have hfr := fragments_ok hn hsm hu
  have hpos : mt.position = 0 := hf.start
  cases hP with
  | ago hw =>
    rw [astOf_ago hw] at hf
    refine yields_of hrt timeAgo_pattern timeAgo_min hl hf (pureExtract_ok (r := r.setTag .timeAgo) ?_) ?_ ?_ ?_ ?_
    · unfold timeAgoExtract
      simp only [h0, h2, hpos]
      rw [if_neg (by omega)]
      simp only [Out.pure_eq, Out.bind_ok]
      rw [if_neg (by simp), Ast.compile_timeUnit]
      simp only
      rw [hfr, Out.bind_ok]
      have := hago rfl (PResult.mk' ref 0 (slashText num u w))
      rw [hr, Out.bind_ok] at this
      exact this
    · refine hasPossibleDates_of_year ?_
      simpa using hyear
    · simpa using hix
    · simpa using htx
    · exact ⟨by simp, by simpa using hend⟩
  | later hw =>
    rw [astOf_later hw] at hf
    refine yields_of hrt timeLater_pattern timeLater_min hl hf (pureExtract_ok (r := r.setTag .timeLater) ?_) ?_ ?_ ?_ ?_
    · unfold timeLaterExtract
      have hl1 : mt.lengthOf 1 = 0 := by unfold Match.lengthOf; rw [h1]; rfl
      simp only [h0, h2, hpos, hl1]
      unfold substr
      rw [if_pos (Nat.zero_le _), Out.bind_ok, List.drop_zero, if_neg (by omega)]
      simp only [Out.pure_eq, Out.bind_ok]
      rw [if_neg (by simp), Ast.compile_timeUnit]
      simp only
      rw [hfr, Out.bind_ok]
      have := hlat rfl (PResult.mk' ref 0 (slashText num u w))
      rw [hr, Out.bind_ok] at this
      exact this
    · refine hasPossibleDates_of_year ?_
      simpa using hyear
    · simpa using hix
    · simpa using htx
    · exact ⟨by simp, by simpa using hend⟩

end Chrono.Props
