import Verif.Props.P08_Execute
import Verif.Props.P14_Program
/-!
# C59: tags of the results of a parser
-/
namespace Chrono.Props
open Chrono Chrono.Spec Chrono.Boost

/-- The parsers and their tags (`utils::Modifiers`, utils.hpp:21-40). The week parser has none. -/
def parserTags : List (Parser × Tag) :=
  [(casualTimeParser, .casualTime), (deadlineParser, .deadline), (dayOfWeekParser, .dayOfTheWeek),
   (casualDateParser, .casualDate), (middleEndianParser, .middleEndian), (timeLaterParser, .timeLater),
   (monthNameParser, .monthName), (timeAgoParser, .timeAgo), (timeExprParser, .timeExpression), (isoParser, .iso),
   (holidayParser, .usHolidays), (relativeParser, .relative)]

/-- No tag but possibly `G`, and that one set. -/
def OnlyTag (G : Tag) (r : PResult) : Prop := ∀ g, r.tags g = none ∨ (g = G ∧ r.tags g = some true)

theorem execute_all {P : Parser} {r : Re} (hr : P.pattern = some r) (hmin : 1 ≤ r.minLen) {rt : Rt} (hrt : rt.Benign)
    {Q : PResult → Prop}
    (hx : ∀ g tx mt ref idx x g', P.extract rt g tx mt ref idx = .ok (x, g') → x.hasPossibleDates = true → Q x.copy)
    {g g' : Globals} {text : Text} {ref : PTime} {rs : List PResult} (h : execute rt P g text ref = .ok (rs, g')) :
    ∀ x ∈ rs, Q x := by
  intro x hm
  obtain ⟨k, g1, g2, mt, res, -, -, h3, h4, rfl⟩ := (execute_scan hrt hr hmin g text ref).mem rs g' h x hm
  exact hx _ _ _ _ _ _ _ h3 h4

theorem pure_inv {f : Rt → Globals → Text → Match → PTime → Nat → Out PResult} {rt g tx mt ref idx} {x : PResult} {g' : Globals}
    (h : pureExtract f rt g tx mt ref idx = .ok (x, g')) : f rt g tx mt ref idx = .ok x := by
  unfold pureExtract at h
  obtain ⟨y, hy, h⟩ := Out.bind_eq_ok.1 h
  cases h
  exact hy

/-- **C59 (no foreign tag).** Whatever a parser returns carries no tag but its own; the results of the week parser
carry none. -/
theorem c59_no_foreign_tag_partial (rt : Rt) (hrt : rt.Benign) (hst : rt.Stops) (g g' : Globals) (text : Text) (ref : PTime)
    (rs : List PResult) :
    (∀ P G, (P, G) ∈ parserTags → execute rt P g text ref = .ok (rs, g') →
      ∀ r ∈ rs, ∀ t, r.getTag t = true → t = G) ∧
    (execute rt weekParser g text ref = .ok (rs, g') → ∀ r ∈ rs, ∀ t, r.getTag t = false) := by
  constructor
  · intro P G hP h
    have fin : (∀ r ∈ rs, OnlyTag G r) → ∀ r ∈ rs, ∀ t, r.getTag t = true → t = G := by
      intro hr r hm t ht
      rcases hr r hm t with h0 | h0
      · unfold PResult.getTag at ht; rw [h0] at ht; simp at ht
      · exact h0.1
    refine fin ?_
    simp only [parserTags, List.mem_cons, List.not_mem_nil, or_false, Prod.mk.injEq] at hP
    rcases hP with ⟨rfl, rfl⟩ | ⟨rfl, rfl⟩ | ⟨rfl, rfl⟩ | ⟨rfl, rfl⟩ | ⟨rfl, rfl⟩ | ⟨rfl, rfl⟩ | ⟨rfl, rfl⟩ | ⟨rfl, rfl⟩ |
      ⟨rfl, rfl⟩ | ⟨rfl, rfl⟩ | ⟨rfl, rfl⟩ | ⟨rfl, rfl⟩
    · exact execute_all casualTime_pattern casualTime_min hrt (fun _ _ _ _ _ _ _ hx _ => (keeps_casualTime.of_ok (pure_inv hx)).2.2) h
    · exact execute_all deadline_pattern deadline_min hrt (fun _ _ _ _ _ _ _ hx _ => (keeps_deadline.of_ok (pure_inv hx)).2.2) h
    · unfold execute at h; rw [dayOfWeek_pattern] at h; cases h; simp
    · exact execute_all casualDate_pattern casualDate_min hrt (fun _ _ _ _ _ _ _ hx _ => (keeps_casualDate.of_ok (pure_inv hx)).2.2) h
    · exact execute_all middleEndian_pattern middleEndian_min hrt (fun _ _ _ _ _ _ _ hx _ => (keeps_middleEndian.of_ok (pure_inv hx)).2.2) h
    · exact execute_all timeLater_pattern timeLater_min hrt (fun _ _ _ _ _ _ _ hx _ => (keeps_timeLater.of_ok (pure_inv hx)).2.2) h
    · exact execute_all monthName_pattern monthName_min hrt (fun _ _ _ _ _ _ _ hx _ => (keeps_monthName.of_ok (pure_inv hx)).2.2) h
    · exact execute_all timeAgo_pattern timeAgo_min hrt (fun _ _ _ _ _ _ _ hx _ => (keeps_timeAgo.of_ok (pure_inv hx)).2.2) h
    · exact execute_all timeExpr_pattern timeExpr_min hrt (fun _ _ _ _ _ _ _ hx _ => ((keeps_timeExpr hst).of_ok (pure_inv hx)).2.2) h
    · exact execute_all iso_pattern iso_min hrt (fun _ _ _ _ _ _ _ hx _ => (keeps_iso.of_ok (pure_inv hx)).2.2) h
    · exact execute_all holiday_pattern holiday_min hrt (fun _ _ _ _ _ _ _ hx _ => (keeps_holiday.of_ok (pure_inv hx)).2.2) h
    · exact execute_all relative_pattern relative_min hrt (fun _ _ _ _ _ _ _ hx _ => (keeps_relative.of_ok (pure_inv hx)).2.2) h
  · intro h
    have key : ∀ G, ∀ r ∈ rs, OnlyTag G r := fun G => execute_all week_pattern week_min hrt
      (fun g tx mt ref idx _ _ hx _ =>
        ((keeps_week (G := G) (rt := rt) (g := g) (tx := tx) (mt := mt) (ref := ref) (idx := idx)).of_ok hx).1.2.2) h
    intro r hr t
    unfold PResult.getTag
    have h1 := key .iso r hr t
    have h2 := key .deadline r hr t
    rcases h1 with h1 | ⟨h1, -⟩
    · rw [h1]; rfl
    · rcases h2 with h2 | ⟨h2, -⟩
      · rw [h2]; rfl
      · rw [h1] at h2; cases h2

/-! ## Parsers that always set their tag -/

/-- A returned result with a date has the tag. -/
def TagIfDate (G : Tag) (x : Out PResult) : Prop :=
  Sat (fun r => r.hasPossibleDates = true → r.tags G ≠ none) (fun _ => True) x

theorem sat_any {α : Type} (x : Out α) : Sat (fun _ => True) (fun _ => True) x := by cases x <;> trivial

theorem tid_bind {G : Tag} {α : Type} {x : Out α} {f : α → Out PResult} (h : ∀ a, TagIfDate G (f a)) : TagIfDate G (x >>= f) :=
  Sat.bind (sat_any x) (fun a _ => h a)
theorem tid_set {G : Tag} {r : PResult} : TagIfDate G (pure (r.setTag G)) := by
  intro _ h
  have h : (r.setTag G).tags G = none := h
  unfold PResult.setTag at h
  split at h
  · rename_i h'; rw [h'] at h; cases h
  · simp at h
theorem tid_none {G : Tag} {ref : PTime} {i : Nat} {t : Text} : TagIfDate G (pure (PResult.mk' ref i t)) := by
  intro h
  have : (PResult.mk' ref i t).hasPossibleDates = false := rfl
  have h : (PResult.mk' ref i t).hasPossibleDates = true := h
  rw [this] at h; cases h
theorem tid_ite {G : Tag} {c : Prop} [Decidable c] {x y : Out PResult} (hx : TagIfDate G x) (hy : TagIfDate G y) :
    TagIfDate G (if c then x else y) := by split <;> assumption

macro "tag_steps" : tactic => `(tactic| ((try simp only); repeat' (first
  | exact tid_set | exact tid_none | (refine tid_bind fun _ => ?_) | (refine tid_ite ?_ ?_) | split)))

/-- The parsers of which every result is tagged. -/
def taggingParsers : List (Parser × Tag) :=
  [(casualTimeParser, .casualTime), (casualDateParser, .casualDate), (middleEndianParser, .middleEndian),
   (monthNameParser, .monthName), (isoParser, .iso), (holidayParser, .usHolidays)]

/-- **C59 (own tag).** Every result of these six parsers carries the tag of its parser. -/
theorem c59_own_tag_partial (rt : Rt) (hrt : rt.Benign) (g g' : Globals) (text : Text) (ref : PTime)
    (rs : List PResult) (P : Parser) (G : Tag) (hP : (P, G) ∈ taggingParsers)
    (h : execute rt P g text ref = .ok (rs, g')) : ∀ r ∈ rs, r.getTag G = true := by
  have fin : ∀ x : PResult, HasInv.inv x.index x.text G x → x.tags G ≠ none → x.copy.getTag G = true := by
    intro x hx hn
    rcases hx.2.2 G with h0 | h0
    · exact absurd h0 hn
    · show (x.tags G).getD false = true
      rw [h0.2]; rfl
  have fin2 : ∀ {i t} {x : PResult}, HasInv.inv i t G x → x.tags G ≠ none → x.copy.getTag G = true :=
    fun hx hn => fin _ ⟨rfl, rfl, hx.2.2⟩ hn
  simp only [taggingParsers, List.mem_cons, List.not_mem_nil, or_false, Prod.mk.injEq] at hP
  rcases hP with ⟨rfl, rfl⟩ | ⟨rfl, rfl⟩ | ⟨rfl, rfl⟩ | ⟨rfl, rfl⟩ | ⟨rfl, rfl⟩ | ⟨rfl, rfl⟩
  · refine execute_all casualTime_pattern casualTime_min hrt (fun g tx mt ref idx x _ hx hd =>
      fin2 (keeps_casualTime.of_ok (pure_inv hx)) ?_) h
    have : TagIfDate .casualTime (casualTimeExtract rt g tx mt ref idx) := by unfold casualTimeExtract; tag_steps
    exact this.of_ok (pure_inv hx) hd
  · refine execute_all casualDate_pattern casualDate_min hrt (fun g tx mt ref idx x _ hx hd =>
      fin2 (keeps_casualDate.of_ok (pure_inv hx)) ?_) h
    have : TagIfDate .casualDate (casualDateExtract rt g tx mt ref idx) := by unfold casualDateExtract; tag_steps
    exact this.of_ok (pure_inv hx) hd
  · refine execute_all middleEndian_pattern middleEndian_min hrt (fun g tx mt ref idx x _ hx hd =>
      fin2 (keeps_middleEndian.of_ok (pure_inv hx)) ?_) h
    have : TagIfDate .middleEndian (middleEndianExtract rt g tx mt ref idx) := by unfold middleEndianExtract middleEndianDay middleEndianRange; tag_steps
    exact this.of_ok (pure_inv hx) hd
  · refine execute_all monthName_pattern monthName_min hrt (fun g tx mt ref idx x _ hx hd =>
      fin2 (keeps_monthName.of_ok (pure_inv hx)) ?_) h
    have : TagIfDate .monthName (monthNameExtract rt g tx mt ref idx) := by unfold monthNameExtract; tag_steps
    exact this.of_ok (pure_inv hx) hd
  · refine execute_all iso_pattern iso_min hrt (fun g tx mt ref idx x _ hx hd =>
      fin2 (keeps_iso.of_ok (pure_inv hx)) ?_) h
    have : TagIfDate .iso (isoExtract rt g tx mt ref idx) := by unfold isoExtract; tag_steps
    exact this.of_ok (pure_inv hx) hd
  · refine execute_all holiday_pattern holiday_min hrt (fun g tx mt ref idx x _ hx hd =>
      fin2 (keeps_holiday.of_ok (pure_inv hx)) ?_) h
    have : TagIfDate .usHolidays (holidayExtract rt g tx mt ref idx) := by unfold holidayExtract; tag_steps
    exact this.of_ok (pure_inv hx) hd

/-- One result, and it has no tag at all. -/
def oneUntagged (o : Out (List PResult × Globals)) : Bool :=
  match o with
  | .ok ([r], _) => modList.all (fun t => !r.getTag t)
  | _ => false

/-- **C59 is false of the code**: the deadline parser returns "in 5 days" without any tag. -/
theorem c59_deadline_untagged_refuted :
    ∃ ref : PTime, oneUntagged (execute (Rt.usual 0) deadlineParser integerWords txt!"in 5 days" ref) = true :=
  ⟨⟨dayNumber 2019 3 15 * 86400000000⟩, by decide +kernel⟩

/-- One result, with the tag. -/
def oneTagged (G : Tag) (o : Out (List PResult × Globals)) : Bool :=
  match o with
  | .ok ([r], _) => r.getTag G
  | _ => false

/-- Hypotheses met: the ISO parser returns a result, tagged. -/
example : oneTagged .iso (execute (Rt.usual 0) isoParser integerWords txt!"on 2019-03-05" ⟨0⟩) = true := by decide +kernel

end Chrono.Props
