import Verif.Props.P08_Execute
/-!
# C17, C18, C20: parsers that recognise nothing; dependence on earlier calls
-/
namespace Chrono.Props
open Chrono Chrono.Spec Chrono.Boost

/-! ## C17 -/

/-- The full names and abbreviations of the weekdays. -/
def weekdayNames : List Text :=
  [txt!"sunday", txt!"monday", txt!"tuesday", txt!"wednesday", txt!"thursday", txt!"friday", txt!"saturday"]

/-- **C17 (what holds).** The weekday parser returns no result for any text whatsoever. -/
theorem c17_weekday_parser_recognises_nothing_partial (rt : Rt) (g : Globals) (text : Text) (ref : PTime) :
    execute rt dayOfWeekParser g text ref = .ok ([], g) := by
  unfold execute; rw [dayOfWeek_pattern]

/-- **C17 (as claimed) is false**: `last friday` contains a weekday and yields nothing. -/
theorem c17_weekday_phrases_refuted :
    ¬ ∀ (rt : Rt) (g : Globals) (text : Text) (ref : PTime), (∃ w ∈ weekdayNames, w <:+: text) →
      ∃ rs g', execute rt dayOfWeekParser g text ref = .ok (rs, g') ∧ rs ≠ [] := by
  intro h
  obtain ⟨rs, g', h1, h2⟩ := h Rt.strict integerWords txt!"last friday" ⟨0⟩
    ⟨txt!"friday", by decide, txt!"last ", [], rfl⟩
  rw [c17_weekday_parser_recognises_nothing_partial] at h1
  simp only [Out.ok.injEq, Prod.mk.injEq] at h1
  exact h2 h1.1.symm

/-! ## C18 -/

theorem mem_slice {t : Text} {a b : Nat} {c : Nat} (h : c ∈ slice t a b) : c ∈ t :=
  List.mem_of_mem_drop (List.mem_of_mem_take h)

theorem search_none_of_needs {r : Re} {b : Nat} {t : Text} (h : r.needs b = true) (hb : b ∉ t) : r.search t = none := by
  cases hs : r.search t with
  | none => rfl
  | some mt =>
    have ok := Re.search_ok hs
    have := ok.lang.needs b h
    unfold Match.str at this
    rw [if_pos rfl, ok.subject] at this
    exact absurd (mem_slice this) hb

theorem mem_toLower_backslash {t : Text} (h : 92 ∉ t) : 92 ∉ toLower t := by
  intro hm
  simp only [toLower, List.mem_map] at hm
  obtain ⟨c, hc, he⟩ := hm
  unfold lowerB at he
  split at he
  · omega
  · subst he; exact h hc

/-- **C18 (what holds).** On every text without a backslash the time-ago and the time-later parser return no
result. -/
theorem c18_ago_and_later_need_a_backslash_partial (rt : Rt) (g : Globals) (text : Text) (ref : PTime)
    (h : 92 ∉ text) :
    execute rt timeAgoParser g text ref = .ok ([], g) ∧ execute rt timeLaterParser g text ref = .ok ([], g) :=
  ⟨execute_none timeAgo_pattern (search_none_of_needs (b := 92) (by decide +kernel) (mem_toLower_backslash h)),
   execute_none timeLater_pattern (search_none_of_needs (b := 92) (by decide +kernel) (mem_toLower_backslash h))⟩

/-- The hypothesis is met by the phrases of the README. -/
example : 92 ∉ txt!"7 years ago" ∧ 92 ∉ txt!"4 days from now" := by decide

/-- **C18 (as claimed) is false.** -/
theorem c18_ago_and_later_refuted (rt : Rt) (ref : PTime) :
    execute rt timeAgoParser integerWords txt!"7 years ago" ref = .ok ([], integerWords) ∧
    execute rt timeLaterParser integerWords txt!"4 days from now" ref = .ok ([], integerWords) :=
  ⟨(c18_ago_and_later_need_a_backslash_partial rt _ _ ref (by decide)).1,
   (c18_ago_and_later_need_a_backslash_partial rt _ _ ref (by decide)).2⟩

/-- With a backslash the parsers do match: what they recognise is `7 years\ago`. -/
example : (Ast.timeAgo.search txt! r"7 years\ago").isSome = true ∧
    (Ast.timeLater.search txt! r"4 days\from now").isSome = true := by decide +kernel

/-! ## C20 -/

/-- The table of number words as some sequence of earlier calls may have left it. -/
inductive Reached (rt : Rt) : Globals → Prop where
  | start : Reached rt integerWords
  | call {g g' : Globals} {P : Parser} {text : Text} {ref : PTime} {rs : List PResult} :
      Reached rt g → P ∈ allParsers → execute rt P g text ref = .ok (rs, g') → Reached rt g'

/-- What a caller sees of an outcome: everything but the hidden table. -/
def visible (x : Out (List PResult × Globals)) : Out (List PResult) := x >>= fun y => .ok y.1

/-- The table has only grown by words with the value 0. -/
def Grown (g : Globals) : Prop :=
  ∀ w, WordMap.lookup g w = WordMap.lookup integerWords w ∨
    (WordMap.lookup integerWords w = none ∧ WordMap.lookup g w = some 0)

/-- Same outcome apart from the table, tables related. -/
inductive SameOut {α : Type} (R : Globals → Globals → Prop) : Out (α × Globals) → Out (α × Globals) → Prop where
  | ok {a g g'} : R g g' → SameOut R (.ok (a, g)) (.ok (a, g'))
  | exn {e} : SameOut R (.exn e) (.exn e)
  | ub : SameOut R .ub .ub
  | unspec : SameOut R .unspec .unspec
  | diverge : SameOut R .diverge .diverge

theorem SameOut.pure {α : Type} {R : Globals → Globals → Prop} {g g' : Globals} (h : R g g') (x : Out α) :
    SameOut R (x >>= fun r => .ok (r, g)) (x >>= fun r => .ok (r, g')) := by
  cases x <;> constructor; exact h

theorem SameOut.visible {R : Globals → Globals → Prop} {x y : Out (List PResult × Globals)} (h : SameOut R x y) :
    Props.visible x = Props.visible y := by
  cases h <;> rfl

theorem execLoop_same {R : Globals → Globals → Prop} {rt : Rt} {P : Parser} {r : Re} {text : Text} {ref : PTime}
    (hx : ∀ g g' k mt idx, R g g' → r.search (text.drop k) = some mt →
      SameOut R (P.extract rt g (text.drop k) mt ref idx) (P.extract rt g' (text.drop k) mt ref idx)) :
    ∀ n g g' k acc, R g g' →
      SameOut R (execLoop rt P r text ref n g (text.drop k) acc) (execLoop rt P r text ref n g' (text.drop k) acc) := by
  intro n
  induction n with
  | zero => intro g g' k acc hg; exact .diverge
  | succ n ih =>
    intro g g' k acc hg
    unfold execLoop
    cases hs : r.search (text.drop k) with
    | none => exact .ok hg
    | some mt =>
      simp only
      have h := hx g g' k mt (mt.position + text.length - (text.drop k).length) hg hs
      generalize P.extract rt g (text.drop k) mt ref (mt.position + text.length - (text.drop k).length) = x at h
      generalize P.extract rt g' (text.drop k) mt ref (mt.position + text.length - (text.drop k).length) = y at h
      cases h with
      | @ok a g1 g2 hg' =>
        simp only [Out.bind_ok]
        split
        · unfold substr
          split
          · simp only [Out.bind_ok]
            exact ih _ _ _ _ hg'
          · exact .exn
        · unfold substr
          split
          · simp only [Out.bind_ok]
            cases hst : rt.stale mt.length with
            | ok len =>
              simp only [Out.bind_ok]
              split
              · simp only [Out.bind_ok]; exact ih _ _ _ _ hg'
              · exact .exn
            | exn e => exact .exn
            | ub => exact .ub
            | unspec => exact .unspec
            | diverge => exact .diverge
          · exact .exn
      | exn => exact .exn
      | ub => exact .ub
      | unspec => exact .unspec
      | diverge => exact .diverge

theorem execute_same {R : Globals → Globals → Prop} {rt : Rt} {P : Parser} {text : Text} {ref : PTime}
    (hx : ∀ r, P.pattern = some r → ∀ g g' k mt idx, R g g' → r.search ((toLower text).drop k) = some mt →
      SameOut R (P.extract rt g ((toLower text).drop k) mt ref idx) (P.extract rt g' ((toLower text).drop k) mt ref idx))
    {g g' : Globals} (hg : R g g') : SameOut R (execute rt P g text ref) (execute rt P g' text ref) := by
  unfold execute
  cases hr : P.pattern with
  | none => exact .ok hg
  | some r =>
    have := execLoop_same (hx r hr) ((toLower text).length + 1) g g' 0 [] hg
    simpa using this

/-! ### The table only grows by zeros -/

theorem lookup_append (g : Globals) (w : Text) : ∀ k, WordMap.lookup (g ++ [(w, 0)]) k =
    match WordMap.lookup g k with
    | some v => some v
    | none => if w = k then some 0 else none := by
  intro k
  induction g with
  | nil => simp only [List.nil_append, WordMap.lookup]
  | cons x g ih =>
    obtain ⟨k', v⟩ := x
    simp only [List.cons_append, WordMap.lookup]
    split
    · rfl
    · exact ih

theorem grown_touch {g : Globals} (h : Grown g) (w : Text) : Grown (WordMap.touch g w) := by
  unfold WordMap.touch
  cases hl : WordMap.lookup g w with
  | some _ => exact h
  | none =>
    intro k
    rw [lookup_append]
    rcases h k with hk | ⟨hk, hk'⟩
    · cases hlk : WordMap.lookup g k with
      | some v => left; rw [← hk, hlk]
      | none =>
        simp only
        split
        · right; exact ⟨by rw [← hk, hlk], rfl⟩
        · left; rw [← hk, hlk]
    · rw [hk']; right; exact ⟨hk, rfl⟩

theorem grown_get {g g' : Globals} (h : Grown g) (h' : Grown g') (w : Text) : WordMap.get g w = WordMap.get g' w := by
  unfold WordMap.get
  rcases h w with e | ⟨e1, e2⟩ <;> rcases h' w with f | ⟨f1, f2⟩
  · rw [e, f]
  · rw [e, f1, f2]; rfl
  · rw [e2, f, e1]; rfl
  · rw [e2, f2]

theorem week_same {rt : Rt} {g g' : Globals} {tx : Text} {mt : Match} {ref : PTime} {idx : Nat} (h : Grown g)
    (h' : Grown g') : SameOut (fun a b => Grown a ∧ Grown b) (weekExtract rt g tx mt ref idx)
      (weekExtract rt g' tx mt ref idx) := by
  have fin : ∀ (n : Int) (a b : Globals), Grown a → Grown b →
      SameOut (fun a b => Grown a ∧ Grown b)
        (weekShift ref (mt.str 2) n >>= fun tmp => implyDate (PResult.mk' ref idx (mt.str 0)) tmp >>= fun r => .ok (r, a))
        (weekShift ref (mt.str 2) n >>= fun tmp => implyDate (PResult.mk' ref idx (mt.str 0)) tmp >>= fun r => .ok (r, b)) := by
    intro n a b ha hb
    cases weekShift ref (mt.str 2) n with
    | ok d => exact SameOut.pure ⟨ha, hb⟩ (implyDate (PResult.mk' ref idx (mt.str 0)) d)
    | exn e => exact .exn
    | ub => exact .ub
    | unspec => exact .unspec
    | diverge => exact .diverge
  unfold weekExtract
  simp only [Out.pure_eq]
  unfold weekNumber
  split
  · cases stoi (mt.str 3) with
    | ok n => exact fin n g g' h h'
    | exn e => exact .exn
    | ub => exact .ub
    | unspec => exact .unspec
    | diverge => exact .diverge
  · split
    · rw [grown_get h h']
      exact fin _ _ _ (grown_touch h (mt.str 4)) (grown_touch h' (mt.str 4))
    · exact fin 1 g g' h h'

/-! ### What the other parsers read of the table -/

theorem pure_same {f : Rt → Globals → Text → Match → PTime → Nat → Out PResult} {R : Globals → Globals → Prop}
    {rt : Rt} {g g' : Globals} {tx : Text} {mt : Match} {ref : PTime} {idx : Nat} (hg : R g g')
    (h : f rt g tx mt ref idx = f rt g' tx mt ref idx) :
    SameOut R (pureExtract f rt g tx mt ref idx) (pureExtract f rt g' tx mt ref idx) := by
  unfold pureExtract
  rw [h]
  exact SameOut.pure hg _

theorem str_infix {r : Re} {t : Text} {mt : Match} (h : r.search t = some mt) (n : Nat) : mt.str n <:+: t := by
  have ok := Re.search_ok h
  have hs : ∀ a b, slice t a b <:+: t := fun a b => by
    unfold slice
    exact (List.take_prefix _ _).isInfix.trans (List.drop_suffix _ _).isInfix
  by_cases hn : n = 0
  · subst hn; unfold Match.str; rw [if_pos rfl, ok.subject]; exact hs _ _
  · rcases ok.group n hn with ⟨-, h⟩ | ⟨a, b, -, -, -, -, h, -⟩
    · rw [h]; exact List.nil_infix
    · rw [h]; exact hs _ _

/-- The parsers other than the deadline and the relative one. -/
def otherParsers : List Parser :=
  [casualTimeParser, dayOfWeekParser, casualDateParser, middleEndianParser, timeLaterParser, monthNameParser,
   timeAgoParser, timeExprParser, isoParser, holidayParser, weekParser]

theorem other_same {P : Parser} (hP : P ∈ otherParsers) {rt : Rt} {g g' : Globals} (hg : Grown g) (hg' : Grown g')
    (text : Text) (ref : PTime) :
    SameOut (fun a b => Grown a ∧ Grown b) (execute rt P g text ref) (execute rt P g' text ref) := by
  refine execute_same (fun r _ g g' k mt idx hgg _ => ?_) ⟨hg, hg'⟩
  simp only [otherParsers, List.mem_cons, List.not_mem_nil, or_false] at hP
  rcases hP with rfl | rfl | rfl | rfl | rfl | rfl | rfl | rfl | rfl | rfl | rfl
  case inr.inr.inr.inr.inr.inr.inr.inr.inr.inr =>
    have e : weekParser.extract = weekExtract := by unfold weekParser; rfl
    rw [e]
    exact week_same hgg.1 hgg.2
  all_goals
    exact pure_same (R := fun a b => Grown a ∧ Grown b) (g := g) (g' := g') hgg (by rfl)

theorem deadline_same {rt : Rt} {g g' : Globals} {text : Text} {ref : PTime}
    (h : ∀ w, w <:+: toLower text → WordMap.lookup g w = WordMap.lookup g' w) :
    SameOut (fun a b => a = g ∧ b = g') (execute rt deadlineParser g text ref) (execute rt deadlineParser g' text ref) ∧
    SameOut (fun a b => a = g ∧ b = g') (execute rt relativeParser g text ref) (execute rt relativeParser g' text ref) := by
  constructor
  all_goals
    refine execute_same (fun r _ a b k mt idx hgg hs => ?_) ⟨rfl, rfl⟩
    obtain ⟨rfl, rfl⟩ := hgg
    have hl := h (mt.str 3) ((str_infix hs 3).trans (List.drop_suffix _ _).isInfix)
    refine pure_same ⟨rfl, rfl⟩ ?_
  · unfold deadlineExtract deadlineNumber; rw [hl]
  · unfold relativeExtract relativeNumber; rw [hl]

theorem parser_cases {P : Parser} (h : P ∈ allParsers) : P ∈ otherParsers ∨ P = deadlineParser ∨ P = relativeParser := by
  simp only [allParsers, mainParsers, List.cons_append, List.nil_append, List.mem_cons, List.not_mem_nil, or_false] at h
  simp only [otherParsers, List.mem_cons, List.not_mem_nil, or_false]
  rcases h with rfl | rfl | rfl | rfl | rfl | rfl | rfl | rfl | rfl | rfl | rfl | rfl | rfl <;> simp

theorem reached_grown {rt : Rt} {g : Globals} (h : Reached rt g) : Grown g := by
  induction h with
  | start => intro w; left; rfl
  | @call g g' P text ref rs _ hP hx ih =>
    rcases parser_cases hP with hP | rfl | rfl
    · have := other_same hP ih ih (rt := rt) text ref
      rw [hx] at this
      cases this with
      | ok h => exact h.1
    · have := (deadline_same (rt := rt) (g := g) (g' := g) (text := text) (ref := ref) (fun _ _ => rfl)).1
      rw [hx] at this
      cases this with
      | ok h => rw [h.1]; exact ih
    · have := (deadline_same (rt := rt) (g := g) (g' := g) (text := text) (ref := ref) (fun _ _ => rfl)).2
      rw [hx] at this
      cases this with
      | ok h => rw [h.1]; exact ih

/-- **C20 (eleven parsers).** Whatever was parsed before, every parser other than the deadline and the relative one
gives the same results as in a fresh process. -/
theorem c20_eleven_parsers_ignore_history (rt : Rt) (g : Globals) (hg : Reached rt g) (P : Parser)
    (hP : P ∈ otherParsers) (text : Text) (ref : PTime) :
    visible (execute rt P g text ref) = visible (execute rt P integerWords text ref) :=
  (other_same hP (reached_grown hg) (reached_grown (Reached.start (rt := rt))) text ref).visible

/-- **C20 (all parsers, partial).** Whatever was parsed before, every parser gives the same results as in a fresh
process on a text in which no word occurs that earlier calls have added to the table. -/
theorem c20_history_matters_only_through_added_words_partial (rt : Rt) (g : Globals) (hg : Reached rt g) (P : Parser)
    (hP : P ∈ allParsers) (text : Text) (ref : PTime)
    (h : ∀ w, WordMap.lookup g w ≠ WordMap.lookup integerWords w → ¬ w <:+: toLower text) :
    visible (execute rt P g text ref) = visible (execute rt P integerWords text ref) := by
  have h' : ∀ w, w <:+: toLower text → WordMap.lookup g w = WordMap.lookup integerWords w := by
    intro w hw
    by_contra hne
    exact h w hne hw
  rcases parser_cases hP with hP | rfl | rfl
  · exact c20_eleven_parsers_ignore_history rt g hg P hP text ref
  · exact (deadline_same h').1.visible
  · exact (deadline_same h').2.visible

/-- The table after `next half week`. -/
def afterHalf : Globals := integerWords ++ [(txt!"half", 0)]

/-- The minutes of the results. -/
def minutesOf (x : Out (List PResult)) : List Int :=
  match x with
  | .ok rs => rs.map fun r => r.startDate.get .min
  | _ => []

/-- 2019-03-15 12:00:00. -/
def noonRef : PTime := ⟨(dayNumber 2019 3 15 : Int) * 86400000000 + 43200000000⟩

/-- The table after a call. -/
def tableOf (x : Out (List PResult × Globals)) : Option Globals :=
  match x with
  | .ok y => some y.2
  | _ => none

theorem tableOf_some {x : Out (List PResult × Globals)} {g : Globals} (h : tableOf x = some g) :
    ∃ rs, x = .ok (rs, g) := by
  cases x with
  | ok y => simp only [tableOf, Option.some.injEq] at h; exact ⟨y.1, by rw [← h]⟩
  | _ => simp [tableOf] at h

theorem afterHalf_reached : Reached (Rt.usual 0) afterHalf := by
  obtain ⟨rs, h⟩ := tableOf_some (x := execute (Rt.usual 0) weekParser integerWords txt!"next half week" noonRef)
    (g := afterHalf) (by decide +kernel)
  exact .call .start (by simp [allParsers, mainParsers]) h

/-- **C20 (as claimed) is false**: `in half hour` means 30 minutes from now in a fresh process, and no time from now
once `next half week` has been parsed. -/
theorem c20_history_independence_refuted :
    ¬ ∀ (rt : Rt) (g : Globals), Reached rt g → ∀ P ∈ allParsers, ∀ text ref,
      visible (execute rt P g text ref) = visible (execute rt P integerWords text ref) := by
  intro h
  have h1 := h _ _ afterHalf_reached deadlineParser (by simp [allParsers, mainParsers]) txt!"in half hour" noonRef
  have h2 := congrArg minutesOf h1
  revert h2
  decide +kernel

/-- The hypothesis of the partial theorem is met by a table that did grow. -/
example : Reached (Rt.usual 0) afterHalf ∧
    ∀ w, WordMap.lookup afterHalf w ≠ WordMap.lookup integerWords w → ¬ w <:+: toLower txt!"in two hours" := by
  refine ⟨afterHalf_reached, fun w hw => ?_⟩
  have : w = txt!"half" := by
    by_contra hne
    apply hw
    unfold afterHalf
    rw [lookup_append]
    cases h : WordMap.lookup integerWords w with
    | some v => rfl
    | none => simp only; rw [if_neg (fun h => hne h.symm)]
  subst this
  decide

end Chrono.Props
