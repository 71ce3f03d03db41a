import Verif.Spec.Merge
import Verif.Lemmas.RegexRel
import Verif.Props.P03_Calendar
import Verif.Model.Refiners.MergeDateTime
import Verif.Model.Refiners.MergeDateRange
/-!
# C48-C52: the two merging refiners
-/
namespace Chrono.Props
open Chrono Chrono.Spec Chrono.Boost

/-! ## The connector pattern -/

/-- The connector pattern finds a match in every text, even the empty one. -/
theorem connector_always (t : Text) : searches true Pat.connector t = .ok true := by
  unfold searches
  rw [Ast.compile_connector]
  simp only [Out.ok.injEq]
  cases h : Ast.connector.search t with
  | some _ => rfl
  | none =>
    exfalso
    exact Re.search_none h 0 (Nat.zero_le _) (startSt t 0) (.altR (.eps _))

theorem mdtAble_inside {text : Text} {p c : PResult} (h : stop p ≤ text.length) :
    mdtAble text p c = .ok true := by
  unfold mdtAble substrN
  unfold stop at h
  rw [if_pos h]
  exact connector_always _

theorem dateOnly_iff (r : PResult) : isDateOnly r = true ↔ DateOnly r := by
  unfold isDateOnly DateOnly
  have : r.startDate.isCertainName txt!"hour" = r.startDate.certain .hour := rfl
  rw [this]; simp

theorem timeOnly_iff (r : PResult) : isTimeOnly r = true ↔ TimeOnly r := by
  unfold isTimeOnly TimeOnly
  have h1 : r.startDate.isCertainName txt!"month" = r.startDate.certain .month := rfl
  have h2 : r.startDate.isCertainName txt!"mday" = r.startDate.certain .mday := rfl
  rw [h1, h2]; simp

/-! ## C48 -/

theorem copyTags_fields (src dst : PResult) : ∃ q, copyTags src dst = q ∧ q.index = dst.index ∧ q.text = dst.text ∧
    q.startDate = dst.startDate ∧ q.endDate = dst.endDate ∧ q.hasEnd = dst.hasEnd ∧
    (∀ t, dst.getTag t = true → q.getTag t = true) ∧
    (∀ t, q.getTag t = true → dst.getTag t = true ∨ src.getTag t = true) ∧
    (∀ t, src.getTag t = false → q.tags t = dst.tags t) ∧
    (∀ t, src.getTag t = true → dst.tags t = none → q.getTag t = true) := by
  refine ⟨_, rfl, ?_⟩
  have hset : ∀ (d : PResult) (m : Tag), (d.setTag m).index = d.index ∧ (d.setTag m).text = d.text ∧
      (d.setTag m).startDate = d.startDate ∧ (d.setTag m).endDate = d.endDate ∧ (d.setTag m).hasEnd = d.hasEnd ∧
      (∀ t, (d.setTag m).tags t = if t = m then (match d.tags m with | some b => some b | none => some true)
        else d.tags t) := by
    intro d m
    unfold PResult.setTag
    cases h : d.tags m with
    | some b => refine ⟨rfl, rfl, rfl, rfl, rfl, fun t => ?_⟩; split <;> simp_all
    | none => refine ⟨rfl, rfl, rfl, rfl, rfl, fun t => ?_⟩; simp
  have gen : ∀ (l : List Tag) (d : PResult), ∀ q, l.foldl (fun d m => if src.getTag m then d.setTag m else d) d = q →
      q.index = d.index ∧ q.text = d.text ∧ q.startDate = d.startDate ∧ q.endDate = d.endDate ∧ q.hasEnd = d.hasEnd ∧
      (∀ t, q.tags t = if src.getTag t = true ∧ t ∈ l then
          (match d.tags t with | some b => some b | none => some true) else d.tags t) := by
    intro l
    induction l with
    | nil => rintro d q rfl; simp
    | cons m l ih =>
      intro d q hq
      rw [List.foldl_cons] at hq
      by_cases hm : src.getTag m = true
      · rw [if_pos hm] at hq
        obtain ⟨a1, a2, a3, a4, a5, a6⟩ := ih _ _ hq
        obtain ⟨b1, b2, b3, b4, b5, b6⟩ := hset d m
        refine ⟨a1.trans b1, a2.trans b2, a3.trans b3, a4.trans b4, a5.trans b5, fun t => ?_⟩
        rw [a6 t, b6 t]
        by_cases ht : t = m
        · subst ht
          simp only [hm, true_and, List.mem_cons, true_or, if_true]
          cases d.tags t <;> simp
        · simp [ht]
      · rw [if_neg hm] at hq
        obtain ⟨a1, a2, a3, a4, a5, a6⟩ := ih _ _ hq
        refine ⟨a1, a2, a3, a4, a5, fun t => ?_⟩
        rw [a6 t]
        by_cases ht : t = m
        · subst ht; simp [hm]
        · simp [ht]
  obtain ⟨a1, a2, a3, a4, a5, a6⟩ := gen modList dst _ rfl
  have hall : ∀ t : Tag, t ∈ modList := by intro t; cases t <;> decide
  refine ⟨a1, a2, a3, a4, a5, ?_, ?_, ?_, ?_⟩
  · intro t h
    unfold PResult.getTag at h ⊢
    unfold copyTags
    rw [a6 t]
    split
    · cases hd : dst.tags t <;> simp_all
    · exact h
  · intro t h
    by_cases hs : src.getTag t = true
    · exact .inr hs
    · left
      unfold PResult.getTag at h ⊢
      unfold copyTags at h
      rw [a6 t, if_neg (by simp [hs])] at h
      exact h
  · intro t h; unfold copyTags; rw [a6 t, if_neg (by simp [h])]
  · intro t h h'
    unfold copyTags
    show (PResult.tags _ t).getD false = true
    rw [a6 t, if_pos ⟨h, hall t⟩, h']; rfl

theorem setTag_fields (d : PResult) (m : Tag) : (d.setTag m).index = d.index ∧ (d.setTag m).text = d.text ∧
      (d.setTag m).startDate = d.startDate ∧ (d.setTag m).endDate = d.endDate ∧ (d.setTag m).hasEnd = d.hasEnd ∧
      (d.tags m ≠ some false → (d.setTag m).getTag m = true) ∧
      (∀ t, t ≠ m → (d.setTag m).tags t = d.tags t) := by
  unfold PResult.setTag
  cases h : d.tags m with
  | some b =>
    refine ⟨rfl, rfl, rfl, rfl, rfl, fun hb => ?_, fun _ _ => rfl⟩
    unfold PResult.getTag; rw [h]; cases b <;> simp_all
  | none =>
    refine ⟨rfl, rfl, rfl, rfl, rfl, fun _ => by simp [PResult.getTag], fun t ht => by simp [ht]⟩

theorem get_set (c : Comps) (k k' : Key) (v : Int) : (c.set k v).get k' = if k' = k then v else c.get k' := by
  unfold Comps.get Comps.set Comps.upd
  by_cases h : k' = k <;> simp [h]

theorem get_imply (c : Comps) (k k' : Key) (v : Int) :
    (c.imply k v).get k' = if k' = k ∧ (c.known k).1 = false then v else c.get k' := by
  unfold Comps.get Comps.imply
  cases h : (c.known k).1 with
  | true => simp
  | false =>
    unfold Comps.upd
    by_cases h' : k' = k
    · subst h'; simp [h]
    · simp [h']

theorem known_imply (c : Comps) (k k' : Key) (v : Int) : (c.imply k v).known k' = c.known k' := by
  unfold Comps.imply; split <;> rfl

theorem known_set (c : Comps) (k k' : Key) (v : Int) :
    (c.set k v).known k' = if k' = k then (true, v) else c.known k' := rfl

/-- The getters of merged components. -/
theorem mergeComponent_get (d t : Comps) (hh : d.certain .hour = false)
    (hm : (d.known .min).1 = false) (hs : (d.known .sec).1 = false) :
    let c := mergeDateTimeComponent d t
    (∀ k, k ≠ .hour → k ≠ .min → k ≠ .sec → c.get k = d.get k) ∧
    c.get .hour = t.get .hour ∧ c.get .min = t.get .min ∧ c.get .sec = t.get .sec := by
  have hh' : (d.known .hour).1 = false := hh
  simp only
  unfold mergeDateTimeComponent
  split
  · simp only
    split
    · refine ⟨fun k h1 h2 h3 => by simp [get_set, h1, h2, h3], ?_, ?_, ?_⟩ <;> simp [get_set]
    · refine ⟨fun k h1 h2 h3 => by simp [get_set, get_imply, h1, h2, h3], ?_, ?_, ?_⟩ <;>
        simp [get_set, get_imply, known_set, hs]
  · refine ⟨fun k h1 h2 h3 => by simp [get_imply, h1, h2, h3], ?_, ?_, ?_⟩ <;>
      simp [get_imply, known_imply, hs, hm, hh']

/-- Everything about a successful merge. -/
theorem mdtMerge_ok {text : Text} {d t m : PResult}
    (hid : Inside text d) (hit : Inside text t) (h : mdtMerge text d t = .ok m) :
    m.startDate = mergeDateTimeComponent d.startDate t.startDate ∧
    m.index = min d.index t.index ∧ stop m = max (stop d) (stop t) ∧
    m.hasEnd = (d.hasEnd || t.hasEnd) ∧
    (d.tags .mergeDateAndTime ≠ some false → m.getTag .mergeDateAndTime = true) ∧
    (∀ g, t.getTag g = true → d.tags g = none → m.getTag g = true) ∧
    (∀ g, d.getTag g = true → m.getTag g = true) := by
  unfold mdtMerge at h
  obtain ⟨e?, he, h⟩ := Out.bind_eq_ok.1 h
  have hend : e?.isSome = (d.hasEnd || t.hasEnd) := by
    unfold mergedEnd at he
    cases hx : (d.hasEnd || t.hasEnd) with
    | false => rw [if_neg (by simp [hx])] at he; simp at he; subst he; rfl
    | true =>
      rw [if_pos hx] at he
      simp only at he
      generalize mergeDateTimeComponent _ _ = e at he
      split at he
      · obtain ⟨_, _, he⟩ := Out.bind_eq_ok.1 he
        obtain ⟨_, _, he⟩ := Out.bind_eq_ok.1 he
        split at he
        · split at he <;> (simp at he; subst he; rfl)
        · simp at he; subst he; rfl
      · simp at he; subst he; rfl
  -- the record before copying tags
  obtain ⟨q, hq, q1, q2, q3, q4, q5⟩ : ∃ q : PResult,
      mergedRecord d (mergeDateTimeComponent d.startDate t.startDate) e? = q ∧
      q.index = d.index ∧ q.text = d.text ∧ q.tags = d.tags ∧ q.hasEnd = (d.hasEnd || t.hasEnd) ∧
      q.startDate = mergeDateTimeComponent d.startDate t.startDate := by
    refine ⟨_, rfl, ?_⟩
    cases e? with
    | some e => exact ⟨rfl, rfl, rfl, hend, rfl⟩
    | none =>
      refine ⟨rfl, rfl, rfl, ?_, rfl⟩
      have : (d.hasEnd || t.hasEnd) = false := hend.symm
      rw [this]
      simp only [Bool.or_eq_false_iff] at this
      exact this.1
  rw [hq] at h
  obtain ⟨hid1, hid2⟩ := hid
  obtain ⟨hit1, -⟩ := hit
  unfold stop PResult.textLength at hid1 hit1
  simp only [PResult.textLength, q1, q2] at h
  unfold substrN at h
  rw [if_pos (by omega)] at h
  simp only [Out.bind_ok, Out.pure_eq, Out.ok.injEq] at h
  generalize hw : ((q.setIndex (min d.index t.index)).setText _) = w at h
  have w1 : w.index = min d.index t.index := by
    rw [← hw]
    simp only [PResult.setText, PResult.setIndex, PResult.toU32]
    omega
  have w2 : w.text = List.take (max (d.index + d.text.length) (t.index + t.text.length) - min d.index t.index)
      (List.drop (min d.index t.index) text) := by rw [← hw]; rfl
  have w3 : w.startDate = q.startDate := by rw [← hw]; rfl
  have w4 : w.hasEnd = q.hasEnd := by rw [← hw]; rfl
  have w5 : w.tags = q.tags := by rw [← hw]; rfl
  obtain ⟨z, hz, z1, z2, z3, -, z5, z6, -, z8, z9⟩ := copyTags_fields t w
  rw [hz] at h
  obtain ⟨s1, s2, s3, s4, s5, s6, s7⟩ := setTag_fields z .mergeDateAndTime
  subst h
  refine ⟨?_, ?_, ?_, ?_, ?_, ?_, ?_⟩
  · rw [s3, z3, w3, q5]
  · rw [s1, z1, w1]
  · unfold stop PResult.textLength
    rw [s1, z1, w1, s2, z2, w2]
    simp only [List.length_take, List.length_drop]
    omega
  · rw [s5, z5, w4, q4]
  · intro h
    apply s6
    intro hz'
    cases ht : t.getTag .mergeDateAndTime with
    | false => rw [z8 _ ht, w5, q3] at hz'; exact h hz'
    | true =>
      cases hd' : d.tags .mergeDateAndTime with
      | none =>
        have := z9 _ ht (by rw [w5, q3, hd'])
        unfold PResult.getTag at this; rw [hz'] at this; simp at this
      | some b =>
        cases b with
        | false => exact h hd'
        | true =>
          have := z6 .mergeDateAndTime (by unfold PResult.getTag; rw [w5, q3, hd']; rfl)
          unfold PResult.getTag at this; rw [hz'] at this; simp at this
  · intro g hg hg'
    have := z9 g hg (by rw [w5, q3, hg'])
    by_cases hgm : g = .mergeDateAndTime
    · subst hgm
      apply s6
      unfold PResult.getTag at this
      intro h; rw [h] at this; simp at this
    · unfold PResult.getTag at this ⊢
      rw [s7 g hgm]; exact this
  · intro g hg
    have := z6 g (by unfold PResult.getTag at hg ⊢; rw [w5, q3]; exact hg)
    by_cases hgm : g = .mergeDateAndTime
    · subst hgm
      apply s6
      unfold PResult.getTag at this
      intro h; rw [h] at this; simp at this
    · unfold PResult.getTag at this ⊢
      rw [s7 g hgm]; exact this

/-- **C48.** Merging a date result with a time result: the merged start has the year, month, day, weekday and
offset of the date and the hour, minute and second of the time; the span is the smallest one that covers both; the
tag is set unless it had been read before; there is an end iff one of the two had one.  (The date result must not
have a minute or second of its own.) -/
theorem c48_merge_takes_date_and_time (text : Text) (d t m : PResult) (hd : DateOnly d)
    (hmin : (d.startDate.known .min).1 = false) (hsec : (d.startDate.known .sec).1 = false)
    (hid : Inside text d) (hit : Inside text t) (h : mdtMerge text d t = .ok m) :
    (∀ k ∈ [Key.year, .month, .mday, .wday, .tzoffset], m.startDate.get k = d.startDate.get k) ∧
    (∀ k ∈ [Key.hour, .min, .sec], m.startDate.get k = t.startDate.get k) ∧
    m.index = min d.index t.index ∧ stop m = max (stop d) (stop t) ∧
    m.hasEnd = (d.hasEnd || t.hasEnd) ∧
    (d.tags .mergeDateAndTime ≠ some false → m.getTag .mergeDateAndTime = true) ∧
    (∀ g, t.getTag g = true → d.tags g = none → m.getTag g = true) ∧
    (∀ g, d.getTag g = true → m.getTag g = true) := by
  have hh : d.startDate.certain .hour = false := hd
  obtain ⟨g1, g2, g3, g4⟩ := mergeComponent_get d.startDate t.startDate hh hmin hsec
  obtain ⟨h1, h2⟩ := mdtMerge_ok hid hit h
  refine ⟨?_, ?_, h2⟩
  · intro k hk
    rw [h1]
    apply g1 <;> (intro h; subst h; simp at hk)
  · intro k hk
    rw [h1]
    simp at hk
    rcases hk with rfl | rfl | rfl <;> assumption

/-- A date and a time as the parsers produce them ("tomorrow" at 0..8, "5pm" at 12..15 of the text). -/
def exDate : PResult :=
  ((PResult.mk' ⟨0⟩ 0 txt!"tomorrow").onStart (fun c => ((c.set .year 2019).set .month 3).set .mday 16)).setTag .casualDate
def exTime : PResult :=
  ((PResult.mk' ⟨0⟩ 12 txt!"5pm").onStart (fun c => ((c.set .hour 17).set .min 30).imply .year 2019)).setTag
    .timeExpression

/-- The hypotheses of C48 are met, and its conclusion is visible: 2019-03-16 at 17:30, span 0..15. -/
example : ∃ m, mdtMerge txt!"tomorrow at 5pm" exDate exTime = .ok m ∧ DateOnly exDate ∧
    Inside txt!"tomorrow at 5pm" exDate ∧ Inside txt!"tomorrow at 5pm" exTime ∧
    m.startDate.get .mday = 16 ∧ m.startDate.get .hour = 17 ∧ m.startDate.get .min = 30 ∧ m.index = 0 ∧
    stop m = 15 :=
  ⟨_, rfl, by decide, by decide, by decide, by decide, by decide, by decide, by decide, by decide⟩

/-! ## C49, C50 -/

/-- `m` is what merging the neighbours `a`, `b` gives: one is the date, the other the time. -/
def DateTimeMerge (text : Text) (a b m : PResult) : Prop :=
  (DateOnly a ∧ TimeOnly b ∧ mdtMerge text a b = .ok m) ∨
  (DateOnly b ∧ TimeOnly a ∧ mdtMerge text b a = .ok m)

theorem mdtAble_eq (text : Text) (p c : PResult) :
    mdtAble text p c = if stop p ≤ text.length then .ok true else .exn .outOfRange := by
  by_cases h : stop p ≤ text.length
  · rw [if_pos h, mdtAble_inside h]
  · rw [if_neg h]
    unfold mdtAble substrN
    unfold stop at h
    rw [if_neg h]; rfl

theorem mdtStep_eq (text : Text) (p c : PResult) : mdtStep text p c =
    if DateTimePair p c then
      if stop p ≤ text.length then
        if DateOnly p ∧ TimeOnly c then (mdtMerge text p c >>= fun m => .ok (some m))
        else (mdtMerge text c p >>= fun m => .ok (some m))
      else .exn .outOfRange
    else .ok none := by
  have e1 : (isDateOnly p && isTimeOnly c) = decide (DateOnly p ∧ TimeOnly c) := by
    rw [Bool.eq_iff_iff]; simp [dateOnly_iff, timeOnly_iff]
  have e2 : (isDateOnly c && isTimeOnly p) = decide (DateOnly c ∧ TimeOnly p) := by
    rw [Bool.eq_iff_iff]; simp [dateOnly_iff, timeOnly_iff]
  unfold mdtStep DateTimePair
  rw [mdtAble_eq, e1, e2]
  by_cases h1 : DateOnly p ∧ TimeOnly c <;> by_cases h2 : DateOnly c ∧ TimeOnly p <;>
    by_cases h3 : stop p ≤ text.length <;> simp [h1, h2, h3]

theorem mdtStep_some {text : Text} {p c m : PResult} (h : mdtStep text p c = .ok (some m)) :
    DateTimeMerge text p c m := by
  rw [mdtStep_eq] at h
  split at h
  · rename_i hp
    split at h
    · split at h
      · rename_i h1
        obtain ⟨m', hm', h⟩ := Out.bind_eq_ok.1 h
        simp at h; subst h
        exact .inl ⟨h1.1, h1.2, hm'⟩
      · rename_i h1
        obtain ⟨m', hm', h⟩ := Out.bind_eq_ok.1 h
        simp at h; subst h
        rcases hp with hp | hp
        · exact absurd hp h1
        · exact .inr ⟨hp.1, hp.2, hm'⟩
    · simp at h
  · simp at h

theorem mdtStep_none {text : Text} {p c : PResult}
    (h : mdtStep text p c = .ok none) : ¬ DateTimePair p c := by
  intro hp
  rw [mdtStep_eq, if_pos hp] at h
  split at h
  · split at h <;> (obtain ⟨m', hm', h⟩ := Out.bind_eq_ok.1 h; simp at h)
  · simp at h

theorem mdtStep_not_pair {text : Text} {p c : PResult} (h : ¬ DateTimePair p c) :
    mdtStep text p c = .ok none := by
  rw [mdtStep_eq, if_neg h]

theorem mdtLoop_pass (text : Text) : ∀ (n : Nat) (l : List PResult), l.length ≤ n → l ≠ [] →
    (∀ r ∈ l, NonEmpty r) → ∀ out, mdtLoop text (l.getD 1 (l.headD PResult.default)) l = .ok out →
    MergePass (DateTimeMerge text) l out := by
  intro n
  induction n with
  | zero => intro l hl hne; cases l <;> simp_all
  | succ n ih =>
    intro l hl hne hx out h
    match l, hl, hne, hx, h with
    | [r], _, _, hx, h =>
      have hr : r.isEmpty = false := by
        have := hx r (by simp)
        unfold NonEmpty PResult.textLength at this
        unfold PResult.isEmpty
        cases ht : r.text <;> simp_all
      simp [mdtLoop, hr] at h
      subst h
      exact .keep .nil
    | p :: c :: rest, hl, _, hx, h =>
      unfold mdtLoop at h
      obtain ⟨o, ho, h⟩ := Out.bind_eq_ok.1 h
      cases o with
      | some m =>
        simp only at h
        obtain ⟨tl, htl, h⟩ := Out.bind_eq_ok.1 h
        simp at h; subst h
        have hm := mdtStep_some ho
        match rest, hl, hx, htl with
        | [], _, hx, htl =>
          have hr : c.isEmpty = false := by
            have := hx c (by simp)
            unfold NonEmpty PResult.textLength at this
            unfold PResult.isEmpty
            cases ht : c.text <;> simp_all
          simp [mdtLoop, hr] at htl
          subst htl
          exact .mergeLast hm
        | r :: rest, hl, hx, htl =>
          refine .merge hm (ih (r :: rest) (by simp at hl ⊢; omega) (by simp)
            (fun x hx' => hx x (by simp at hx' ⊢; tauto)) _ ?_)
          simp only [List.headD_cons] at htl
          match rest, htl with
          | [], htl => exact htl
          | r2 :: rest, htl =>
            have : ∀ c c', mdtLoop text c (r :: r2 :: rest) = mdtLoop text c' (r :: r2 :: rest) := by
              intro c c'; simp [mdtLoop]
            rw [← htl]; exact this _ _
      | none =>
        simp only at h
        obtain ⟨tl, htl, h⟩ := Out.bind_eq_ok.1 h
        simp at h; subst h
        refine .keep (ih (c :: rest) (by simp at hl ⊢; omega) (by simp)
            (fun x hx' => hx x (by simp at hx' ⊢; tauto)) _ ?_)
        match rest, htl with
        | [], htl => exact htl
        | r2 :: rest, htl =>
          have : ∀ x x', mdtLoop text x (c :: r2 :: rest) = mdtLoop text x' (c :: r2 :: rest) := by
            intro x x'; simp [mdtLoop]
          rw [← htl]; exact this _ _

/-- **C50 (every outcome is a merge pass).** Whatever the date/time refiner returns for a list of non-empty
mentions, it is the input with some neighbouring date/time pairs replaced by their merge, nothing else lost,
reordered or added - except that the second element of the last pair stays when that pair is merged. -/
theorem c50_output_is_merge_pass (rs out : List PResult) (text : Text) (hne : ∀ r ∈ rs, NonEmpty r)
    (h : mdtRefine rs text = .ok out) : MergePass (DateTimeMerge text) rs out := by
  match rs, hne, h with
  | [], _, h => simp [mdtRefine] at h; subst h; exact .nil
  | [r], _, h => simp [mdtRefine] at h; subst h; exact .keep .nil
  | p :: c :: rest, hne, h =>
    exact mdtLoop_pass text _ (p :: c :: rest) (Nat.le_refl _) (by simp) hne out h

/-- **C50 (nothing lost).** Every input result is in the output, or is one of two neighbours whose merge is. -/
theorem c50_unmerged_results_survive (rs out : List PResult) (text : Text) (hne : ∀ r ∈ rs, NonEmpty r)
    (h : mdtRefine rs text = .ok out) (r : PResult) (hr : r ∈ rs) :
    r ∈ out ∨ ∃ a b m, [a, b] <:+: rs ∧ (r = a ∨ r = b) ∧ DateTimeMerge text a b m ∧ m ∈ out := by
  have hp := c50_output_is_merge_pass rs out text hne h
  clear h hne
  induction hp with
  | nil => simp at hr
  | @keep x inp out _ ih =>
    rcases List.mem_cons.1 hr with rfl | hr
    · left; simp
    · rcases ih hr with h | ⟨a, b, m, h1, h2, h3, h4⟩
      · left; simp [h]
      · right; exact ⟨a, b, m, h1.trans (List.infix_cons (List.infix_refl _)), h2, h3, by simp [h4]⟩
  | @merge a b m x inp out hm _ ih =>
    rcases List.mem_cons.1 hr with rfl | hr
    · right; exact ⟨r, b, m, ⟨[], x :: inp, rfl⟩, .inl rfl, hm, by simp⟩
    · rcases List.mem_cons.1 hr with rfl | hr
      · right; exact ⟨a, r, m, ⟨[], x :: inp, rfl⟩, .inr rfl, hm, by simp⟩
      · rcases ih hr with h | ⟨a', b', m', h1, h2, h3, h4⟩
        · left; simp [h]
        · right
          exact ⟨a', b', m', h1.trans (List.infix_cons (List.infix_cons (List.infix_refl _))), h2, h3, by simp [h4]⟩
  | @mergeLast a b m hm =>
    right
    refine ⟨a, b, m, List.infix_refl _, ?_, hm, by simp⟩
    simpa using hr

/-- **C50 (identity).** If no two neighbours are a date/time pair, the refiner returns its input. -/
theorem c50_identity_without_pairs (rs : List PResult) (text : Text) (hne : ∀ r ∈ rs, NonEmpty r)
    (hno : Neighbours (fun a b => ¬ DateTimePair a b) rs) : mdtRefine rs text = .ok rs := by
  have hempty : ∀ r : PResult, NonEmpty r → r.isEmpty = false := by
    intro r hr
    unfold NonEmpty PResult.textLength at hr
    unfold PResult.isEmpty
    cases ht : r.text <;> simp_all
  have key : ∀ (l : List PResult) (p : PResult), (∀ r ∈ p :: l, NonEmpty r) →
      Neighbours (fun a b => ¬ DateTimePair a b) (p :: l) →
      ∀ x, (l = [] → x = p) → mdtLoop text x (p :: l) = .ok (p :: l) := by
    intro l
    induction l with
    | nil =>
      intro p hp _ x hx
      rw [hx rfl]
      simp [mdtLoop, hempty p (hp p (by simp))]
    | cons c l ih =>
      intro p hp hn x _
      unfold mdtLoop
      rw [mdtStep_not_pair hn.1]
      simp only [Out.bind_ok]
      rw [ih c (fun r hr => hp r (by simp at hr ⊢; tauto)) hn.2 c (fun _ => rfl)]
      rfl
  match rs, hne, hno with
  | [], _, _ => rfl
  | [r], _, _ => rfl
  | p :: c :: rest, hne, hno => exact key (c :: rest) p hne hno c (by simp)

/-- The hypotheses are met by two plain dates. -/
example : Neighbours (fun a b => ¬ DateTimePair a b)
    [exDate, { exDate with index := 12 }, { exDate with index := 30 }] ∧
    ∀ r ∈ [exDate, { exDate with index := 12 }, { exDate with index := 30 }], NonEmpty r := by
  simp only [Neighbours]; decide

/-- **C50 (defect).** When the last pair merges, its second element is kept besides the merge: the time is
reported twice. -/
theorem c50_last_pair_duplicated_refuted :
    ∃ m, mdtRefine [exDate, exTime] txt!"tomorrow at 5pm" = .ok [m, exTime] ∧
      DateTimeMerge txt!"tomorrow at 5pm" exDate exTime m := by
  have hm : ∃ m, mdtMerge txt!"tomorrow at 5pm" exDate exTime = .ok m := ⟨_, rfl⟩
  obtain ⟨m, hm⟩ := hm
  refine ⟨m, ?_, .inl ⟨by decide, by decide, hm⟩⟩
  have hs : mdtStep txt!"tomorrow at 5pm" exDate exTime = .ok (some m) := by
    rw [mdtStep_eq, if_pos (by decide), if_pos (by decide), if_pos (by decide), hm]
    rfl
  simp only [mdtRefine, mdtLoop, hs]
  rfl

/-- **C49 (partial).** The connector between the two is not checked: any neighbouring date/time pair whose first
mention lies inside the text is merged whatever lies between, provided merging them does not fail. -/
theorem c49_any_pair_is_merged_partial (text : Text) (a b : PResult) (rest : List PResult)
    (ha : Inside text a) (hp : DateTimePair a b) (out : List PResult)
    (h : mdtRefine (a :: b :: rest) text = .ok out) :
    ∃ m tl, out = m :: tl ∧ DateTimeMerge text a b m := by
  unfold mdtRefine mdtLoop at h
  obtain ⟨o, ho, h⟩ := Out.bind_eq_ok.1 h
  cases o with
  | none => exact absurd hp (mdtStep_none ho)
  | some m =>
    simp only at h
    obtain ⟨tl, -, h⟩ := Out.bind_eq_ok.1 h
    simp at h
    exact ⟨m, tl, h.symm, mdtStep_some ho⟩

/-- **C49 (refutation).** A date and a time separated by unrelated words are merged. -/
theorem c49_only_connectors_refuted :
    ∃ (a b m : PResult) (text : Text), slice text (stop a) b.index = txt!" we met; the film is " ∧
      mdtRefine [a, b] text = .ok [m, b] ∧ DateTimeMerge text a b m := by
  let text := txt!"tomorrow we met; the film is 5pm"
  let b : PResult := { exTime with index := 29 }
  have hm : ∃ m, mdtMerge text exDate b = .ok m := ⟨_, rfl⟩
  obtain ⟨m, hm⟩ := hm
  refine ⟨exDate, b, m, text, by decide, ?_, .inl ⟨by decide, by decide, hm⟩⟩
  have hs : mdtStep text exDate b = .ok (some m) := by
    rw [mdtStep_eq, if_pos (by decide), if_pos (by decide), if_pos (by decide), hm]
    rfl
  simp only [mdtRefine, mdtLoop, hs]
  rfl

end Chrono.Props
