import Verif.Props.P07_Range
import Verif.Props.P04_Overlap
import Verif.Spec.Reference
/-!
# C43: ties in overlap removal; C68: the end of a merged date and time; C69: two dates become a range
-/
namespace Chrono.Props
open Chrono Chrono.Spec Chrono.Boost

/-! ## C43 -/

theorem olrLoop_keep (r : PResult) (hr : NonEmpty r) : ∀ rest : List PResult, (∀ x ∈ rest, x.textLength ≤ r.textLength) → r ∈ olrLoop r rest := by
  intro rest
  induction rest with
  | nil =>
    intro _
    unfold olrLoop
    have : r.isEmpty = false := by
      unfold NonEmpty PResult.textLength at hr
      unfold PResult.isEmpty
      cases ht : r.text <;> simp_all
    rw [this]; simp
  | cons t rest ih =>
    intro h
    unfold olrLoop
    have := h t (by simp)
    split
    · rw [if_neg (by omega)]; exact ih (fun x hx => h x (by simp [hx]))
    · simp

theorem olrLoop_reach (r : PResult) (hr : NonEmpty r) (post : List PResult) (hpost : ∀ x ∈ post, x.textLength ≤ r.textLength) :
    ∀ (pre : List PResult) (prev : PResult), prev.textLength < r.textLength → (∀ x ∈ pre, x.textLength < r.textLength) →
      r ∈ olrLoop prev (pre ++ r :: post) := by
  intro pre
  induction pre with
  | nil =>
    intro prev hp _
    rw [List.nil_append]
    unfold olrLoop
    split
    · exact olrLoop_keep r hr post hpost
    · exact List.mem_cons_of_mem _ (olrLoop_keep r hr post hpost)
  | cons t pre ih =>
    intro prev hp h
    rw [List.cons_append]
    unfold olrLoop
    have ht := h t (by simp)
    have h' : ∀ x ∈ pre, x.textLength < r.textLength := fun x hx => h x (by simp [hx])
    split
    · split
      · exact ih t ht h'
      · exact ih prev hp h'
    · exact List.mem_cons_of_mem _ (ih t ht h')

/-- **C43 (ties).** Among the longest results the first one in the list is kept: a non-empty result that is strictly longer
than all that come before it in the list and at least as long as all that come after it. -/
theorem c43_first_longest_survives (pre post : List PResult) (r : PResult) (hr : NonEmpty r)
    (hpre : ∀ x ∈ pre, x.textLength < r.textLength) (hpost : ∀ x ∈ post, x.textLength ≤ r.textLength) :
    r ∈ overlapRefine (pre ++ r :: post) := by
  match pre, hpre with
  | [], _ =>
    cases post with
    | nil => simp [overlapRefine]
    | cons b post => exact olrLoop_keep r hr _ hpost
  | p :: pre, hpre =>
    have := olrLoop_reach r hr post hpost pre p (hpre p (by simp)) (fun x hx => hpre x (by simp [hx]))
    cases pre with
    | nil => exact this
    | cons q pre => exact this

/-- Two mentions of the same words at the same place: the first in the list is kept, the other is not. -/
example : ∃ a b : PResult, a ≠ b ∧ overlapRefine [a, b] = [a] ∧ overlapRefine [b, a] = [b] :=
  ⟨mention 0 3, { mention 0 3 with hasEnd := true }, by
    intro h; exact absurd (congrArg PResult.hasEnd h) (by decide), by rfl, by rfl⟩

/-! ## C68 -/

/-- Seconds since midnight. -/
def secondOfDay (h mi s : Nat) : Nat := h * 3600 + mi * 60 + s

theorem mdtMerge_end {text : Text} {d t : PResult} (hid : Inside text d) {e? : Option Comps}
    (he : mergedEnd d t (mergeDateTimeComponent d.startDate t.startDate) = .ok e?) :
    ∃ m, mdtMerge text d t = .ok m ∧ ∀ e, e? = some e → m.endDate = e := by
  unfold mdtMerge
  simp only [he, Out.bind_ok]
  obtain ⟨q, hq, q1, q2, q3⟩ : ∃ q : PResult, mergedRecord d (mergeDateTimeComponent d.startDate t.startDate) e? = q ∧
      q.index = d.index ∧ q.text = d.text ∧ ∀ e, e? = some e → q.endDate = e := by
    refine ⟨_, rfl, ?_⟩
    cases e? with
    | some e => exact ⟨rfl, rfl, fun e' h => by cases h; rfl⟩
    | none => exact ⟨rfl, rfl, fun e' h => by cases h⟩
  rw [hq]
  obtain ⟨hid1, -⟩ := hid
  unfold stop PResult.textLength at hid1
  simp only [PResult.textLength, q1, q2]
  unfold substrN
  rw [if_pos (by omega)]
  simp only [Out.bind_ok, Out.pure_eq]
  refine ⟨_, rfl, fun e h => ?_⟩
  obtain ⟨-, -, -, s4, -⟩ := setTag_fields (copyTags t ((q.setIndex (min d.index t.index)).setText
    (List.take (max (d.index + d.text.length) (t.index + t.text.length) - min d.index t.index) (List.drop (min d.index t.index) text)))) .mergeDateAndTime
  rw [s4]
  obtain ⟨z, hz, -, -, -, z4, -⟩ := copyTags_fields t ((q.setIndex (min d.index t.index)).setText
    (List.take (max (d.index + d.text.length) (t.index + t.text.length) - min d.index t.index) (List.drop (min d.index t.index) text)))
  rw [hz, z4]
  exact q3 e h

/-- The date result has no time of day of its own in this component. -/
def NoTime (c : Comps) : Prop := c.certain .hour = false ∧ (c.known .min).1 = false ∧ (c.known .sec).1 = false

/-- **C68 (times with an end).** A date without an end (and without a time of its own) merged with a time that has an end
(`march 5` with `9pm - 11pm`): the merge succeeds, starts at the date with the start time, and ends at the end time on the
same day - or, if the end time is earlier in the day than the start time (`9pm - 1am`), on the day after it. The next day is
written as the day number plus one: see `c68_last_day_of_month_refuted`. -/
theorem c68_end_of_merged_time (text : Text) (d t : PResult) (hid : Inside text d) (hit : Inside text t)
    (hd : d.hasEnd = false) (ht : t.hasEnd = true) (hno : NoTime d.startDate)
    (y mo da h mi s h' mi' s' : Nat) (hdate : DateIs d.startDate (y, mo, da)) (hc : CivilInRange y mo da)
    (hts : TimeIs t.startDate h mi s) (hte : TimeIs t.endDate h' mi' s')
    (hv : h < 24 ∧ mi < 60 ∧ s < 60) (hv' : h' < 24 ∧ mi' < 60 ∧ s' < 60) :
    ∃ m, mdtMerge text d t = .ok m ∧ m.hasEnd = true ∧
      DateIs m.startDate (y, mo, da) ∧ TimeIs m.startDate h mi s ∧
      DateIs m.endDate (y, mo, if secondOfDay h' mi' s' < secondOfDay h mi s then da + 1 else da) ∧ TimeIs m.endDate h' mi' s' := by
  obtain ⟨n1, n2, n3⟩ := hno
  obtain ⟨a1, a2, a3, a4⟩ := mergeComponent_get d.startDate t.startDate n1 n2 n3
  obtain ⟨b1, b2, b3, b4⟩ := mergeComponent_get d.startDate t.endDate n1 n2 n3
  obtain ⟨x1, x2, x3⟩ := hdate
  obtain ⟨t1, t2, t3⟩ := hts
  obtain ⟨u1, u2, u3⟩ := hte
  simp only at x1 x2 x3
  have rs : Reads (mergeDateTimeComponent d.startDate t.startDate) ⟨y, mo, da, h, mi, s⟩ :=
    ⟨(a1 _ (by decide) (by decide) (by decide)).trans x1, (a1 _ (by decide) (by decide) (by decide)).trans x2,
     (a1 _ (by decide) (by decide) (by decide)).trans x3, a2.trans t1, a3.trans t2, a4.trans t3⟩
  have re : Reads (mergeDateTimeComponent d.startDate t.endDate) ⟨y, mo, da, h', mi', s'⟩ :=
    ⟨(b1 _ (by decide) (by decide) (by decide)).trans x1, (b1 _ (by decide) (by decide) (by decide)).trans x2,
     (b1 _ (by decide) (by decide) (by decide)).trans x3, b2.trans u1, b3.trans u2, b4.trans u3⟩
  obtain ⟨S, hS, hSu⟩ := date_of_reads rs ⟨hc, hv.1, hv.2.1, hv.2.2⟩
  obtain ⟨E, hE, hEu⟩ := date_of_reads re ⟨hc, hv'.1, hv'.2.1, hv'.2.2⟩
  have hlt : E.us < S.us ↔ secondOfDay h' mi' s' < secondOfDay h mi s := by
    rw [hSu, hEu]
    unfold instant secondOfDay
    generalize dayNumber _ _ _ = k
    simp only
    omega
  generalize hes : mergeDateTimeComponent d.startDate t.startDate = sdt at *
  generalize hee : mergeDateTimeComponent d.startDate t.endDate = edt at *
  have hme : ∃ e, mergedEnd d t sdt = .ok (some e) ∧
      (∀ k, k ≠ .mday → e.get k = edt.get k) ∧ e.get .mday = if secondOfDay h' mi' s' < secondOfDay h mi s then (da : Int) + 1 else da := by
    unfold mergedEnd
    simp only [hd, ht, Bool.false_or, if_true, Bool.false_eq_true, if_false, hee, Bool.not_false, hE, hS, Out.bind_ok, hlt]
    by_cases hl : secondOfDay h' mi' s' < secondOfDay h mi s
    · rw [if_pos hl, if_pos hl]
      by_cases hk : edt.certain .mday = true
      · rw [if_pos hk]
        refine ⟨_, rfl, fun k hk => ?_, ?_⟩
        · rw [get_set, if_neg hk]
        · rw [get_set, if_pos rfl, re.2.2.1]
      · rw [if_neg hk]
        have hk' : (edt.known .mday).1 = false := by simpa [Comps.certain, Comps.certainKey] using hk
        refine ⟨_, rfl, fun k hk => ?_, ?_⟩
        · rw [get_imply, if_neg (by simp [hk])]
        · rw [get_imply, if_pos ⟨rfl, hk'⟩, re.2.2.1]
    · rw [if_neg hl, if_neg hl]
      exact ⟨_, rfl, fun _ _ => rfl, re.2.2.1⟩
  obtain ⟨e, he, e1, e2⟩ := hme
  obtain ⟨m, hm, hme⟩ := mdtMerge_end hid (by rw [hes]; exact he)
  have hme := hme e rfl
  obtain ⟨m1, -, -, m4, -⟩ := mdtMerge_ok hid hit hm
  refine ⟨m, hm, by rw [m4, hd, ht]; rfl, ?_, ?_, ?_, ?_⟩
  · rw [m1, hes]; exact ⟨rs.1, rs.2.1, rs.2.2.1⟩
  · rw [m1, hes]; exact rs.2.2.2
  · rw [hme]
    refine ⟨(e1 _ (by decide)).trans re.1, (e1 _ (by decide)).trans re.2.1, ?_⟩
    rw [e2]
    simp only
    split <;> simp
  · rw [hme]
    exact ⟨(e1 _ (by decide)).trans re.2.2.2.1, (e1 _ (by decide)).trans re.2.2.2.2.1, (e1 _ (by decide)).trans re.2.2.2.2.2⟩

/-- **C68 (dates with an end).** A date with an end merged with a time: the merge succeeds and ends on the end date, at the end of
the time if it has one and else at its start (if the hour of that is certain). -/
theorem c68_end_of_merged_date (text : Text) (d t : PResult) (hid : Inside text d) (hit : Inside text t)
    (hd : d.hasEnd = true) (te : Comps) (hte : te = if t.hasEnd then t.endDate else t.startDate)
    (hh : te.certain .hour = true) (hs : te.certain .sec = true ∨ (d.endDate.known .sec).1 = false) :
    ∃ m, mdtMerge text d t = .ok m ∧ m.hasEnd = true ∧
      (∀ k ∈ [Key.year, .month, .mday, .wday, .tzoffset], m.endDate.get k = d.endDate.get k) ∧
      (∀ k ∈ [Key.hour, .min, .sec], m.endDate.get k = te.get k) := by
  have he : mergedEnd d t (mergeDateTimeComponent d.startDate t.startDate) = .ok (some (mergeDateTimeComponent d.endDate te)) := by
    unfold mergedEnd
    simp only [hd, Bool.true_or, if_true, Bool.not_true, Bool.false_eq_true, if_false, ← hte]
    rfl
  obtain ⟨m, hm, hme⟩ := mdtMerge_end hid he
  have hme := hme _ rfl
  obtain ⟨-, -, -, m4, -⟩ := mdtMerge_ok hid hit hm
  refine ⟨m, hm, by rw [m4, hd]; rfl, ?_, ?_⟩
  · intro k hk
    rw [hme]
    unfold mergeDateTimeComponent
    rw [if_pos hh]
    simp only [List.mem_cons, List.not_mem_nil, or_false] at hk
    split <;> rcases hk with rfl | rfl | rfl | rfl | rfl <;> simp [get_set, get_imply]
  · intro k hk
    rw [hme]
    unfold mergeDateTimeComponent
    rw [if_pos hh]
    simp only [List.mem_cons, List.not_mem_nil, or_false] at hk
    split
    · rcases hk with rfl | rfl | rfl <;> simp [get_set]
    · rename_i hsec
      have : (d.endDate.known .sec).1 = false := hs.resolve_left hsec
      rcases hk with rfl | rfl | rfl <;> simp [get_set, get_imply, known_set, this]

/-- Dates and times for the examples: `march 5` / `march 31` and `9pm - 1am`. -/
def exDay (da : Nat) : PResult := (PResult.mk' ⟨0⟩ 0 txt!"march 31").onStart (fun c => ((c.set .year 2019).set .month 3).set .mday da)
def exEvening : PResult :=
  { (PResult.mk' ⟨0⟩ 9 txt!"9pm - 1am").onStart (fun c => (c.set .hour 21).set .min 0) with
    endDate := ((PResult.mk' ⟨0⟩ 9 []).startDate.set .hour 1).set .min 0, hasEnd := true }

example : Inside txt!"march 31 9pm - 1am" (exDay 5) ∧ Inside txt!"march 31 9pm - 1am" exEvening ∧ NoTime (exDay 5).startDate ∧
    DateIs (exDay 5).startDate (2019, 3, 5) ∧ CivilInRange 2019 3 5 ∧ TimeIs exEvening.startDate 21 0 0 ∧ TimeIs exEvening.endDate 1 0 0 := by
  unfold NoTime DateIs TimeIs; decide

/-- **C68 (refuted part).** On the last day of a month the next day is not a date: `march 31` merged with `9pm - 1am` ends on
31+1 March, and printing it throws. -/
theorem c68_last_day_of_month_refuted :
    ∃ m, mdtMerge txt!"march 31 9pm - 1am" (exDay 31) exEvening = .ok m ∧ DateIs m.endDate (2019, 3, 32) ∧
      ¬ CivilInRange 2019 3 32 ∧ ∃ e, m.endDate.date = .exn e := by
  obtain ⟨m, hm, -, -, -, h4, -⟩ := c68_end_of_merged_time txt!"march 31 9pm - 1am" (exDay 31) exEvening (by decide) (by decide) rfl rfl
    (by unfold NoTime; decide) 2019 3 31 21 0 0 1 0 0 (by unfold DateIs; decide) (by decide) (by unfold TimeIs; decide) (by unfold TimeIs; decide)
    (by decide) (by decide)
  rw [if_pos (by decide)] at h4
  refine ⟨m, hm, h4, by decide, ?_⟩
  obtain ⟨e, he, -⟩ := mkDate_exn (y := 2019) (m := 3) (d := 32) (by decide)
  refine ⟨e, ?_⟩
  obtain ⟨g1, g2, g3⟩ := h4
  unfold Comps.date ptimeFromTm
  rw [g1, g2, g3]
  simp only [toU16_small (by decide : 2019 < 65536), toU16_small (by decide : 3 < 65536), toU16_small (by decide : 31 + 1 < 65536)]
  show (do let d ← mkDate 2019 3 32; _ : Out PTime) = _
  rw [he]
  rfl

/-! ## C69 -/

/-- **C69.** Two neighbouring mentions of dates `t` and `u`, neither with an end, with a range word (`and`, `to`, `through`, `-`)
between them become one mention that starts at `t` and ends at `u` - or at `t` again, if `u` is earlier - and begins where the
first mention begins; apart from its own mark it carries only tags of the two; the refiner puts it twice into the list if
nothing follows. -/
theorem c69_joined_dates_become_a_range (text : Text) (a b : PResult) (ha : Inside text a) (hb : Inside text b) (hab : Before a b)
    (hna : NonEmpty a) (ea : a.hasEnd = false) (eb : b.hasEnd = false) (hj : Joined text a b) (t u : DateTime) (ht : t.Valid) (hu : u.Valid)
    (hra : Reads a.startDate t) (hrb : Reads b.startDate u) :
    ∃ m, mdrRefine [a, b] text = .ok [m, m] ∧ m.index = a.index ∧ m.hasEnd = true ∧ Reads m.startDate t ∧
      (instant t ≤ instant u → Reads m.endDate u) ∧ (instant u < instant t → Reads m.endDate t) ∧
      (instant t ≤ instant u → m.text = slice text a.index (stop b + 1)) ∧
      (∀ tag, m.getTag tag = true → tag = .mergeDateRange ∨ a.getTag tag = true ∨ b.getTag tag = true) := by
  obtain ⟨T, hT, hTu⟩ := date_of_reads hra ht
  obtain ⟨U, hU, hUu⟩ := date_of_reads hrb hu
  have hable := (mdrAble_joined ha hb hab).2 hj
  obtain ⟨c, hc, hcu, hct⟩ : ∃ c, (if T.us > U.us then a else b) = c ∧ (instant t ≤ instant u → c = b) ∧ (instant u < instant t → c = a) := by
    refine ⟨_, rfl, fun h => if_neg (by omega), fun h => if_pos (by omega)⟩
  have hcin : Inside text c ∧ a.index ≤ c.index := by
    have h1 : Inside text a ∧ a.index ≤ a.index := ⟨ha, Nat.le_refl _⟩
    have h2 : Inside text b ∧ a.index ≤ b.index := ⟨hb, by unfold Before stop at hab; omega⟩
    rcases Int.lt_or_le (instant u) (instant t) with h | h
    · rw [hct h]; exact h1
    · rw [hcu h]; exact h2
  obtain ⟨⟨hc1, -⟩, hc2⟩ := hcin
  obtain ⟨ha1, ha2⟩ := ha
  unfold stop at hc1 ha1
  have hmin : min a.index c.index = a.index := by omega
  obtain ⟨tx, htx⟩ : ∃ tx, tx = List.take (max (a.index + a.textLength) (c.index + c.textLength) - a.index + 1) (List.drop a.index text) := ⟨_, rfl⟩
  obtain ⟨z, hz, z1, z2, z3, z4, z5, -, z7, -⟩ := copyTags_fields c ((({ a with endDate := c.startDate, hasEnd := true } : PResult).setIndex a.index).setText tx)
  obtain ⟨s1, s2, s3, s4, s5, -, s7⟩ := setTag_fields z .mergeDateRange
  have hm : mdrMerge text a b = .ok (z.setTag .mergeDateRange) := by
    unfold mdrMerge
    rw [hT, hU]
    simp only [Out.bind_ok]
    rw [hc]
    simp only [PResult.textLength] at *
    rw [hmin]
    unfold substrN
    rw [if_pos (by omega), ← htx]
    simp only [Out.bind_ok, hz, Out.pure_eq]
  have hidx : z.index = a.index := by
    rw [z1]; simp only [PResult.setText, PResult.setIndex, PResult.toU32]; omega
  have hzt : z.text = tx := by rw [z2]; rfl
  have hne : (z.setTag .mergeDateRange).isEmpty = false := by
    unfold PResult.isEmpty
    rw [s2, hzt]
    have : 0 < tx.length := by
      rw [htx, List.length_take, List.length_drop]
      unfold NonEmpty at hna
      omega
    cases tx with
    | nil => simp at this
    | cons => simp
  refine ⟨z.setTag .mergeDateRange, ?_, by rw [s1, hidx], by rw [s5, z5]; rfl, ?_, ?_, ?_, ?_, ?_⟩
  · show mdrLoop text a [a, b] = _
    unfold mdrLoop mdrStep
    simp only [ea, eb, Bool.not_false, Bool.and_self, if_true, hable, Out.bind_ok, hm, Out.pure_eq]
    unfold mdrLoop
    rw [hne]
    rfl
  · rw [s3, z3]; exact hra
  · intro h
    rw [s4, z4]
    show Reads c.startDate u
    rw [hcu h]; exact hrb
  · intro h
    rw [s4, z4]
    show Reads c.startDate t
    rw [hct h]; exact hra
  · intro h
    have hcb := hcu h
    rw [hcb] at htx
    unfold Before stop at hab
    rw [s2, hzt, htx]
    unfold slice stop
    congr 1
    omega
  · intro tag h
    by_cases ht' : tag = .mergeDateRange
    · exact .inl ht'
    · right
      have h' : z.getTag tag = true := by
        unfold PResult.getTag at h ⊢; rwa [s7 tag ht'] at h
      rcases z7 tag h' with h | h
      · exact .inl h
      · rcases Int.lt_or_le (instant u) (instant t) with h0 | h0
        · rw [hct h0] at h; exact .inl h
        · rw [hcu h0] at h; exact .inr h

/-- The hypotheses of C69 are met by `10 march - 20 march`. -/
example : Inside txt!"10 march - 20 march" exFrom ∧ Inside txt!"10 march - 20 march" exTo ∧ Joined txt!"10 march - 20 march" exFrom exTo ∧
    exFrom.hasEnd = false ∧ exTo.hasEnd = false ∧ NonEmpty exFrom := ⟨by decide, by decide, ex_range_joined, rfl, rfl, by decide⟩

end Chrono.Props
