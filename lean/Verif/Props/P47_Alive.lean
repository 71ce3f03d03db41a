import Verif.Spec.Alive
import Verif.Props.P07_Range
/-!
# C78: presentable results are always printed
-/
namespace Chrono.Props
open Chrono Chrono.Spec Chrono.Boost

theorem normal_bind {α β : Type} {P : α → Prop} {Q : β → Prop} {x : Out α} {f : α → Out β} (hx : Normal P x)
    (hf : ∀ a, P a → Normal Q (f a)) : Normal Q (x >>= f) := by
  obtain ⟨a, rfl, ha⟩ := hx
  exact hf a ha

theorem normal_ok {α : Type} {P : α → Prop} {a : α} (h : P a) : Normal P (.ok a) := ⟨a, rfl, h⟩

theorem normal_mono {α : Type} {P Q : α → Prop} {x : Out α} (h : Normal P x) (hpq : ∀ a, P a → Q a) : Normal Q x := by
  obtain ⟨a, e, ha⟩ := h
  exact ⟨a, e, hpq a ha⟩

/-- The time of a printable record is a whole number of seconds well inside the range of the library. -/
theorem printable_date {c : Comps} (h : Printable c) :
    Normal (fun T : PTime => ∀ off : Int, -10000 ≤ off → off ≤ 10000 → ∃ s, toSimpleString (T.addMinutes off) = .ok s) c.date := by
  obtain ⟨y, m, d, h, mi, s, y1, y2, hc, hh, hmi, hs, ⟨d1, d2, d3⟩, t1, t2, t3⟩ := h
  obtain ⟨c1, c2, c3, c4⟩ := id hc
  have hb := monthLength_bounds y m c1 c2
  have hcr : CivilInRange y m d := ⟨by omega, by omega, hc⟩
  unfold Comps.date ptimeFromTm
  rw [d1, d2, d3, t1, t2, t3, toU16_small (by simp only; omega), toU16_small (by simp only; omega), toU16_small (by simp only; omega), mkDate_civil hcr]
  refine normal_ok fun off o1 o2 => ?_
  have lo : dayNumber 1400 1 1 + 365 ≤ dayNumber y m d := by
    have k1 := dayNumber_eq y m d c1 c2 c3
    have k2 := dayNumber_eq 1400 1 1 (by decide) (by decide) (by decide)
    generalize dayNumber y m d = A at *
    generalize dayNumber 1400 1 1 = B at *
    interval_cases m <;> simp at k1 k2 <;> omega
  have hi : dayNumber y m d + 365 ≤ maxDN := by
    have k1 := dayNumber_eq y m d c1 c2 c3
    generalize dayNumber y m d = A at *
    unfold maxDN
    interval_cases m <;> simp at k1 <;> omega
  have lo' : minDN + 365 ≤ dayNumber y m d := by
    have e : dayNumber 1400 1 1 = minDN := by decide +kernel
    rw [e] at lo
    exact lo
  generalize dayNumber y m d = A at *
  have hr : (PTime.addMinutes ⟨((A : Int)) * 86400000000 + ((h : Int) * 3600 + mi * 60 + s) * 1000000⟩ off).date.inRange := by
    unfold Date.inRange PTime.date PTime.addMinutes PTime.addSeconds
    unfold minDN at *
    unfold maxDN at *
    simp only
    omega
  unfold toSimpleString
  simp only
  rw [Date.ymd_ok hr]
  exact ⟨_, rfl⟩

theorem presentable_toDate {r : PResult} (h : Presentable r) : ∃ line, r.toDate = .ok line := by
  obtain ⟨h1, h2, h3⟩ := h
  obtain ⟨T, hT, hp⟩ := printable_date h1
  have hs : ∃ s, toSimpleString (if r.getTag .extractTZ then T.addMinutes (r.startDate.get .tzoffset) else T) = .ok s := by
    split
    · exact hp _ h3.1 h3.2
    · have := hp 0 (by decide) (by decide)
      have e : T.addMinutes 0 = T := by unfold PTime.addMinutes PTime.addSeconds; simp
      rwa [e] at this
  obtain ⟨s, hs⟩ := hs
  unfold PResult.toDate
  rw [hT]
  simp only [Out.bind_ok]
  rw [hs]
  simp only [Out.bind_ok]
  by_cases he : r.hasEnd = true
  · rw [if_pos he]
    obtain ⟨T', hT', hp'⟩ := printable_date (h2 he)
    obtain ⟨s', hs'⟩ := hp' 0 (by decide) (by decide)
    have e : T'.addMinutes 0 = T' := by unfold PTime.addMinutes PTime.addSeconds; simp
    rw [e] at hs'
    rw [hT']
    simp only [Out.bind_ok]
    rw [hs']
    exact ⟨_, rfl⟩
  · rw [if_neg he]; exact ⟨_, rfl⟩

/-- Merging keeps the date and takes each part of the time from one of the two. -/
theorem merge_printable {d t : Comps} (hd : Printable d) (ht : Printable t) : Printable (mergeDateTimeComponent d t) := by
  obtain ⟨y, m, dd, h, mi, s, y1, y2, hc, hh, hmi, hs, hdd, t1, t2, t3⟩ := hd
  obtain ⟨-, -, -, h', mi', s', -, -, -, hh', hmi', hs', -, t1', t2', t3'⟩ := ht
  have key : ∀ c : Comps, (c.get .year = d.get .year ∧ c.get .month = d.get .month ∧ c.get .mday = d.get .mday) →
      (c.get .hour = d.get .hour ∨ c.get .hour = t.get .hour) → (c.get .min = d.get .min ∨ c.get .min = t.get .min) →
      (c.get .sec = d.get .sec ∨ c.get .sec = t.get .sec) → Printable c := by
    intro c ⟨e1, e2, e3⟩ e4 e5 e6
    have a1 : ∃ k : Nat, k ≤ 36 ∧ c.get .hour = k := by
      rcases e4 with e | e
      · exact ⟨h, hh, by rw [e, t1]⟩
      · exact ⟨h', hh', by rw [e, t1']⟩
    have a2 : ∃ k : Nat, k < 60 ∧ c.get .min = k := by
      rcases e5 with e | e
      · exact ⟨mi, hmi, by rw [e, t2]⟩
      · exact ⟨mi', hmi', by rw [e, t2']⟩
    have a3 : ∃ k : Nat, k < 60 ∧ c.get .sec = k := by
      rcases e6 with e | e
      · exact ⟨s, hs, by rw [e, t3]⟩
      · exact ⟨s', hs', by rw [e, t3']⟩
    obtain ⟨k1, b1, f1⟩ := a1
    obtain ⟨k2, b2, f2⟩ := a2
    obtain ⟨k3, b3, f3⟩ := a3
    exact ⟨y, m, dd, k1, k2, k3, y1, y2, hc, b1, b2, b3, ⟨by rw [e1]; exact hdd.1, by rw [e2]; exact hdd.2.1, by rw [e3]; exact hdd.2.2⟩, f1, f2, f3⟩
  unfold mergeDateTimeComponent
  split
  · simp only
    split
    · apply key <;> simp [get_set]
    · clear hc y1 y2 hh hmi hs hh' hmi' hs'
      cases hk : (d.known .sec).1 <;> apply key <;> simp [get_set, get_imply, known_set, hk]
  · clear hc y1 y2 hh hmi hs hh' hmi' hs'
    cases h1 : (d.known .hour).1 <;> cases h2 : (d.known .min).1 <;> cases h3 : (d.known .sec).1 <;> apply key <;>
      simp [get_imply, known_imply, h1, h2, h3]

theorem merge_zone (d t : Comps) : (mergeDateTimeComponent d t).get .tzoffset = d.get .tzoffset := by
  unfold mergeDateTimeComponent
  split
  · simp only
    split <;> simp [get_set, get_imply]
  · simp [get_imply]

/-! ## The refiners -/

/-- Inside the text, presentable, and not a bare range of times. -/
def Handy (text : Text) (r : PResult) : Prop := Inside text r ∧ Presentable r ∧ NoTimeRange r

theorem mdtMerge_presentable {text : Text} {d t : PResult} (hd : Handy text d) (ht : Handy text t) (htime : TimeOnly t) :
    Normal (fun m => Inside text m ∧ Presentable m) (mdtMerge text d t) := by
  obtain ⟨d1, d2, d3⟩ := hd
  obtain ⟨t1, t2, t3⟩ := ht
  have te := t3 htime
  have hm := merge_printable d2.start t2.start
  have hend : Normal (fun e? : Option Comps => ∀ e, e? = some e → Printable e)
      (mergedEnd d t (mergeDateTimeComponent d.startDate t.startDate)) := by
    unfold mergedEnd
    cases hde : d.hasEnd with
    | false => simp only [te, Bool.or_false]; exact normal_ok (by simp)
    | true =>
      simp only [te, Bool.or_false, if_true, Bool.not_true, Bool.false_eq_true, if_false]
      refine normal_ok ?_
      rintro e ⟨⟩
      exact merge_printable (d2.stop hde) t2.start
  have hall := mdtMerge_total d1 t1
  unfold mdtMerge at hall ⊢
  simp only at hall ⊢
  obtain ⟨e?, he, hpe⟩ := hend
  rw [he] at hall ⊢
  simp only [Out.bind_ok] at hall ⊢
  have hidx : (mergedRecord d (mergeDateTimeComponent d.startDate t.startDate) e?).index = d.index := by cases e? <;> rfl
  have h1 := d1.1
  unfold stop at h1
  have hsub : ∃ tx, substrN text (min (mergedRecord d (mergeDateTimeComponent d.startDate t.startDate) e?).index t.index)
      (max ((mergedRecord d (mergeDateTimeComponent d.startDate t.startDate) e?).index +
        (mergedRecord d (mergeDateTimeComponent d.startDate t.startDate) e?).textLength) (t.index + t.textLength) -
        min (mergedRecord d (mergeDateTimeComponent d.startDate t.startDate) e?).index t.index) = .ok tx := by
    unfold substrN
    rw [hidx, if_pos (by omega)]
    exact ⟨_, rfl⟩
  obtain ⟨tx, htx⟩ := hsub
  rw [htx] at hall ⊢
  simp only [Out.bind_ok] at hall ⊢
  rcases hall with ⟨m, hm', hin⟩ | ⟨e, he, -⟩
  · refine ⟨m, hm', hin, ?_⟩
    simp only [Out.pure_eq, Out.ok.injEq] at hm'
    obtain ⟨z, hz, z1, z2, z3, z4, z5, -⟩ := copyTags_fields t
      (((mergedRecord d (mergeDateTimeComponent d.startDate t.startDate) e?).setIndex
        (min (mergedRecord d (mergeDateTimeComponent d.startDate t.startDate) e?).index t.index)).setText tx)
    obtain ⟨s1, s2, s3, s4, s5, -⟩ := setTag_fields z .mergeDateAndTime
    rw [← hz] at s3 s4 s5 z3 z4 z5
    rw [hm'] at s3 s4 s5
    have f1 : m.startDate = mergeDateTimeComponent d.startDate t.startDate := by
      rw [s3, z3]; cases e? <;> rfl
    refine ⟨by rw [f1]; exact hm, ?_, ?_⟩
    · cases e? with
      | some e =>
        intro _
        have : m.endDate = e := by rw [s4, z4]; rfl
        rw [this]; exact hpe e rfl
      | none =>
        intro hh
        have e1 : m.hasEnd = d.hasEnd := by rw [s5, z5]; rfl
        have e2 : m.endDate = d.endDate := by rw [s4, z4]; rfl
        rw [e2]; exact d2.stop (by rw [← e1]; exact hh)
    · rw [f1, merge_zone]; exact d2.zone
  · simp at he

theorem mdtStep_presentable {text : Text} {a b : PResult} (ha : Handy text a) (hb : Handy text b) :
    Normal (fun o => ∀ m, o = some m → Inside text m ∧ Presentable m) (mdtStep text a b) := by
  rw [mdtStep_eq]
  split
  · rename_i hp
    rw [if_pos ha.1.1]
    split
    · rename_i h
      refine normal_bind (mdtMerge_presentable ha hb h.2) fun m hm => normal_ok ?_
      rintro _ ⟨⟩; exact hm
    · rename_i h
      have h2 : DateOnly b ∧ TimeOnly a := by
        rcases hp with h' | h'
        · exact absurd h' h
        · exact h'
      refine normal_bind (mdtMerge_presentable hb ha h2.2) fun m hm => normal_ok ?_
      rintro _ ⟨⟩; exact hm
  · exact normal_ok (by simp)

theorem mdtLoop_presentable (text : Text) : ∀ (n : Nat) (l : List PResult) (x : PResult), l.length ≤ n →
    Handy text x → (∀ r ∈ l, Handy text r) →
    Normal (fun out => ∀ r ∈ out, Inside text r ∧ Presentable r) (mdtLoop text x l) := by
  intro n
  have last : ∀ x : PResult, Handy text x → Normal (fun out => ∀ r ∈ out, Inside text r ∧ Presentable r)
      (Out.ok (if x.isEmpty then [] else [x])) := by
    intro x hx
    refine normal_ok ?_
    split
    · simp
    · simpa using ⟨hx.1, hx.2.1⟩
  induction n with
  | zero =>
    intro l x hl hx _
    cases l with
    | nil => unfold mdtLoop; exact last x hx
    | cons => simp at hl
  | succ n ih =>
    intro l x hl hx hall
    match l, hl, hall with
    | [], _, _ => unfold mdtLoop; exact last x hx
    | [y], _, _ => unfold mdtLoop; exact last x hx
    | p :: c :: rest, hl, hall =>
      unfold mdtLoop
      refine normal_bind (mdtStep_presentable (hall p (by simp)) (hall c (by simp))) fun o ho => ?_
      cases o with
      | some m =>
        simp only
        have hhd : Handy text (rest.headD c) := by
          cases rest with
          | nil => exact hall c (by simp)
          | cons q _ => exact hall q (by simp)
        refine normal_bind (ih rest _ (by simp at hl; omega) hhd (fun r hr => hall r (by simp [hr]))) fun tl htl => normal_ok ?_
        intro r hr
        rcases List.mem_cons.1 hr with rfl | hr
        · exact ho r rfl
        · exact htl r hr
      | none =>
        simp only
        refine normal_bind (ih (c :: rest) _ (by simp at hl ⊢; omega) (hall c (by simp))
          (fun r hr => hall r (by simp at hr ⊢; tauto))) fun tl htl => normal_ok ?_
        intro r hr
        rcases List.mem_cons.1 hr with rfl | hr
        · exact ⟨(hall r (by simp)).1, (hall r (by simp)).2.1⟩
        · exact htl r hr

theorem mdtRefine_presentable {text : Text} {rs : List PResult} (h : ∀ r ∈ rs, Handy text r) :
    Normal (fun out => ∀ r ∈ out, Inside text r ∧ Presentable r) (mdtRefine rs text) := by
  match rs, h with
  | [], h => exact normal_ok (by simp)
  | [r], h => exact normal_ok (by simpa using ⟨(h r (by simp)).1, (h r (by simp)).2.1⟩)
  | p :: c :: rest, h => exact mdtLoop_presentable text _ (p :: c :: rest) c (Nat.le_refl _) (h c (by simp)) h

theorem mdrStep_presentable {text : Text} {a b : PResult} (ha : Inside text a ∧ Presentable a) (hb : Inside text b ∧ Presentable b) :
    Normal (fun o => ∀ m, o = some m → Inside text m ∧ Presentable m) (mdrStep text a b) := by
  unfold mdrStep
  split
  · rcases mdrAble_total (b := b) ha.1 with h | h
    · rw [h]
      simp only [Out.bind_ok, if_true]
      have hall := mdrMerge_total ha.1 hb.1
      obtain ⟨x, hx, -⟩ := printable_date ha.2.start
      obtain ⟨y, hy, -⟩ := printable_date hb.2.start
      have hok : ∃ m, mdrMerge text a b = .ok m := by
        unfold mdrMerge
        rw [hx, hy]
        simp only [Out.bind_ok]
        have h1 := ha.1.1
        unfold stop at h1
        unfold substrN
        rw [if_pos (by omega)]
        exact ⟨_, rfl⟩
      obtain ⟨m, hm⟩ := hok
      rw [hm]
      refine normal_ok ?_
      rintro _ ⟨⟩
      obtain ⟨x', y', -, -, m1, m2, m3, m4⟩ := mdrMerge_ok ha.1 hb.1 hm
      refine ⟨m4, by rw [m1]; exact ha.2.start, fun _ => ?_, by rw [m1]; exact ha.2.zone⟩
      rw [m3]
      split
      · exact ha.2.start
      · exact hb.2.start
    · rw [h]; exact normal_ok (by simp)
  · exact normal_ok (by simp)

theorem mdrLoop_presentable (text : Text) : ∀ (n : Nat) (l : List PResult) (x : PResult), l.length ≤ n →
    Inside text x ∧ Presentable x → (∀ r ∈ l, Inside text r ∧ Presentable r) →
    Normal (fun out => ∀ r ∈ out, Inside text r ∧ Presentable r) (mdrLoop text x l) := by
  intro n
  have last : ∀ x : PResult, Inside text x ∧ Presentable x → Normal (fun out => ∀ r ∈ out, Inside text r ∧ Presentable r)
      (Out.ok (if x.isEmpty then [] else [x])) := by
    intro x hx
    refine normal_ok ?_
    split
    · simp
    · simpa using hx
  induction n with
  | zero =>
    intro l x hl hx _
    cases l with
    | nil => unfold mdrLoop; exact last x hx
    | cons => simp at hl
  | succ n ih =>
    intro l x hl hx hall
    match l, hl, hall with
    | [], _, _ => unfold mdrLoop; exact last x hx
    | [y], _, _ => unfold mdrLoop; exact last x hx
    | p :: c :: rest, hl, hall =>
      unfold mdrLoop
      refine normal_bind (mdrStep_presentable (hall p (by simp)) (hall c (by simp))) fun o ho => ?_
      cases o with
      | some m =>
        simp only
        refine normal_bind (ih rest _ (by simp at hl; omega) (ho m rfl) (fun r hr => hall r (by simp [hr]))) fun tl htl => normal_ok ?_
        intro r hr
        rcases List.mem_cons.1 hr with rfl | hr
        · exact ho r rfl
        · exact htl r hr
      | none =>
        simp only
        refine normal_bind (ih (c :: rest) _ (by simp at hl ⊢; omega) (hall p (by simp))
          (fun r hr => hall r (by simp at hr ⊢; tauto))) fun tl htl => normal_ok ?_
        intro r hr
        rcases List.mem_cons.1 hr with rfl | hr
        · exact hall r (by simp)
        · exact htl r hr

theorem mdrRefine_presentable {text : Text} {rs : List PResult} (h : ∀ r ∈ rs, Inside text r ∧ Presentable r) :
    Normal (fun out => ∀ r ∈ out, Inside text r ∧ Presentable r) (mdrRefine rs text) := by
  match rs, h with
  | [], h => exact normal_ok h
  | [r], h => exact normal_ok h
  | p :: c :: rest, h => exact mdrLoop_presentable text _ (p :: c :: rest) p (Nat.le_refl _) (h p (by simp)) h

theorem tzTable_bounds : ∀ e ∈ tzTable, -10000 ≤ e.2 ∧ e.2 ≤ 10000 := by decide +kernel

theorem tzOne_fields (re : Re) (text : Text) (r : PResult) :
    (tzOne re text r).endDate = r.endDate ∧ (tzOne re text r).hasEnd = r.hasEnd ∧
    ((tzOne re text r).startDate = r.startDate ∨
      ∃ e ∈ tzTable, (tzOne re text r).startDate = r.startDate.set .tzoffset e.2 ∨
        (tzOne re text r).startDate = (r.startDate.set .tzoffset e.2).set .tzoffset e.2) := by
  have touch : ∀ t, (r.touchTag t).endDate = r.endDate ∧ (r.touchTag t).hasEnd = r.hasEnd ∧ (r.touchTag t).startDate = r.startDate := by
    intro t; unfold PResult.touchTag; split <;> exact ⟨rfl, rfl, rfl⟩
  obtain ⟨u1, u2, u3⟩ := touch .timeExpression
  unfold tzOne
  simp only
  generalize r.touchTag .timeExpression = q at *
  split
  · split
    · split
      · split
        · rename_i off ho
          have hm : ∃ e ∈ tzTable, e.2 = off := ⟨_, (tzLookup_iff tzTable tzTable_nodup _ _).1 ho, rfl⟩
          obtain ⟨e, he, rfl⟩ := hm
          unfold tzApply
          simp only
          by_cases h1 : (!q.startDate.certain .tzoffset) = true
          · simp only [h1, if_true]
            by_cases h2 : ((q.onStart fun x => x.set .tzoffset e.2).hasEnd && !(q.onStart fun x => x.set .tzoffset e.2).endDate.certain .tzoffset) = true
            · simp only [h2, if_true]
              obtain ⟨-, -, s3, s4, s5, -⟩ := setTag_fields (((q.onStart fun x => x.set .tzoffset e.2).onStart fun x => x.set .tzoffset e.2).setText (Match.str _ 1)) .extractTZ
              refine ⟨?_, ?_, .inr ⟨e, he, .inr ?_⟩⟩
              · rw [s4]; exact u1
              · rw [s5]; exact u2
              · rw [s3, ← u3]; rfl
            · simp only [h2]
              obtain ⟨-, -, s3, s4, s5, -⟩ := setTag_fields ((q.onStart fun x => x.set .tzoffset e.2).setText (Match.str _ 1)) .extractTZ
              refine ⟨?_, ?_, .inr ⟨e, he, .inl ?_⟩⟩
              · rw [if_neg (by simp), s4]; exact u1
              · rw [if_neg (by simp), s5]; exact u2
              · rw [if_neg (by simp), s3, ← u3]; rfl
          · simp only [h1]
            by_cases h2 : (q.hasEnd && !q.endDate.certain .tzoffset) = true
            · simp only [Bool.false_eq_true, if_false, h2, if_true]
              obtain ⟨-, -, s3, s4, s5, -⟩ := setTag_fields ((q.onStart fun x => x.set .tzoffset e.2).setText (Match.str _ 1)) .extractTZ
              refine ⟨?_, ?_, .inr ⟨e, he, .inl ?_⟩⟩
              · rw [s4]; exact u1
              · rw [s5]; exact u2
              · rw [s3, ← u3]; rfl
            · simp only [Bool.false_eq_true, if_false, h2]
              obtain ⟨-, -, s3, s4, s5, -⟩ := setTag_fields (q.setText (Match.str _ 1)) .extractTZ
              refine ⟨?_, ?_, .inl ?_⟩
              · rw [s4]; exact u1
              · rw [s5]; exact u2
              · rw [s3, ← u3]; rfl
        · exact ⟨u1, u2, .inl u3⟩
      · exact ⟨u1, u2, .inl u3⟩
    · exact ⟨u1, u2, .inl u3⟩
  · exact ⟨u1, u2, .inl u3⟩
end Chrono.Props
