import Verif.Lemmas.Analysis
import Verif.Props.P04_Overlap
import Verif.Props.P05_TimeZone
import Verif.Props.P06_Merge
import Verif.Model.Main
/-!
# C51, C52, C54: the range refiner, and the whole refinement pipeline
-/
namespace Chrono.Spec
open Chrono

/-- The words that join two dates to a range. -/
def rangeWords : List Text := [txt!"and", txt!"to", txt!"through", txt!"-"]

/-- Somewhere between the mention `a` and the mention `b` there is one of the range words. -/
def Joined (text : Text) (a b : PResult) : Prop :=
  ∃ w ∈ rangeWords, w <:+: slice text (stop a) b.index

end Chrono.Spec

namespace Chrono.Props
open Chrono Chrono.Spec Chrono.Boost

/-! ## The range pattern -/

/-- A plain (case-sensitive) word as an expression, shaped as the compiler shapes it. -/
def litRe : Text → Re
  | [] => .eps
  | [c] => .one (.ch false c)
  | c :: t => .seq (.one (.ch false c)) (litRe t)

theorem rel_lit (w : Text) (hw : ∀ c ∈ w, c < 256) (s s' : St) :
    Rel (litRe w) s s' ↔ ∃ t, s.rest = w ++ t ∧ s' = s.advs w t := by
  have h1 : ∀ c x, c < 256 → ((Single.ch false c).test x = true ↔ x = c) := by
    intro c x hc; simp [Single.test]; omega
  induction w generalizing s with
  | nil => simp [litRe, rel_eps, St.advs]
  | cons c w ih =>
    have hc := hw c (by simp)
    match w, ih with
    | [], _ =>
      simp only [litRe, rel_one, h1 c _ hc]
      constructor
      · rintro ⟨x, t, h, rfl, rfl⟩; exact ⟨t, h, by simp [St.adv, St.advs]⟩
      · rintro ⟨t, h, rfl⟩; exact ⟨c, t, h, rfl, by simp [St.adv, St.advs]⟩
    | d :: w, ih =>
      simp only [litRe, rel_seq, rel_one, h1 c _ hc]
      have ih' := ih (fun x hx => hw x (by simp at hx ⊢; tauto))
      have hadv : ∀ u t, (s.adv c u).advs (d :: w) t = s.advs (c :: d :: w) t := by
        intro u t
        simp only [St.advs, St.adv, List.length_cons, List.getLast?_cons_cons]
        congr 1
        omega
      constructor
      · rintro ⟨s1, ⟨x, u, h, rfl, rfl⟩, h2⟩
        obtain ⟨t, e, rfl⟩ := (ih' _).1 h2
        refine ⟨t, ?_, hadv u t⟩
        rw [h]; simp only [St.adv] at e; rw [e]; simp
      · rintro ⟨t, h, rfl⟩
        refine ⟨s.adv c (d :: w ++ t), ⟨c, _, h, rfl, rfl⟩, (ih' _).2 ⟨t, rfl, (hadv _ t).symm⟩⟩

theorem rangeTo_eq : Ast.rangeTo =
    .seq (.star true (.one (.set false false [.cls .space false])))
    (.seq (.cap 1 (.alt (.alt (.alt (litRe txt!"and") (litRe txt!"to")) (litRe txt!"through")) (litRe txt!"-")))
    (.star true (.one (.set false false [.cls .space false])))) := by decide +kernel

theorem rangeTo_rel {s s' : St} (h : Rel Ast.rangeTo s s') : ∃ w ∈ rangeWords, w <:+: s.rest := by
  rw [rangeTo_eq] at h
  obtain ⟨s1, h1, h2⟩ := rel_seq.1 h
  obtain ⟨s2, h2, h3⟩ := rel_seq.1 h2
  obtain ⟨u, hu⟩ := h1.consumed
  obtain ⟨s3, h2, -⟩ := rel_cap.1 h2
  have : ∃ w ∈ rangeWords, ∃ t, s1.rest = w ++ t := by
    simp only [rel_alt] at h2
    rcases h2 with ((h2 | h2) | h2) | h2
    · obtain ⟨t, h, -⟩ := (rel_lit _ (by decide) _ _).1 h2; exact ⟨txt!"and", by decide, t, h⟩
    · obtain ⟨t, h, -⟩ := (rel_lit _ (by decide) _ _).1 h2; exact ⟨txt!"to", by decide, t, h⟩
    · obtain ⟨t, h, -⟩ := (rel_lit _ (by decide) _ _).1 h2; exact ⟨txt!"through", by decide, t, h⟩
    · obtain ⟨t, h, -⟩ := (rel_lit _ (by decide) _ _).1 h2; exact ⟨txt!"-", by decide, t, h⟩
  obtain ⟨w, hw, t, ht⟩ := this
  exact ⟨w, hw, ⟨u, t, by rw [hu.rest, ht, List.append_assoc]⟩⟩

theorem rangeTo_of_word {w : Text} (hw : w ∈ rangeWords) (s : St) (t : Text) (h : s.rest = w ++ t) :
    ∃ s', Rel Ast.rangeTo s s' := by
  rw [rangeTo_eq]
  have hl : Rel (litRe w) s (s.advs w t) := 
    (rel_lit w (fun c hc => (show ∀ w ∈ rangeWords, ∀ c ∈ w, c < 256 by decide) w hw c hc) s _).2 ⟨t, h, rfl⟩
  have h2 : Rel (.alt (.alt (.alt (litRe txt!"and") (litRe txt!"to")) (litRe txt!"through")) (litRe txt!"-")) s
      (s.advs w t) := by
    simp only [rel_alt]
    unfold rangeWords at hw
    simp only [List.mem_cons, List.not_mem_nil, or_false] at hw
    rcases hw with rfl | rfl | rfl | rfl
    · exact .inl (.inl (.inl hl))
    · exact .inl (.inl (.inr hl))
    · exact .inl (.inr hl)
    · exact .inr hl
  exact ⟨_, .seq .star0 (.seq (.cap h2) .star0)⟩

/-- The range pattern is found in a text iff one of the range words occurs in it. -/
theorem rangeTo_search (t : Text) :
    searches false Pat.rangeTo t = .ok true ∨ searches false Pat.rangeTo t = .ok false := by
  unfold searches
  rw [Ast.compile_rangeTo]
  simp only
  cases (Ast.rangeTo.search t).isSome
  · exact .inr rfl
  · exact .inl rfl

theorem rangeTo_search_iff (t : Text) :
    searches false Pat.rangeTo t = .ok true ↔ ∃ w ∈ rangeWords, w <:+: t := by
  unfold searches
  rw [Ast.compile_rangeTo]
  simp only [Out.ok.injEq]
  constructor
  · intro h
    obtain ⟨mt, hmt⟩ := Option.isSome_iff_exists.1 h
    obtain ⟨h1, h2, ⟨s', -, -, -, h6⟩, -⟩ := Re.search_some hmt
    obtain ⟨w, hw, hin⟩ := rangeTo_rel h6
    refine ⟨w, hw, hin.trans ?_⟩
    exact (List.drop_suffix _ _).isInfix
  · rintro ⟨w, hw, u, v, rfl⟩
    cases hs : Ast.rangeTo.search (u ++ w ++ v) with
    | some _ => rfl
    | none =>
      exfalso
      obtain ⟨s', hr⟩ := rangeTo_of_word hw (startSt (u ++ w ++ v) u.length) v (by
        simp only [startSt]; rw [List.append_assoc, List.drop_left])
      exact Re.search_none hs u.length (by simp) s' hr

/-! ## One step of the range refiner -/

theorem mdrAble_iff {text : Text} {a b : PResult} (ha : Inside text a) (hb : Inside text b) (hab : Before a b) :
    mdrAble text a b = .ok true ∨ mdrAble text a b = .ok false := by
  obtain ⟨h1, h2⟩ := ha
  unfold stop at h1
  unfold mdrAble PResult.toU32 substrN
  simp only
  rw [if_pos (by omega)]
  exact rangeTo_search _

theorem mdrAble_total {text : Text} {a b : PResult} (ha : Inside text a) :
    mdrAble text a b = .ok true ∨ mdrAble text a b = .ok false := by
  obtain ⟨h1, h2⟩ := ha
  unfold stop at h1
  unfold mdrAble PResult.toU32 substrN
  simp only
  rw [if_pos (by omega)]
  exact rangeTo_search _

theorem mdrAble_joined {text : Text} {a b : PResult} (ha : Inside text a) (hb : Inside text b) (hab : Before a b) :
    mdrAble text a b = .ok true ↔ Joined text a b := by
  obtain ⟨h1, h2⟩ := ha
  obtain ⟨h3, -⟩ := hb
  unfold Before at hab
  unfold Joined
  rw [← rangeTo_search_iff]
  unfold stop at *
  have e1 : PResult.toU32 ((a.index : Int) + (a.textLength : Int)) = a.index + a.textLength := by
    unfold PResult.toU32; omega
  have e2 : PResult.toU32 ((b.index : Int) - ((a.index + a.textLength : Nat) : Int)) =
      b.index - (a.index + a.textLength) := by
    unfold PResult.toU32; omega
  unfold mdrAble substrN
  simp only [Nat.cast_add] at *
  rw [e1, Nat.cast_add, e2, if_pos (by omega)]
  rfl

/-- What merging two results to a range gives. -/
theorem mdrMerge_ok {text : Text} {a b m : PResult} (ha : Inside text a) (hb : Inside text b)
    (h : mdrMerge text a b = .ok m) :
    ∃ x y, a.startDate.date = .ok x ∧ b.startDate.date = .ok y ∧
      m.startDate = a.startDate ∧ m.hasEnd = true ∧
      m.endDate = (if x.us > y.us then a.startDate else b.startDate) ∧ Inside text m := by
  unfold mdrMerge at h
  obtain ⟨x, hx, h⟩ := Out.bind_eq_ok.1 h
  obtain ⟨y, hy, h⟩ := Out.bind_eq_ok.1 h
  refine ⟨x, y, hx, hy, ?_⟩
  obtain ⟨b', hb', hb'', hbs⟩ : ∃ b', (if x.us > y.us then a else b) = b' ∧ Inside text b' ∧
      b'.startDate = (if x.us > y.us then a.startDate else b.startDate) := by
    refine ⟨_, rfl, ?_, ?_⟩ <;> split <;> first | assumption | rfl
  rw [hb'] at h
  simp only at h
  obtain ⟨tx, htx, h⟩ := Out.bind_eq_ok.1 h
  simp only [Out.pure_eq, Out.ok.injEq] at h
  obtain ⟨z, hz, z1, z2, z3, z4, z5, -⟩ := copyTags_fields b'
    ((({ a with endDate := b'.startDate, hasEnd := true } : PResult).setIndex (min a.index b'.index)).setText tx)
  obtain ⟨s1, s2, s3, s4, s5, -⟩ := setTag_fields z .mergeDateRange
  rw [hz] at h
  subst h
  refine ⟨by rw [s3, z3]; rfl, by rw [s5, z5]; rfl, by rw [s4, z4, ← hbs]; rfl, ?_⟩
  obtain ⟨a1, a2⟩ := ha
  obtain ⟨b1, -⟩ := hb''
  unfold stop PResult.textLength at a1 b1
  unfold substrN at htx
  rw [if_pos (by omega)] at htx
  simp only [Out.ok.injEq] at htx
  have hi : z.index = min a.index b'.index := by
    rw [z1]; simp only [PResult.setText, PResult.setIndex, PResult.toU32]; omega
  have ht : z.text = tx := by rw [z2]; rfl
  refine ⟨?_, a2⟩
  unfold stop PResult.textLength
  rw [s1, s2, hi, ht, ← htx, List.length_take, List.length_drop]
  omega

theorem mdrStep_some {text : Text} {a b m : PResult} (h : mdrStep text a b = .ok (some m)) :
    mdrMerge text a b = .ok m ∧ a.hasEnd = false ∧ b.hasEnd = false ∧ mdrAble text a b = .ok true := by
  unfold mdrStep at h
  split at h
  · rename_i hc
    simp at hc
    obtain ⟨f, hf, h⟩ := Out.bind_eq_ok.1 h
    cases f with
    | false => simp at h
    | true =>
      rw [if_pos rfl] at h
      obtain ⟨m', hm', h⟩ := Out.bind_eq_ok.1 h
      simp at h; subst h
      exact ⟨hm', hc.1, hc.2, hf⟩
  · simp at h

/-- The end is not before the start (both are real dates). -/
def EndNotBeforeStart (r : PResult) : Prop :=
  r.hasEnd = true ∧ ∃ x y, r.startDate.date = .ok x ∧ r.endDate.date = .ok y ∧ x.us ≤ y.us

theorem mdrLoop_mem (text : Text) (P : PResult → Prop)
    (hP : ∀ a b m, P a → P b → mdrStep text a b = .ok (some m) → P m) :
    ∀ (n : Nat) (l : List PResult) (prev : PResult) (out : List PResult), l.length ≤ n →
      P prev → (∀ r ∈ l, P r) → mdrLoop text prev l = .ok out → ∀ r ∈ out, P r := by
  intro n
  induction n with
  | zero =>
    intro l prev out hl hp _ h
    cases l with
    | nil =>
      simp only [mdrLoop, Out.ok.injEq] at h
      subst h
      split
      · simp
      · simpa using hp
    | cons => simp at hl
  | succ n ih =>
    intro l prev out hl hp hall h
    match l, hl, hall, h with
    | [], _, _, h =>
      simp only [mdrLoop, Out.ok.injEq] at h
      subst h
      split
      · simp
      · simpa using hp
    | [x], _, _, h =>
      simp only [mdrLoop, Out.ok.injEq] at h
      subst h
      split
      · simp
      · simpa using hp
    | p :: c :: rest, hl, hall, h =>
      unfold mdrLoop at h
      obtain ⟨o, ho, h⟩ := Out.bind_eq_ok.1 h
      cases o with
      | some m =>
        simp only at h
        obtain ⟨tl, htl, h⟩ := Out.bind_eq_ok.1 h
        simp at h; subst h
        have hm := hP p c m (hall p (by simp)) (hall c (by simp)) ho
        intro r hr
        rcases List.mem_cons.1 hr with rfl | hr
        · exact hm
        · exact ih rest m tl (by simp at hl; omega) hm (fun x hx => hall x (by simp [hx])) htl r hr
      | none =>
        simp only at h
        obtain ⟨tl, htl, h⟩ := Out.bind_eq_ok.1 h
        simp at h; subst h
        intro r hr
        rcases List.mem_cons.1 hr with rfl | hr
        · exact hall r (by simp)
        · exact ih (c :: rest) p tl (by simp at hl ⊢; omega) (hall p (by simp))
            (fun x hx => hall x (by simp at hx ⊢; tauto)) htl r hr

/-- **C51.** Whatever the range refiner returns, each of its results is one of the input results, or a merge of
two of them whose end date-time is not before its start date-time. -/
theorem c51_range_never_ends_before_it_starts (rs out : List PResult) (text : Text)
    (hin : ∀ r ∈ rs, Inside text r) (h : mdrRefine rs text = .ok out) :
    ∀ m ∈ out, m ∈ rs ∨ (EndNotBeforeStart m ∧
      ∃ a ∈ rs, ∃ b ∈ rs, a.hasEnd = false ∧ b.hasEnd = false ∧ m.startDate = a.startDate ∧
        (m.endDate = b.startDate ∨ m.endDate = a.startDate)) := by
  let P : PResult → Prop := fun m => Inside text m ∧ (m ∈ rs ∨ (EndNotBeforeStart m ∧
      ∃ a ∈ rs, ∃ b ∈ rs, a.hasEnd = false ∧ b.hasEnd = false ∧ m.startDate = a.startDate ∧
        (m.endDate = b.startDate ∨ m.endDate = a.startDate)))
  have hP : ∀ a b m, P a → P b → mdrStep text a b = .ok (some m) → P m := by
    rintro a b m ⟨ia, ha⟩ ⟨ib, hb⟩ hs
    obtain ⟨hm, ea, eb, -⟩ := mdrStep_some hs
    obtain ⟨x, y, hx, hy, m1, m2, m3, m4⟩ := mdrMerge_ok ia ib hm
    have ha' : a ∈ rs := by
      rcases ha with h | ⟨⟨h, -⟩, -⟩
      · exact h
      · rw [ea] at h; simp at h
    have hb' : b ∈ rs := by
      rcases hb with h | ⟨⟨h, -⟩, -⟩
      · exact h
      · rw [eb] at h; simp at h
    refine ⟨m4, .inr ⟨⟨m2, ?_⟩, a, ha', b, hb', ea, eb, m1, ?_⟩⟩
    · by_cases hxy : x.us > y.us
      · rw [if_pos hxy] at m3
        exact ⟨x, x, by rw [m1, hx], by rw [m3, hx], Int.le_refl _⟩
      · rw [if_neg hxy] at m3
        exact ⟨x, y, by rw [m1, hx], by rw [m3, hy], by omega⟩
    · rw [m3]; split <;> simp
  intro m hm
  rcases rs with _ | ⟨p, _ | ⟨c, rest⟩⟩
  · simp [mdrRefine] at h; subst h; simp at hm
  · simp [mdrRefine] at h; subst h; left; exact hm
  · exact (mdrLoop_mem text P hP _ (p :: c :: rest) p out (Nat.le_refl _) ⟨hin p (by simp), .inl (by simp)⟩
      (fun r hr => ⟨hin r hr, .inl hr⟩) h m hm).2

/-- Two dates of a text "10 march - 20 march" (made up). -/
def exFrom : PResult :=
  (PResult.mk' ⟨0⟩ 0 txt!"10 march").onStart (fun c => ((c.set .year 2019).set .month 3).set .mday 10)
def exTo : PResult :=
  (PResult.mk' ⟨0⟩ 11 txt!"20 march").onStart (fun c => ((c.set .year 2019).set .month 3).set .mday 20)

theorem ex_range_joined : Joined txt!"10 march - 20 march" exFrom exTo :=
  ⟨txt!"-", by decide, ⟨txt!" ", txt!" ", by decide⟩⟩

/-- C51 is not vacuous: the two dates are merged, and the range is 10..20 March. -/
example : ∃ m out, mdrRefine [exFrom, exTo] txt!"10 march - 20 march" = .ok (m :: out) ∧
    EndNotBeforeStart m ∧ m.startDate.get .mday = 10 ∧ m.endDate.get .mday = 20 := by
  have hf : ∃ x, exFrom.startDate.date = .ok x ∧ x.us = instant ⟨2019, 3, 10, 0, 0, 0⟩ * 1000000 :=
    date_of_reads (t := ⟨2019, 3, 10, 0, 0, 0⟩) (by simp [Reads]; decide) (by decide)
  have ht : ∃ x, exTo.startDate.date = .ok x ∧ x.us = instant ⟨2019, 3, 20, 0, 0, 0⟩ * 1000000 :=
    date_of_reads (t := ⟨2019, 3, 20, 0, 0, 0⟩) (by simp [Reads]; decide) (by decide)
  obtain ⟨x, hx, hx'⟩ := hf
  obtain ⟨y, hy, hy'⟩ := ht
  have hlt : ¬ (x.us > y.us) := by
    rw [hx', hy']
    have : instant ⟨2019, 3, 10, 0, 0, 0⟩ ≤ instant ⟨2019, 3, 20, 0, 0, 0⟩ := by decide +kernel
    omega
  have hm : ∃ m, mdrMerge txt!"10 march - 20 march" exFrom exTo = .ok m := by
    unfold mdrMerge
    rw [hx, hy]
    simp only [Out.bind_ok, if_neg hlt]
    exact ⟨_, rfl⟩
  obtain ⟨m, hm⟩ := hm
  obtain ⟨x', y', hx'', hy'', m1, m2, m3, -⟩ := mdrMerge_ok (by decide) (by decide) hm
  rw [hx] at hx''; rw [hy] at hy''
  simp only [Out.ok.injEq] at hx'' hy''
  subst hx''; subst hy''
  rw [if_neg hlt] at m3
  have hs : mdrStep txt!"10 march - 20 march" exFrom exTo = .ok (some m) := by
    unfold mdrStep
    rw [(mdrAble_joined (by decide) (by decide) (by unfold Before; decide)).2 ex_range_joined]
    simp only [show (!exFrom.hasEnd && !exTo.hasEnd) = true from rfl, if_true, Out.bind_ok, hm]
    rfl
  refine ⟨m, _, by simp only [mdrRefine, mdrLoop, hs]; rfl, ⟨m2, x, y, by rw [m1, hx], by rw [m3, hy], by omega⟩,
    by rw [m1]; decide, by rw [m3]; decide⟩

/-! ## C52 -/

theorem mdrStep_unjoined {text : Text} {a b : PResult} (ha : Inside text a) (hb : Inside text b)
    (hab : Before a b) (h : a.hasEnd = true ∨ b.hasEnd = true ∨ ¬ Joined text a b) :
    mdrStep text a b = .ok none := by
  unfold mdrStep
  by_cases hc : (!a.hasEnd && !b.hasEnd) = true
  · rw [if_pos hc]
    simp at hc
    rw [hc.1, hc.2] at h
    simp at h
    rcases mdrAble_iff ha hb hab with h' | h'
    · exact absurd ((mdrAble_joined ha hb hab).1 h') h
    · rw [h']; rfl
  · rw [if_neg hc]; rfl

/-- **C52 (partial).** If no two neighbours can be merged (one already is a range, or no range word lies between),
the range refiner keeps all results but the last, and repeats the last but one in the place of the last: the
last result is lost. -/
theorem c52_last_replaced_by_previous_partial (rs : List PResult) (p c : PResult) (text : Text)
    (hin : ∀ r ∈ rs ++ [p, c], Inside text r ∧ NonEmpty r)
    (hno : Neighbours (fun a b => Before a b ∧ (a.hasEnd = true ∨ b.hasEnd = true ∨ ¬ Joined text a b))
      (rs ++ [p, c])) :
    mdrRefine (rs ++ [p, c]) text = .ok (rs ++ [p, p]) := by
  have hp : p.isEmpty = false := by
    have := (hin p (by simp)).2
    unfold NonEmpty PResult.textLength at this
    unfold PResult.isEmpty
    cases ht : p.text <;> simp_all
  have key : ∀ (l : List PResult) (x : PResult), (∀ r ∈ l ++ [p, c], Inside text r ∧ NonEmpty r) →
      Neighbours (fun a b => Before a b ∧ (a.hasEnd = true ∨ b.hasEnd = true ∨ ¬ Joined text a b))
        (l ++ [p, c]) → mdrLoop text x (l ++ [p, c]) = .ok (l ++ [p, p]) := by
    intro l
    induction l with
    | nil =>
      intro x hin hno
      simp only [List.nil_append, Neighbours] at hno ⊢
      unfold mdrLoop
      rw [mdrStep_unjoined (hin p (by simp)).1 (hin c (by simp)).1 hno.1.1 hno.1.2]
      simp [mdrLoop, hp]
    | cons a l ih =>
      intro x hin hno
      obtain ⟨b, l', hl⟩ : ∃ b l', l ++ [p, c] = b :: l' := by
        cases l with
        | nil => exact ⟨p, [c], rfl⟩
        | cons b l => exact ⟨b, l ++ [p, c], rfl⟩
      rw [List.cons_append, hl] at hno ⊢
      simp only [Neighbours] at hno
      unfold mdrLoop
      have ha := (hin a (by simp)).1
      have hb := (hin b (by rw [List.cons_append, hl]; simp)).1
      rw [mdrStep_unjoined ha hb hno.1.1 hno.1.2]
      simp only [Out.bind_ok]
      rw [← hl]
      have hn' : Neighbours (fun a b => Before a b ∧ (a.hasEnd = true ∨ b.hasEnd = true ∨ ¬ Joined text a b))
          (l ++ [p, c]) := by rw [hl]; exact hno.2
      rw [ih a (fun r hr => hin r (by simp at hr ⊢; tauto)) hn']
      simp
  match rs with
  | [] => exact key [] p hin hno
  | [a] => exact key [a] a hin hno
  | a :: b :: l => exact key (a :: b :: l) a hin hno

/-- **C52 (refutation).** Two unrelated dates: the second one is lost. -/
theorem c52_identity_refuted :
    ∃ (a b : PResult) (text : Text), Before a b ∧ ¬ Joined text a b ∧ a.startDate.get .mday = 10 ∧
      b.startDate.get .mday = 20 ∧ mdrRefine [a, b] text = .ok [a, a] := by
  have hj : ¬ Joined txt!"10 march   20 march" exFrom exTo := by
    rintro ⟨w, hw, h⟩
    unfold rangeWords at hw
    simp only [List.mem_cons, List.not_mem_nil, or_false] at hw
    rcases hw with rfl | rfl | rfl | rfl <;> revert h <;> decide
  refine ⟨exFrom, exTo, txt!"10 march   20 march", by unfold Before; decide, hj, by decide, by decide, ?_⟩
  exact c52_last_replaced_by_previous_partial [] exFrom exTo _ (by decide)
    ⟨⟨by unfold Before; decide, .inr (.inr hj)⟩, trivial⟩

/-- **C52 (first result).** The first result of the output is the first input result, or its merge with the
second. -/
theorem c52_first_result_survives (a b : PResult) (rest out : List PResult) (text : Text)
    (h : mdrRefine (a :: b :: rest) text = .ok out) :
    ∃ m tl, out = m :: tl ∧ (m = a ∨ mdrMerge text a b = .ok m) := by
  unfold mdrRefine mdrLoop at h
  obtain ⟨o, ho, h⟩ := Out.bind_eq_ok.1 h
  cases o with
  | none =>
    simp only at h
    obtain ⟨tl, -, h⟩ := Out.bind_eq_ok.1 h
    simp at h
    exact ⟨a, tl, h.symm, .inl rfl⟩
  | some m =>
    simp only at h
    obtain ⟨tl, -, h⟩ := Out.bind_eq_ok.1 h
    simp at h
    exact ⟨m, tl, h.symm, .inr (mdrStep_some ho).1⟩

/-! ## C54 -/

/-- The three exceptions Boost throws for something that is not a date. -/
def Exc.NotADate (e : Exc) : Prop := e = .badYear ∨ e = .badMonth ∨ e = .badDayOfMonth

/-- The run either succeeds with a value satisfying `P`, or throws because some result is not a date. -/
def OkOrNotADate {α : Type} (P : α → Prop) (x : Out α) : Prop :=
  (∃ a, x = .ok a ∧ P a) ∨ ∃ e, x = .exn e ∧ Exc.NotADate e

theorem OkOrNotADate.bind {α β : Type} {P : α → Prop} {Q : β → Prop} {x : Out α} {f : α → Out β}
    (hx : OkOrNotADate P x) (hf : ∀ a, x = .ok a → P a → OkOrNotADate Q (f a)) : OkOrNotADate Q (x >>= f) := by
  rcases hx with ⟨a, rfl, ha⟩ | ⟨e, rfl, he⟩
  · exact hf a rfl ha
  · exact .inr ⟨e, rfl, he⟩

theorem OkOrNotADate.ok {α : Type} {P : α → Prop} {a : α} (h : P a) : OkOrNotADate P (.ok a) := .inl ⟨a, rfl, h⟩

theorem date_total (c : Comps) : OkOrNotADate (fun _ => True) c.date := by
  unfold Comps.date ptimeFromTm mkDate
  split; · exact .inr ⟨_, rfl, .inl rfl⟩
  split; · exact .inr ⟨_, rfl, .inr (.inl rfl)⟩
  split; · exact .inr ⟨_, rfl, .inr (.inr rfl)⟩
  split; · exact .inr ⟨_, rfl, .inr (.inr rfl)⟩
  exact .ok trivial

theorem mergedEnd_total (d t : PResult) (s : Comps) : OkOrNotADate (fun _ => True) (mergedEnd d t s) := by
  unfold mergedEnd
  simp only
  generalize mergeDateTimeComponent _ _ = e
  split
  · split
    · refine (date_total _).bind fun _ _ _ => (date_total _).bind fun _ _ _ => ?_
      split
      · split <;> exact .ok trivial
      · exact .ok trivial
    · exact .ok trivial
  · exact .ok trivial

theorem mdtMerge_total {text : Text} {d t : PResult} (hd : Inside text d) (ht : Inside text t) :
    OkOrNotADate (Inside text) (mdtMerge text d t) := by
  have : OkOrNotADate (fun _ => True) (mdtMerge text d t) := by
    unfold mdtMerge
    refine (mergedEnd_total _ _ _).bind fun e _ _ => ?_
    simp only
    have h1 : (mergedRecord d (mergeDateTimeComponent d.startDate t.startDate) e).index = d.index := by
      cases e <;> rfl
    obtain ⟨a1, -⟩ := hd
    unfold stop at a1
    unfold substrN
    rw [h1, if_pos (by omega)]
    exact .ok trivial
  rcases this with ⟨m, hm, -⟩ | h
  · rw [hm]
    obtain ⟨-, h2, h3, -⟩ := mdtMerge_ok hd ht hm
    refine .ok ⟨?_, hd.2⟩
    rw [h3]
    have := hd.1; have := ht.1
    omega
  · exact .inr h

theorem mdtStep_total {text : Text} {a b : PResult} (ha : Inside text a) (hb : Inside text b) :
    OkOrNotADate (fun o => ∀ m, o = some m → Inside text m) (mdtStep text a b) := by
  rw [mdtStep_eq]
  split
  · rw [if_pos ha.1]
    split
    · refine (mdtMerge_total ha hb).bind fun m _ hm => .ok ?_
      rintro _ ⟨⟩; exact hm
    · refine (mdtMerge_total hb ha).bind fun m _ hm => .ok ?_
      rintro _ ⟨⟩; exact hm
  · exact .ok (by simp)

theorem mdtLoop_total (text : Text) : ∀ (n : Nat) (l : List PResult) (x : PResult), l.length ≤ n →
    Inside text x → (∀ r ∈ l, Inside text r) →
    OkOrNotADate (fun out => ∀ r ∈ out, Inside text r) (mdtLoop text x l) := by
  intro n
  induction n with
  | zero =>
    intro l x hl hx _
    cases l with
    | nil =>
      unfold mdtLoop
      refine .ok ?_
      split
      · simp
      · simpa using hx
    | cons => simp at hl
  | succ n ih =>
    intro l x hl hx hall
    match l, hl, hall with
    | [], _, _ => unfold mdtLoop; refine .ok ?_; split <;> simp_all
    | [y], _, _ => unfold mdtLoop; refine .ok ?_; split <;> simp_all
    | p :: c :: rest, hl, hall =>
      unfold mdtLoop
      refine (mdtStep_total (hall p (by simp)) (hall c (by simp))).bind fun o _ ho => ?_
      cases o with
      | some m =>
        simp only
        have hc : Inside text (rest.headD c) := by
          cases rest with
          | nil => exact hall c (by simp)
          | cons r rest => exact hall r (by simp)
        refine (ih rest _ (by simp at hl; omega) hc (fun r hr => hall r (by simp [hr]))).bind fun tl _ htl => .ok ?_
        intro r hr
        rcases List.mem_cons.1 hr with rfl | hr
        · exact ho r rfl
        · exact htl r hr
      | none =>
        simp only
        refine (ih (c :: rest) _ (by simp at hl ⊢; omega) (hall c (by simp))
          (fun r hr => hall r (by simp at hr ⊢; tauto))).bind fun tl _ htl => .ok ?_
        intro r hr
        rcases List.mem_cons.1 hr with rfl | hr
        · exact hall r (by simp)
        · exact htl r hr

theorem mdtRefine_total {text : Text} {rs : List PResult} (h : ∀ r ∈ rs, Inside text r) :
    OkOrNotADate (fun out => ∀ r ∈ out, Inside text r) (mdtRefine rs text) := by
  match rs, h with
  | [], h => exact .ok h
  | [r], h => exact .ok h
  | p :: c :: rest, h => exact mdtLoop_total text _ (p :: c :: rest) c (Nat.le_refl _) (h c (by simp)) h

theorem mdrMerge_total {text : Text} {a b : PResult} (ha : Inside text a) (hb : Inside text b) :
    OkOrNotADate (Inside text) (mdrMerge text a b) := by
  have : OkOrNotADate (fun _ => True) (mdrMerge text a b) := by
    unfold mdrMerge
    refine (date_total _).bind fun x _ _ => (date_total _).bind fun y _ _ => ?_
    simp only
    obtain ⟨a1, -⟩ := ha
    unfold stop at a1
    unfold substrN
    rw [if_pos (by omega)]
    exact .ok trivial
  rcases this with ⟨m, hm, -⟩ | h
  · rw [hm]
    obtain ⟨_, _, -, -, -, -, -, h⟩ := mdrMerge_ok ha hb hm
    exact .ok h
  · exact .inr h

theorem mdrStep_total {text : Text} {a b : PResult} (ha : Inside text a) (hb : Inside text b) :
    OkOrNotADate (fun o => ∀ m, o = some m → Inside text m) (mdrStep text a b) := by
  unfold mdrStep
  split
  · rcases mdrAble_total (b := b) ha with h | h
    · rw [h]
      refine (mdrMerge_total ha hb).bind fun m _ hm => .ok ?_
      rintro _ ⟨⟩; exact hm
    · rw [h]; exact .ok (by simp)
  · exact .ok (by simp)

theorem mdrLoop_total (text : Text) : ∀ (n : Nat) (l : List PResult) (x : PResult), l.length ≤ n →
    Inside text x → (∀ r ∈ l, Inside text r) →
    OkOrNotADate (fun out => ∀ r ∈ out, Inside text r) (mdrLoop text x l) := by
  intro n
  induction n with
  | zero =>
    intro l x hl hx _
    cases l with
    | nil =>
      unfold mdrLoop
      refine .ok ?_
      split
      · simp
      · simpa using hx
    | cons => simp at hl
  | succ n ih =>
    intro l x hl hx hall
    match l, hl, hall with
    | [], _, _ => unfold mdrLoop; refine .ok ?_; split <;> simp_all
    | [y], _, _ => unfold mdrLoop; refine .ok ?_; split <;> simp_all
    | p :: c :: rest, hl, hall =>
      unfold mdrLoop
      refine (mdrStep_total (hall p (by simp)) (hall c (by simp))).bind fun o _ ho => ?_
      cases o with
      | some m =>
        simp only
        refine (ih rest _ (by simp at hl; omega) (ho m rfl) (fun r hr => hall r (by simp [hr]))).bind
          fun tl _ htl => .ok ?_
        intro r hr
        rcases List.mem_cons.1 hr with rfl | hr
        · exact ho r rfl
        · exact htl r hr
      | none =>
        simp only
        refine (ih (c :: rest) _ (by simp at hl ⊢; omega) (hall p (by simp))
          (fun r hr => hall r (by simp at hr ⊢; tauto))).bind fun tl _ htl => .ok ?_
        intro r hr
        rcases List.mem_cons.1 hr with rfl | hr
        · exact hall r (by simp)
        · exact htl r hr

theorem mdrRefine_total {text : Text} {rs : List PResult} (h : ∀ r ∈ rs, Inside text r) :
    OkOrNotADate (fun out => ∀ r ∈ out, Inside text r) (mdrRefine rs text) := by
  match rs, h with
  | [], h => exact .ok h
  | [r], h => exact .ok h
  | p :: c :: rest, h => exact mdrLoop_total text _ (p :: c :: rest) p (Nat.le_refl _) (h p (by simp)) h

theorem zoneSuffix_length {rest abbr : Text} (h : ZoneSuffix rest abbr) : abbr.length ≤ rest.length := by
  obtain ⟨u, op, cl, rfl, -⟩ := h
  simp only [List.length_append]; omega

theorem tzRefine_total {text : Text} {rs : List PResult} (h : ∀ r ∈ rs, Inside text r) :
    OkOrNotADate (fun out => (∀ r ∈ out, Inside text r) ∧ out.length = rs.length) (tzRefine rs text) := by
  obtain ⟨rs', h1, h2, h3⟩ := c47_only_tagged_times_before_known_zone rs text
  rw [h1]
  refine .ok ⟨?_, h2⟩
  intro r hr
  obtain ⟨i, hi, rfl⟩ := List.getElem_of_mem hr
  have hin := h rs[i] (List.getElem_mem _)
  obtain ⟨e1, -, -, -, e5, e6⟩ := h3 i (by omega) hi
  refine ⟨?_, hin.2⟩
  unfold stop PResult.textLength
  by_cases hz : ∃ abbr off, (rs[i]).getTag .timeExpression = true ∧ FollowedByZone text rs[i] abbr off
  · obtain ⟨abbr, off, ht, hf⟩ := hz
    rw [e1, (e6 abbr off ht hf).1]
    have := zoneSuffix_length hf.2.1
    rw [List.length_drop] at this
    have h1 := hf.1
    unfold stop at this h1
    omega
  · rw [e1, (e5 hz).1]; exact hin.1

/-- **C54.** If all mentions lie inside the text then no refiner ever addresses the text outside its bounds, runs
into undefined behaviour or fails to terminate: the whole refinement either succeeds, and then all mentions lie
inside the text again, or ends with one of Boost's three "not a date" exceptions, thrown for the components of a
result that is not a calendar date. -/
theorem c54_refiners_stay_inside_text (rs : List PResult) (text : Text) (h : ∀ r ∈ rs, Inside text r) :
    OkOrNotADate (fun out => ∀ r ∈ out, Inside text r) (runRefiners rs text) := by
  unfold runRefiners
  have h0 : ∀ r ∈ overlapRefine rs, Inside text r := fun r hr => h r ((overlapRefine_sublist rs).mem hr)
  simp only
  exact (tzRefine_total h0).bind fun a _ ha => (mdtRefine_total ha.1).bind fun b _ hb => mdrRefine_total hb

/-- Each refiner on its own. -/
theorem c54_each_refiner (rs : List PResult) (text : Text) (h : ∀ r ∈ rs, Inside text r) :
    (∀ r ∈ overlapRefine rs, Inside text r) ∧
    OkOrNotADate (fun out => (∀ r ∈ out, Inside text r) ∧ out.length = rs.length) (tzRefine rs text) ∧
    OkOrNotADate (fun out => ∀ r ∈ out, Inside text r) (mdtRefine rs text) ∧
    OkOrNotADate (fun out => ∀ r ∈ out, Inside text r) (mdrRefine rs text) :=
  ⟨fun r hr => h r ((overlapRefine_sublist rs).mem hr), tzRefine_total h, mdtRefine_total h, mdrRefine_total h⟩

/-- The hypothesis matters: with a mention beyond the end of the text the date/time refiner throws
`std::out_of_range`. -/
example : mdtRefine [exDate, exTime] txt!"5pm" = .exn .outOfRange := by
  have hs : mdtStep txt!"5pm" exDate exTime = .exn .outOfRange := by
    rw [mdtStep_eq, if_pos (by decide), if_neg (by decide)]
  simp only [mdtRefine, mdtLoop, hs]; rfl

example : ∀ r ∈ [exDate, exTime], Inside txt!"tomorrow at 5pm" r := by decide

end Chrono.Props
