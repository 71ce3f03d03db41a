import Verif.Props.P19_EndToEnd
/-!
# Successive mentions of a parser in one text
-/
namespace Chrono.Props
open Chrono Chrono.Spec Chrono.Boost

/-- Places (index and length) of the mentions a parser finds in `text` from offset `k` on, if every match gives one: the
matches of its pattern, one after the other, without the first group for parsers that cut it off. -/
def mentions (r : Re) (cut : Bool) (text : Text) : Nat → Nat → List (Nat × Nat)
  | 0, _ => []
  | n + 1, k =>
    match r.search (text.drop k) with
    | none => []
    | some mt => (k + mt.start, mt.length - (if cut then mt.lengthOf 1 else 0)) :: mentions r cut text n (k + mt.stop)

theorem forall₂_length {R : Nat → Nat → Prop} {t t' : Text} (h : List.Forall₂ R t t') : t.length = t'.length := by
  induction h <;> simp_all

theorem lengthOf_subject (mt : Match) (t : Text) (h : t.length = mt.subject.length) (n : Nat) :
    ({ mt with subject := t } : Match).lengthOf n = mt.lengthOf n := by
  unfold Match.lengthOf Match.str
  simp only [slice]
  split
  · simp [h]
  · split <;> simp [h]

theorem search_subject {r : Re} {t : Text} {mt : Match} (h : r.search t = some mt) : mt.subject = t := by
  unfold Re.search at h
  split at h
  · simp only [Option.some.injEq] at h; rw [← h]
  · cases h

theorem mentions_sim {r : Re} (hb : r.digitBlind = true) (cut : Bool) {text rep : Text} (hp : List.Forall₂ DigitRel text rep) :
    ∀ n k, mentions r cut text n k = mentions r cut rep n k := by
  intro n
  induction n with
  | zero => intro k; rfl
  | succ n ih =>
    intro k
    unfold mentions
    have hd := forall₂_drop hp k
    have h1 := Re.search_sim (Re.digitBlind_sound hb) hd
    generalize hm : r.search (text.drop k) = o at h1
    generalize hm' : r.search (rep.drop k) = o' at h1
    cases h1 with
    | none => rfl
    | @some mt mt' h1 =>
      subst h1
      simp only
      rw [lengthOf_subject mt' _ (by rw [search_subject hm', forall₂_length hd]), ih]
      rfl

/-- A parser whose results have exactly the text of the match, or that text without the first group. -/
def Exact (P : Parser) (cut : Bool) : Prop :=
  ∀ (rt : Rt) (g : Globals) (tx : Text) (mt : Match) (ref : PTime) (idx : Nat) (x : PResult) (g' : Globals), rt.Stops →
    P.extract rt g tx mt ref idx = .ok (x, g') →
      x.index = PResult.toU32 idx ∧ x.text = (mt.str 0).drop (if cut then mt.lengthOf 1 else 0)

theorem timeExpr_exact : Exact timeExprParser true := by
  intro rt g tx mt ref idx x g' hst h
  obtain ⟨y, hy, h⟩ := Out.bind_eq_ok.1 h
  simp only [Out.pure_eq, Out.ok.injEq, Prod.mk.injEq] at h
  obtain ⟨h1, h2, -⟩ := (keeps_timeExpr hst).of_ok hy
  rw [← h.1]
  exact ⟨h1, h2⟩

theorem iso_exact : Exact isoParser false := by
  intro rt g tx mt ref idx x g' hst h
  obtain ⟨y, hy, h⟩ := Out.bind_eq_ok.1 h
  simp only [Out.pure_eq, Out.ok.injEq, Prod.mk.injEq] at h
  obtain ⟨h1, h2, -⟩ := keeps_iso.of_ok hy
  rw [← h.1]
  exact ⟨h1, by simpa using h2⟩

theorem scan_mentions {rt : Rt} {P : Parser} {r : Re} {text : Text} {ref : PTime} {k : Nat} {g : Globals} {cut : Bool}
    {o : Out (List PResult × Globals)} (hst : rt.Stops) (hmin : 1 ≤ r.minLen) (hP : Exact P cut)
    (hlen : text.length < 4294967296) (h : Scan rt P r text ref k g o) : ∀ rs g', o = .ok (rs, g') → ∀ n, text.length - k < n →
      ∀ x ∈ rs, (x.index, x.textLength) ∈ mentions r cut text n k := by
  induction h with
  | done hs => intro rs g' h; simp at h; simp [h.1]
  | @step k g mt res g1 out hs hx _ ih =>
    intro rs g' h n hn
    obtain ⟨y, hy, h⟩ := Out.bind_eq_ok.1 h
    simp only [Out.ok.injEq, Prod.mk.injEq] at h
    obtain ⟨p1, p2⟩ := match_pos hmin hs
    rw [List.length_drop] at p2
    obtain ⟨n, rfl⟩ : ∃ m, n = m + 1 := ⟨n - 1, by omega⟩
    have ih := ih y.1 y.2 (by rw [hy]) n (by omega)
    have hl := (Re.search_ok hs).len
    obtain ⟨w1, w2⟩ := hP rt g _ mt ref (k + mt.start) res g1 hst hx
    unfold mentions
    rw [hs]
    simp only
    have key : ∀ x ∈ res.copy :: y.1, (x.index, x.textLength) ∈
        (k + mt.start, mt.length - (if cut then mt.lengthOf 1 else 0)) :: mentions r cut text n (k + mt.stop) := by
      intro x hx'
      rcases List.mem_cons.1 hx' with rfl | hx'
      · refine List.mem_cons.2 (.inl ?_)
        have e1 : res.copy.index = k + mt.start := by
          show res.index = _
          rw [w1]; unfold PResult.toU32; omega
        have e2 : res.copy.textLength = mt.length - (if cut then mt.lengthOf 1 else 0) := by
          show res.text.length = _
          rw [w2, List.length_drop, hl]
        rw [e1, e2]
      · exact List.mem_cons.2 (.inr (ih x hx'))
    intro x hx'
    refine key x ?_
    rw [← h.1] at hx'
    split at hx'
    · exact hx'
    · exact List.mem_cons_of_mem _ hx'
  | fail hs hx =>
    intro rs g' h
    obtain ⟨y, hy, h⟩ := Out.bind_eq_ok.1 h
    exact absurd hy (hx y)

/-- Every result of `execute` is at one of the places of `mentions`. -/
theorem execute_mentions {rt : Rt} (hrt : rt.Benign) (hst : rt.Stops) {P : Parser} {cut : Bool} (hP : Exact P cut) {r : Re} (hr : P.pattern = some r)
    (hmin : 1 ≤ r.minLen) {ref : PTime} {text : Text} (hlen : text.length < 4294967296) {rs : List PResult}
    (hret : ParserReturns rt ref text P rs) :
    ∀ x ∈ rs, (x.index, x.textLength) ∈ mentions r cut (toLower text) (text.length + 1) 0 := by
  obtain ⟨g', hret⟩ := hret
  have hl : (toLower text).length = text.length := by simp [toLower]
  have hsc := execute_scan hrt hr hmin integerWords text ref
  exact scan_mentions hst hmin hP (by omega) hsc rs g' hret _ (by omega)

/-! ## One step on a representative -/

/-- The first match of `r` in the representative has this span and these groups. -/
def checkStep (r : Re) (rep : Text) (start stop : Nat) (gs : List (Nat × Option (Nat × Nat))) : Bool :=
  match r.search rep with
  | some mt => mt.start == start && mt.stop == stop && gs.all (fun x => capSpan x.1 mt.caps == x.2)
  | none => false

theorem foundStep {r : Re} {phrase : Text} (rep : Text) (k start stop : Nat) (gs : List (Nat × Option (Nat × Nat)))
    (hb : r.digitBlind = true) (h : checkStep r (rep.drop k) start stop gs = true) (hp : List.Forall₂ DigitRel phrase rep) :
    ∃ mt, r.search (phrase.drop k) = some mt ∧ mt.start = start ∧ mt.stop = stop ∧ mt.str 0 = slice (phrase.drop k) start stop ∧
      ∀ x ∈ gs, x.1 ≠ 0 → mt.str x.1 = spanText (phrase.drop k) x.2 := by
  unfold checkStep at h
  have h1 := Re.search_sim (Re.digitBlind_sound hb) (forall₂_drop hp k)
  cases hs : r.search (rep.drop k) with
  | none => rw [hs] at h; simp at h
  | some mt' =>
    rw [hs] at h h1
    simp only [Bool.and_eq_true, List.all_eq_true, beq_iff_eq] at h
    obtain ⟨⟨e1, e2⟩, e4⟩ := h
    generalize hm : r.search (phrase.drop k) = o at h1
    cases h1 with
    | @some mt _ h1 =>
      subst h1
      refine ⟨_, rfl, e1, e2, ?_, ?_⟩
      · unfold Match.str
        rw [if_pos rfl]
        simp only [e1, e2]
      · intro x hx hx0
        unfold Match.str
        rw [if_neg hx0]
        simp only
        rw [e4 x hx]
        cases x.2 with
        | none => rfl
        | some p => rfl

theorem foundEnd {r : Re} {phrase : Text} (rep : Text) (k : Nat) (hb : r.digitBlind = true) (h : (r.search (rep.drop k)).isNone = true)
    (hp : List.Forall₂ DigitRel phrase rep) : r.search (phrase.drop k) = none := by
  have := search_sim_none hb (forall₂_drop hp k) h
  simpa using this

/-- Two mentions, nothing after them. -/
theorem execute_two {rt : Rt} {P : Parser} {r : Re} (hrt : rt.Benign) (hr : P.pattern = some r)
    (hmin : 1 ≤ r.minLen) {g g1 g2 : Globals} {text : Text} {ref : PTime} {mt1 mt2 : Match} {r1 r2 : PResult}
    (hs1 : r.search (toLower text) = some mt1)
    (hx1 : P.extract rt g (toLower text) mt1 ref mt1.start = .ok (r1, g1)) (hd1 : r1.hasPossibleDates = true)
    (hs2 : r.search ((toLower text).drop mt1.stop) = some mt2)
    (hx2 : P.extract rt g1 ((toLower text).drop mt1.stop) mt2 ref (mt1.stop + mt2.start) = .ok (r2, g2)) (hd2 : r2.hasPossibleDates = true)
    (hn : r.search ((toLower text).drop (mt1.stop + mt2.stop)) = none) :
    execute rt P g text ref = .ok ([r1.copy, r2.copy], g2) := by
  have h0 : Scan rt P r (toLower text) ref (mt1.stop + mt2.stop) g2 (.ok ([], g2)) := .done hn
  have h1 := Scan.step (P := P) (rt := rt) (ref := ref) hs2 hx2 h0
  have h2 := Scan.step (k := 0) (P := P) (rt := rt) (r := r) (text := toLower text) (ref := ref) (g := g) (mt := mt1)
    (res := r1) (by simpa using hs1) (by simpa using hx1) (by rw [Nat.zero_add]; exact h1)
  rw [execute_of_scan hrt hr hmin h2]
  simp [hd1, hd2]

end Chrono.Props
