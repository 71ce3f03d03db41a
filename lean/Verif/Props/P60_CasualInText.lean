import Verif.Lemmas.Sentence
import Verif.Props.P59_NoDateWords
/-!
# C82: a day or a part of a day, named in the middle of a sentence
-/
namespace Chrono.Props
open Chrono Chrono.Spec Chrono.Boost

/-! ## Patterns between word boundaries -/

def framed : Re → Bool
  | .seq (.cap _ (.wb false)) (.seq (.cap _ _) (.cap _ (.wb false))) => true
  | _ => false

theorem boundary_congr {s z : St} (h1 : s.prev = z.prev) (h2 : s.rest = z.rest) : s.atWordBoundary = z.atWordBoundary := by
  unfold St.atWordBoundary; rw [h1, h2]

theorem framed_edges {r : Re} (hf : framed r = true) {T : Text} {mt : Match} (h : r.search T = some mt) :
    (startSt T mt.start).atWordBoundary = true ∧ (startSt T mt.stop).atWordBoundary = true ∧
      T = T.take mt.start ++ (mt.str 0 ++ T.drop mt.stop) := by
  have ok := Re.search_ok h
  obtain ⟨hsub, hle, ⟨s', -, hpos, -, hr⟩, -⟩ := Re.search_some h
  have hT : T = T.take mt.start ++ (mt.str 0 ++ T.drop mt.stop) := by
    have e : mt.str 0 = slice T mt.start mt.stop := by unfold Match.str; rw [if_pos rfl, hsub]
    rw [e]
    unfold slice
    have h1 := ok.le
    have h3 : (T.drop mt.start).take (mt.stop - mt.start) ++ T.drop mt.stop = T.drop mt.start := by
      have := List.take_append_drop (mt.stop - mt.start) (T.drop mt.start)
      rw [List.drop_drop, Nat.add_sub_cancel' h1] at this
      exact this
    rw [h3, List.take_append_drop]
  refine ⟨?_, ?_, hT⟩
  · unfold framed at hf
    split at hf
    · simp only [rel_seq, rel_cap, rel_wb] at hr
      obtain ⟨s1, ⟨s2, ⟨hb, rfl⟩, rfl⟩, -⟩ := hr
      simpa using hb
    · cases hf
  · obtain ⟨w, hc⟩ := hr.consumed
    have hon := ((startSt_on T _ hle).of_consumed hc).1
    rw [boundary_congr (s := startSt T mt.stop) (z := s') (by rw [hon.prev, hpos]; rfl) (by rw [hon.rest, hpos]; rfl)]
    unfold framed at hf
    split at hf
    · simp only [rel_seq, rel_cap, rel_wb] at hr
      obtain ⟨s1, -, s2, -, s3, ⟨hb, e⟩, e'⟩ := hr
      rw [e', e]
      have : s2.atWordBoundary = true := by simpa using hb
      exact this
    · cases hf

/-- Before a word. -/
theorem boundary_before {T u : Text} {q : Nat} {c : Nat} (h : (startSt T q).atWordBoundary = true) (hr : T.drop q = c :: u) (hc : isWordB c = true) :
    ∀ x, (T.take q).getLast? = some x → ¬ WordChar x := by
  intro x hx
  unfold St.atWordBoundary startSt at h
  simp only [hx, hr, hc] at h
  rw [wordChar_iff]
  simpa using h

/-- After a word. -/
theorem boundary_after {T : Text} {q : Nat} {c : Nat} (h : (startSt T q).atWordBoundary = true) (hr : (T.take q).getLast? = some c) (hc : isWordB c = true) :
    ∀ x, (T.drop q).head? = some x → ¬ WordChar x := by
  intro x hx
  unfold St.atWordBoundary startSt at h
  cases hd : T.drop q with
  | nil => rw [hd] at hx; cases hx
  | cons y u =>
    rw [hd] at hx
    simp only [List.head?_cons, Option.some.injEq] at hx
    subst hx
    simp only [hr, hd, hc] at h
    rw [wordChar_iff]
    simpa using h

/-- A word of the pattern is found where it stands. -/
theorem framed_found {i j k : Nat} {b : Re} (hb : b.free = true) {w : Text} (hl : Lang b w) {p s : Text} (hps : StandsApart p s)
    (hw : w ≠ []) (hall : ∀ c ∈ w, isWordB c = true) :
    ((Re.seq (.cap i (.wb false)) (.seq (.cap j b) (.cap k (.wb false)))).search (p ++ w ++ s)).isSome = true := by
  have edge : ∀ {o : Option Nat}, (∀ c, o = some c → ¬ WordChar c) → o.any isWordB = false := by
    intro o ho
    cases o with
    | none => rfl
    | some c => have := ho c rfl; rw [wordChar_iff] at this; simpa using this
  rw [← Option.not_isNone, Bool.not_eq_true', ← Bool.not_eq_true]
  intro hn
  rw [Option.isNone_iff_eq_none] at hn
  have hno := Re.search_none hn p.length (by simp)
  obtain ⟨c, w', rfl⟩ := List.exists_cons_of_ne_nil hw
  have hdrop : (p ++ (c :: w') ++ s).drop p.length = c :: w' ++ s := by rw [List.append_assoc, List.drop_left]
  have htake : (p ++ (c :: w') ++ s).take p.length = p := by rw [List.append_assoc, List.take_left]
  have b0 : (startSt (p ++ (c :: w') ++ s) p.length).atWordBoundary = true := by
    unfold St.atWordBoundary startSt
    rw [hdrop, htake]
    have := edge hps.1
    simp only [List.cons_append]
    rw [hall c (by simp)]
    cases hp : p.getLast? with
    | none => rfl
    | some x => rw [hp] at this; simp only [Option.any_some] at this; show (isWordB x != true) = true; rw [this]; rfl
  have hz : (St.mk p.length ((p ++ (c :: w') ++ s).take p.length).getLast? ((p ++ (c :: w') ++ s).drop p.length) [(i, p.length, p.length)]).rest = (c :: w') ++ s := hdrop
  obtain ⟨z', hr, hc, hrest⟩ := hl.rel hb hz
  refine hno _ (.seq (.cap (.wb (by rw [b0]; rfl))) (.seq (.cap hr) (.cap (.wb ?_))))
  have hprev := hc.prev
  have hlast : ∃ x, (c :: w').getLast? = some x ∧ isWordB x = true := by
    refine ⟨(c :: w').getLast (by simp), List.getLast?_eq_some_getLast (by simp), hall _ (List.getLast_mem _)⟩
  obtain ⟨x, hx, hxw⟩ := hlast
  rw [hx] at hprev
  simp only [Option.some_or] at hprev
  have key : z'.atWordBoundary = true := by
    unfold St.atWordBoundary
    rw [hprev, hrest]
    simp only [hxw]
    cases s with
    | nil => rfl
    | cons y s => have := edge hps.2; simp only [List.head?_cons, Option.any_some] at this; simp [this]
  have key' : ∀ cs, (St.mk z'.pos z'.prev z'.rest cs).atWordBoundary = true := fun _ => key
  rw [key']; rfl

/-! ## Words to the right -/

theorem occurs_after_blanks {a e : Bool} {k b u : Text} (hb : Blanks b) (h : Occurs a k e u) : Occurs a k e (b ++ u) := by
  obtain ⟨x, y, rfl, h1, h2⟩ := h
  refine ⟨b ++ x, y, by simp, fun ha c hc => ?_, h2⟩
  cases hx : x.getLast? with
  | some d => rw [List.getLast?_append, hx] at hc; cases hc; exact h1 ha c hx
  | none =>
    rw [List.getLast?_append, hx] at hc
    have := hb c (List.mem_of_getLast? hc)
    unfold WordChar
    unfold Blank at this
    omega

theorem occurs_right {e : Bool} {k s : Text} (x : Text) (hk : k.head?.any isWordB = true) (hs : ∀ c, s.head? = some c → ¬ WordChar c)
    (h : Occurs true k e s) : Occurs true k e (x ++ s) := by
  obtain ⟨a, y, rfl, h1, h2⟩ := h
  refine ⟨x ++ a, y, by simp, fun _ c hc => ?_, h2⟩
  cases ha : a.getLast? with
  | some d => rw [List.getLast?_append, ha] at hc; cases hc; exact h1 rfl c ha
  | none =>
    exfalso
    rw [List.getLast?_eq_none_iff] at ha
    subst ha
    cases k with
    | nil => cases hk
    | cons c k =>
      refine hs c (by simp) ?_
      rw [wordChar_iff]
      simpa using hk

/-! ## The names of days -/

def litsRe (w : Text) (tail : Re) : Re := w.foldr (fun c r => .seq (.one (.ch true c)) r) tail

theorem litsRe_lang {tail : Re} : ∀ {w u : Text}, (∀ c ∈ w, lowerB c = c) → Lang (litsRe w tail) u → ∃ v, toLower u = w ++ toLower v ∧ Lang tail v := by
  intro w
  induction w with
  | nil => intro u _ h; exact ⟨u, rfl, h⟩
  | cons c w ih =>
    intro u hw h
    obtain ⟨x, v, rfl, hx, hv⟩ := lang_seq (show Lang (.seq (.one (.ch true c)) (litsRe w tail)) u from h)
    obtain ⟨y, hy, hl⟩ := ih (fun d hd => hw d (by simp [hd])) hv
    refine ⟨y, ?_, hl⟩
    have : toLower x = [c] := by
      have := hx.words [[c]] (by simp [Re.words, hw c (by simp)])
      simpa using this
    rw [show toLower (x ++ v) = toLower x ++ toLower v by simp [toLower], this, hy]; rfl

def lastNightRe : Re := litsRe txt!"last" (.seq (.star true (.one (.set true false [.cls .space false]))) (litsRe txt!"nigh" (.one (.ch true 116))))

/-- Words of `ws`, or words of `bs` with blanks, or `last night`. -/
def wordyLeaf (ws bs : List Text) (r : Re) : Bool :=
  (match r.words with | some l => l.all ws.contains | none => false) ||
      (match r with | .seq a b => (match a.words with | some l => l.all bs.contains | none => false) && b.allB isSpaceB | _ => false) ||
      r == lastNightRe

def wordy (ws bs : List Text) : Re → Bool
  | .alt a b => wordy ws bs a && wordy ws bs b
  | r => wordyLeaf ws bs r

theorem wordy_lang {ws bs : List Text} {r : Re} (h : wordy ws bs r = true) {u : Text} (hl : Lang r u) (hlow : toLower u = u) :
    u ∈ ws ∨ (∃ w ∈ bs, ∃ b, Blanks b ∧ u = w ++ b) ∨ Lang lastNightRe u := by
  have leaf : ∀ r : Re, wordyLeaf ws bs r = true → Lang r u → u ∈ ws ∨ (∃ w ∈ bs, ∃ b, Blanks b ∧ u = w ++ b) ∨ Lang lastNightRe u := by
    intro r h hl
    unfold wordyLeaf at h
    simp only [Bool.or_eq_true, beq_iff_eq] at h
    rcases h with (h | h) | rfl
    · left
      split at h
      · rename_i l hw
        have := hl.words l hw
        rw [hlow] at this
        simpa using List.all_eq_true.1 h _ this
      · cases h
    · right; left
      split at h
      · rename_i a b
        rw [Bool.and_eq_true] at h
        obtain ⟨x, y, rfl, hx, hy⟩ := lang_seq hl
        obtain ⟨h1, h2⟩ := h
        split at h1
        · rename_i l hw
          have := hx.words l hw
          rw [lower_of_infix (t := x ++ y) (by rw [hlow]; exact (List.prefix_append _ _).isInfix)] at this
          exact ⟨x, by simpa using List.all_eq_true.1 h1 _ this, y, blanks_of hy h2, rfl⟩
        · cases h1
      · cases h
    · exact .inr (.inr hl)
  induction r with
  | alt a b ia ib =>
    simp only [wordy, Bool.and_eq_true] at h
    rcases lang_alt hl with hl | hl
    · exact ia h.1 hl
    · exact ib h.2 hl
  | _ => exact leaf _ (by simpa only [wordy] using h) hl

def exactDays : List Text := [txt!"now", txt!"today", txt!"tonight", txt!"tomorrow", txt!"tmr", txt!"yesterday"]
def looseDays : List Text := [txt!"tomorrow", txt!"tmr", txt!"yesterday"]

theorem casualDate_shape : ∃ b, Ast.casualDate = .seq (.cap 1 (.wb false)) (.seq (.cap 2 b) (.cap 3 (.wb false))) ∧ b.free = true ∧
    wordy exactDays looseDays b = true ∧ (∀ w ∈ nearDays, (b.fullMatch w).isSome = true) :=
  ⟨_, rfl, by decide +kernel, by decide +kernel, by decide +kernel⟩

/-! ## One parser that speaks -/

theorem runParsers_toLower {rt : Rt} {ref : PTime} (ps : List Parser) (g : Globals) (text : Text) :
    runParsers rt ref ps g (toLower text) = runParsers rt ref ps g text := by
  cases ps with
  | nil => rfl
  | cons P ps => unfold runParsers; rw [execute_toLower]; simp only [textAfter, toLower_toLower]

theorem silent_execute' {rt : Rt} {ref : PTime} {text : Text} {P : Parser} {g : Globals} (h : silent P (toLower text) = true) :
    execute rt P g text ref = .ok ([], g) := by
  unfold silent at h
  cases hr : P.pattern with
  | none => unfold execute; rw [hr]
  | some r => rw [hr] at h; exact execute_none hr (by simpa using h)

theorem runParsers_skip {rt : Rt} {ref : PTime} {text : Text} {g : Globals} (ps qs : List Parser) (h : ∀ P ∈ ps, silent P (toLower text) = true) :
    runParsers rt ref (ps ++ qs) g text = runParsers rt ref qs g text := by
  induction ps with
  | nil => rfl
  | cons P ps ih =>
    have e : runParsers rt ref (P :: (ps ++ qs)) g text = runParsers rt ref qs g text := by
      have ih := ih fun Q hQ => h Q (by simp [hQ])
      generalize runParsers rt ref qs g text = R at ih ⊢
      unfold runParsers
      rw [silent_execute' (h P (by simp))]
      simp only [Out.bind_ok, textAfter]
      rw [runParsers_toLower, ih]
      cases R <;> rfl
    exact e

theorem silent_at {i j : Nat} {t : Text} {P : Parser} (ho : othersSilent i t = true) (hj : mainParsers[j]? = some P) (hji : j ≠ i) : silent P t = true := by
  have hj12 : j < 12 := (List.getElem?_eq_some_iff.1 hj).1
  have h1 := List.all_eq_true.1 ho j (by simp [hj12])
  rw [mainPatterns_get, hj] at h1
  simp only [Option.bind_some, Bool.or_eq_true, beq_iff_eq, hji, false_or] at h1
  unfold silent
  revert h1
  cases P.pattern <;> simp

/-- What the program prints when one mention was read. -/
def answer (res : PResult) : Out Text :=
  if res.hasPossibleDates then (do let d ← res.toDate; return foundLine ++ d) else .ok invalidLine

theorem answer_congr {r r' : PResult} (h1 : r'.startDate = r.startDate) (h2 : r'.endDate = r.endDate) (h3 : r'.hasEnd = r.hasEnd)
    (h4 : ∀ t, r'.getTag t = r.getTag t) : answer r' = answer r := by
  unfold answer
  rw [toDate_congr h1 h2 h3 h4]
  unfold PResult.hasPossibleDates
  rw [h1, h3]

/-- If one parser finds one mention and the others nothing, the answer is that mention's. -/
theorem only_run_any {rt : Rt} (hrt : rt.Benign) {sort : List PResult → List PResult} (hs : Sorts sort) {text : Text} {ref : PTime} (i : Nat) {P : Parser}
    (hP : mainParsers[i]? = some P) {r : Re} (hr : P.pattern = some r) (hmin : 1 ≤ r.minLen)
    (ho : othersSilent i (toLower text) = true) {mt : Match} (hm : r.search (toLower text) = some mt)
    (hn : r.search ((toLower text).drop mt.stop) = none)
    (htag : ∀ res g, P.extract rt integerWords (toLower text) mt ref mt.start = .ok (res, g) → res.getTag .timeExpression = false ∧ res.hasEnd = false ∧ res.endDate = Comps.empty) :
    mainRun rt sort text ref = (P.extract rt integerWords (toLower text) mt ref mt.start >>= fun x => answer x.1) := by
  have hi : i < mainParsers.length := (List.getElem?_eq_some_iff.1 hP).1
  have hsplit : mainParsers = mainParsers.take i ++ P :: mainParsers.drop (i + 1) := by
    have e : mainParsers[i] = P := (List.getElem?_eq_some_iff.1 hP).2
    rw [← e, ← List.drop_eq_getElem_cons hi, List.take_append_drop]
  have h1 : ∀ Q ∈ mainParsers.take i, silent Q (toLower text) = true := by
    intro Q hQ
    obtain ⟨j, hj, e⟩ := List.mem_take_iff_getElem.1 hQ
    exact silent_at ho (List.getElem?_eq_some_iff.2 ⟨by omega, e⟩) (by omega)
  have h2 : ∀ Q ∈ mainParsers.drop (i + 1), silent Q (toLower text) = true := by
    intro Q hQ
    obtain ⟨j, hj, e⟩ := List.mem_drop_iff_getElem.1 hQ
    have e' : mainParsers[i + 1 + j]? = some Q := by rw [List.getElem?_eq_getElem (by omega), e]
    exact silent_at ho e' (by omega)
  have hsc := execute_scan hrt hr hmin integerWords text ref
  generalize hE : execute rt P integerWords text ref = E at hsc
  have hrun : runParsers rt ref mainParsers integerWords text = (E >>= fun x => .ok (x.1, x.2)) := by
    generalize mainParsers.take i = A at h1 hsplit
    generalize mainParsers.drop (i + 1) = B at h2 hsplit
    rw [hsplit, runParsers_skip _ _ h1]
    unfold runParsers
    rw [hE]
    cases E with
    | ok x =>
      simp only [Out.bind_ok, textAfter]
      rw [runParsers_toLower]
      have := runParsers_skip (rt := rt) (ref := ref) (g := x.2) B [] h2
      rw [List.append_nil] at this
      rw [this]
      unfold runParsers
      simp
    | _ => rfl
  unfold mainRun
  rw [hrun]
  cases hsc with
  | done hs' => rw [List.drop_zero, hm] at hs'; cases hs'
  | @step _ _ _ res' _ _ hs' hx' hsc' =>
    rw [List.drop_zero, hm, Option.some.injEq] at hs'
    subst hs'
    rw [List.drop_zero, Nat.zero_add] at hx'
    obtain ⟨t1, t2, t3⟩ := htag _ _ hx'
    rw [Nat.zero_add] at hsc'
    cases hsc' with
    | step hs2 => rw [hn] at hs2; cases hs2
    | fail hs2 => rw [hn] at hs2; cases hs2
    | done =>
      rw [hx']
      simp only [Out.bind_ok]
      unfold answer
      by_cases hp : res'.hasPossibleDates = true
      · rw [if_pos hp, if_pos hp, (hs [res'.copy]).1.eq_singleton]
        have hz := refine_single (r := res'.copy) (l := [res'.copy]) (text := textAfter text) (by rfl) (fun _ _ h => by
          unfold PResult.getTag PResult.copy at h
          unfold PResult.getTag at t1
          rw [t1] at h; cases h)
        rw [hz, toDate_congr (r := res') (r' := res'.copy) rfl (by simp [PResult.copy, t2, t3]) rfl (fun _ => rfl)]
        rfl
      · rw [if_neg hp, if_neg hp, (hs []).1.eq_nil]
        unfold runRefiners
        obtain ⟨rs', e, hl, -⟩ := c47_only_tagged_times_before_known_zone [] (textAfter text)
        have : rs' = [] := List.eq_nil_of_length_eq_zero (by simpa using hl)
        simp only [overlapRefine]
        rw [e, this]
        rfl
  | fail hs' hx =>
    rw [List.drop_zero, hm, Option.some.injEq] at hs'
    subst hs'
    rw [List.drop_zero, Nat.zero_add] at hx ⊢
    cases hf' : P.extract rt integerWords (toLower text) _ ref _ with
    | ok res => rw [hf'] at hx; exact absurd rfl (hx _)
    | _ => rfl

/-- The same for a parser that leaves the table of numbers alone. -/
theorem only_run {rt : Rt} (hrt : rt.Benign) {sort : List PResult → List PResult} (hs : Sorts sort) {text : Text} {ref : PTime} (i : Nat) {P : Parser}
    (hP : mainParsers[i]? = some P) {r : Re} (hr : P.pattern = some r) (hmin : 1 ≤ r.minLen)
    {f : Rt → Globals → Text → Match → PTime → Nat → Out PResult} (hf : P.extract = pureExtract f)
    (ho : othersSilent i (toLower text) = true) {mt : Match} (hm : r.search (toLower text) = some mt)
    (hn : r.search ((toLower text).drop mt.stop) = none)
    (htag : ∀ res, f rt integerWords (toLower text) mt ref mt.start = .ok res → res.getTag .timeExpression = false ∧ res.hasEnd = false ∧ res.endDate = Comps.empty) :
    mainRun rt sort text ref = (f rt integerWords (toLower text) mt ref mt.start >>= answer) := by
  rw [only_run_any hrt hs i hP hr hmin ho hm hn, hf]
  · unfold pureExtract
    cases f rt integerWords (toLower text) mt ref mt.start <;> rfl
  · intro res g h
    rw [hf] at h
    unfold pureExtract at h
    obtain ⟨res', hx', hx⟩ := Out.bind_eq_ok.1 h
    simp only [Out.pure_eq, Out.ok.injEq, Prod.mk.injEq] at hx
    obtain ⟨rfl, rfl⟩ := hx
    exact htag _ hx'

/-! ## Found in the middle -/

theorem lang_wb {b : Bool} {u : Text} (h : Lang (.wb b) u) : u = [] := by
  obtain ⟨s, s', hr, hc⟩ := h
  rw [rel_wb] at hr
  obtain ⟨-, rfl⟩ := hr
  exact hc.word_eq (.nil _)

theorem framed_lang {i j k : Nat} {b : Re} {T : Text} {mt : Match}
    (h : (Re.seq (.cap i (.wb false)) (.seq (.cap j b) (.cap k (.wb false)))).search T = some mt) : Lang b (mt.str 0) := by
  obtain ⟨cs, hcl, -⟩ := Re.search_cl h
  have hl := hcl.lang
  generalize mt.str 0 = W at *
  obtain ⟨w1, v1, rfl, k1, x1⟩ := lang_seq hl
  obtain ⟨w2, v2, rfl, k2, x2⟩ := lang_seq x1
  rw [lang_wb (lang_cap k1), lang_wb (lang_cap x2)]
  simpa using lang_cap k2

/-- The edges of what was found, if it begins or ends with a word character. -/
theorem framed_word {r : Re} (hf : framed r = true) {T : Text} {mt : Match} (h : r.search T = some mt) :
    (∀ c u, mt.str 0 = c :: u → isWordB c = true → ∀ x, (T.take mt.start).getLast? = some x → ¬ WordChar x) ∧
    (∀ c, (mt.str 0).getLast? = some c → isWordB c = true → ∀ x, (T.drop mt.stop).head? = some x → ¬ WordChar x) := by
  obtain ⟨h1, h2, hT⟩ := framed_edges hf h
  have ok := Re.search_ok h
  obtain ⟨hsub, hle, -, -⟩ := Re.search_some h
  have hd : T.drop mt.start = mt.str 0 ++ T.drop mt.stop := by
    have : (T.take mt.start ++ (mt.str 0 ++ T.drop mt.stop)).drop mt.start = mt.str 0 ++ T.drop mt.stop := List.drop_left' (by simp; omega)
    rwa [← hT] at this
  refine ⟨fun c u hc hw => ?_, fun c hc hw => ?_⟩
  · rw [hc] at hd
    exact boundary_before h1 (by rw [hd]; rfl) hw
  · have hs : T.take mt.stop = T.take mt.start ++ mt.str 0 := by
      have e : T = (T.take mt.start ++ mt.str 0) ++ T.drop mt.stop := by rw [List.append_assoc]; exact hT
      have e2 := List.take_append_drop mt.stop T
      have : T.take mt.stop ++ T.drop mt.stop = (T.take mt.start ++ mt.str 0) ++ T.drop mt.stop := by rw [e2]; exact e
      exact List.append_cancel_right this
    exact boundary_after h2 (by rw [hs, List.getLast?_append, hc]; rfl) hw

theorem blank_notWord {c : Nat} (h : Blank c) : ¬ WordChar c := by
  unfold Blank at h
  unfold WordChar
  omega

theorem lastNight_words {u : Text} (h : Lang lastNightRe u) (hlow : toLower u = u) : ∃ b, Blanks b ∧ u = txt!"last" ++ b ++ txt!"night" := by
  obtain ⟨v, h1, h2⟩ := litsRe_lang (w := txt!"last") (by decide) h
  obtain ⟨b, z, rfl, hb, hz⟩ := lang_seq h2
  obtain ⟨v', h3, h4⟩ := litsRe_lang (w := txt!"nigh") (by decide) hz
  have h5 : toLower v' = txt!"t" := by
    have := h4.words [[116]] (by decide)
    simpa using this
  refine ⟨b, blanks_of hb (by decide +kernel), ?_⟩
  rw [hlow] at h1
  have hl : toLower (b ++ z) = toLower b ++ toLower z := by simp [toLower]
  have hbl : toLower b = b := by
    have hb' := blanks_of hb (by decide +kernel)
    have : b.map lowerB = b.map id := List.map_congr_left fun c hc => by
      have := hb' c hc
      unfold Blank at this
      unfold lowerB
      rw [if_neg (by omega)]; rfl
    simpa [toLower] using this
  rw [h1, hl, hbl, h3, h5]
  simp

theorem nearDays_word : ∀ w ∈ nearDays, w ≠ [] ∧ (∀ c ∈ w, isWordB c = true) ∧ toLower w = w := by decide

theorem loose_near : ∀ w ∈ looseDays, w ∈ nearDays := by decide
theorem near_noL : ∀ w ∈ nearDays, 108 ∉ w := by decide
theorem near_notPart : ∀ w ∈ nearDays, ∀ v ∈ partsOfDay, v ∉ [w] := by decide
theorem near_notOther : ∀ w ∈ nearDays, ∀ v ∈ otherKeys, v ∉ [w] := by decide
theorem part_notOther : ∀ w ∈ partsOfDay, ∀ v ∈ otherKeys, v ∉ [w] := by decide
theorem near_head : ∀ w ∈ nearDays, w.head?.any isWordB = true := by decide

theorem casualDate_found {text P S w : Text} {ex : List Text} (hw : w ∈ nearDays) (hT : toLower text = P ++ w ++ S) (hps : StandsApart P S)
    (h : FewDateWords ex text) (hex : ∀ k ∈ nearDays, k ∈ ex → k = w) (hP : ¬ WholeWord w P) (hS : ¬ WholeWord w S) :
    ∃ mt b, Ast.casualDate.search (toLower text) = some mt ∧ mt.str 0 = w ++ b ∧ Blanks b ∧ (b = [] ∨ w ∈ looseDays) ∧ S = b ++ (toLower text).drop mt.stop ∧
      Ast.casualDate.search ((toLower text).drop mt.stop) = none := by
  obtain ⟨w0, wall, wlow⟩ := nearDays_word w hw
  obtain ⟨body, he, hfree, hwordy, hfull⟩ := casualDate_shape
  have hfr : framed Ast.casualDate = true := by rw [he]; rfl
  obtain ⟨mt, hm⟩ := Option.isSome_iff_exists.1 (by
    have := framed_found (i := 1) (j := 2) (k := 3) hfree (lang_of_fullMatch (hfull w hw)) hps w0 wall
    rwa [← he, ← hT] at this)
  have hl : Lang body (mt.str 0) := framed_lang (by rw [← he]; exact hm)
  have hlow : toLower (mt.str 0) = mt.str 0 := lower_of_infix (str_infix hm 0)
  obtain ⟨e1, e2⟩ := framed_word hfr hm
  obtain ⟨-, -, hsplit⟩ := framed_edges hfr hm
  -- a name of a day that was found is the one in the middle
  have main : ∀ w' b, w' ∈ nearDays → Blanks b → mt.str 0 = w' ++ b → w' = w ∧ S = b ++ (toLower text).drop mt.stop := by
    intro w' b hw' hb hu
    obtain ⟨w0', wall', -⟩ := nearDays_word w' hw'
    have ha : ∀ c, ((toLower text).take mt.start).getLast? = some c → ¬ WordChar c := by
      obtain ⟨c, v, rfl⟩ := List.exists_cons_of_ne_nil w0'
      exact e1 c (v ++ b) hu (wall' c (by simp))
    have hb' : ∀ c, (b ++ (toLower text).drop mt.stop).head? = some c → ¬ WordChar c := by
      cases b with
      | cons c b => intro x hx; cases hx; exact blank_notWord (hb c (by simp))
      | nil =>
        rw [List.append_nil] at hu
        refine e2 (w'.getLast w0') ?_ (wall' _ (List.getLast_mem _))
        rw [hu]; exact List.getLast?_eq_some_getLast w0'
    have hs : P ++ w ++ S = (toLower text).take mt.start ++ w' ++ (b ++ (toLower text).drop mt.stop) := by
      rw [← hT, List.append_assoc, ← List.append_assoc w', ← hu]; exact hsplit
    by_cases hww : w' = w
    · subst hww
      rcases word_elsewhere w0 wall w0' wall' hps ha hb' hs with h1 | ⟨-, -, h1⟩ | h1
      · exact absurd h1 hP
      · exact ⟨rfl, h1.symm⟩
      · exact absurd h1 hS
    · exact absurd ⟨_, _, hT.trans hs, fun _ => ha, fun _ => hb'⟩ (h.days w' hw' (fun h => hww (hex w' hw' h)))
  have hfind : ∃ b, mt.str 0 = w ++ b ∧ Blanks b ∧ (b = [] ∨ w ∈ looseDays) := by
    rcases wordy_lang hwordy hl hlow with h1 | ⟨w', hw', b, hb, hu⟩ | h1
    · obtain ⟨h2, -⟩ := main (mt.str 0) [] (by simpa [exactDays, nearDays] using h1) (by simp [Blanks]) (by simp)
      exact ⟨[], by simp [h2], by simp [Blanks], .inl rfl⟩
    · obtain ⟨rfl, -⟩ := main w' b (loose_near w' hw') hb hu
      exact ⟨b, hu, hb, .inr hw'⟩
    · exfalso
      obtain ⟨b, hb, hu⟩ := lastNight_words h1 hlow
      have ha : ∀ c, ((toLower text).take mt.start).getLast? = some c → ¬ WordChar c := e1 108 (txt!"ast" ++ b ++ txt!"night") (by rw [hu]; rfl) (by decide)
      have hz : ∀ c, ((toLower text).drop mt.stop).head? = some c → ¬ WordChar c := e2 116 (by rw [hu, List.getLast?_append]; rfl) (by decide)
      rw [hu] at hsplit
      rcases h.lastNight with h2 | ⟨h2, h3⟩
      · exact h2 ⟨_, _, by rw [List.append_assoc]; simpa only [List.append_assoc] using hsplit, fun _ => ha, by simp⟩
      · cases hb0 : b.getLast? with
        | none =>
          rw [List.getLast?_eq_none_iff] at hb0
          subst hb0
          exact h2 ⟨_, _, by rw [List.append_assoc]; exact hsplit, fun _ => ha, fun _ => hz⟩
        | some c =>
          refine h3 ⟨(toLower text).take mt.start ++ (txt!"last" ++ b), _, by simpa only [List.append_assoc] using hsplit, fun _ x hx => ?_, fun _ => hz⟩
          rw [List.getLast?_append, List.getLast?_append, hb0] at hx
          cases hx
          exact blank_notWord (hb _ (List.mem_of_getLast? hb0))
  obtain ⟨b, hu, hb, hbl⟩ := hfind
  obtain ⟨-, hSb⟩ := main w b hw hb hu
  refine ⟨mt, b, hm, hu, hb, hbl, hSb, ?_⟩
  generalize hR : (toLower text).drop mt.stop = R at *
  have hRl : toLower R = R := lower_of_infix (t := text) (by rw [← hR]; exact (List.drop_suffix _ _).isInfix)
  rw [← hRl]
  have up : ∀ {e : Bool} {k : Text}, k.head?.any isWordB = true → Occurs true k e R → Occurs true k e S ∧ Occurs true k e (toLower text) := by
    intro e k hk ho
    have h1 : Occurs true k e S := by rw [hSb]; exact occurs_after_blanks hb ho
    exact ⟨h1, by rw [hT]; exact occurs_right _ hk hps.2 h1⟩
  have days : ∀ k ∈ nearDays, ¬ WholeWord k (toLower R) := by
    intro k hk ho
    rw [hRl] at ho
    obtain ⟨o1, o2⟩ := up (near_head k hk) ho
    by_cases hkw : k = w
    · subst hkw; exact hS o1
    · exact h.days k hk (fun h => hkw (hex k hk h)) o2
  rcases h.lastNight with h1 | ⟨h1, h2⟩
  · refine Re.search_needs casualDate_needs₂ (by decide +kernel) (fun k hk => ?_) (by simp)
    rcases List.mem_append.1 hk with hk | hk
    · exact not_whole days k hk
    · rw [List.mem_singleton] at hk; subst hk
      intro ho
      rw [hRl] at ho
      exact h1 (up (by decide) ho).2
  · refine Re.search_needs casualDate_needs (by decide +kernel) (not_whole fun w hw => ?_) (by simp)
    rcases List.mem_append.1 hw with hw | hw
    · exact days w hw
    · simp only [List.mem_cons, List.not_mem_nil, or_false] at hw
      intro ho
      rw [hRl] at ho
      rcases hw with rfl | rfl
      · exact h2 (up (by decide) ho).2
      · exact h1 (up (by decide) ho).2

/-! ## What is read -/

theorem startsWith_iff : ∀ {t p : Text}, startsWith t p = p.isPrefixOf t := by
  intro t
  induction t with
  | nil => intro p; cases p <;> rfl
  | cons c t ih =>
    intro p
    cases p with
    | nil => rfl
    | cons d p => simp only [startsWith, List.isPrefixOf_cons_cons, ih]; rw [Bool.beq_comm]

theorem findsAtZero_iff {p t : Text} (hp : p ≠ []) : findsAtZero p t = p.isPrefixOf t := by
  unfold findsAtZero
  cases t with
  | nil => cases p with
    | nil => exact absurd rfl hp
    | cons => rfl
  | cons c t =>
    unfold find
    rw [startsWith_iff]
    split
    · rename_i h; rw [h]; rfl
    · rename_i h
      rw [Bool.not_eq_true] at h
      rw [h]
      cases find p t <;> simp

/-- Components after the name of a day, and the day. -/
def dayRead (w : Text) (ref : PTime) : Comps × PTime :=
  ((casualDay (PResult.mk' ref 0 w) w ref false).1.startDate, (casualDay (PResult.mk' ref 0 w) w ref false).2)

/-- The components read from the name of a day. -/
def dayComps (w : Text) (ref : PTime) : Out Comps := do
  let y ← (dayRead w ref).2.date.year
  let m ← (dayRead w ref).2.date.month
  let d ← (dayRead w ref).2.date.day
  return (((dayRead w ref).1.set .year y).set .month m).set .mday d

def lastNightKeys : List KeyWord := [⟨false, txt!"l", false⟩]

theorem lastNight_needs : Ast.lastNight.has (hits lastNightKeys false) (hits lastNightKeys false) [] = true := by decide +kernel

theorem no_lastNight {u : Text} (h : 108 ∉ u) (hl : toLower u = u) : searches true Pat.lastNight u = .ok false := by
  unfold searches
  rw [Ast.compile_lastNight]
  simp only
  have : Ast.lastNight.search (toLower u) = none := by
    refine Re.search_needs lastNight_needs (by decide +kernel) (fun k hk => ?_) (by simp)
    simp only [lastNightKeys, List.mem_singleton] at hk
    subst hk
    rintro ⟨a, b, e, -, -⟩
    rw [hl] at e
    exact h (by rw [e]; simp)
  rw [hl] at this
  rw [this]; rfl

theorem day_extract {rt : Rt} {g : Globals} {tx : Text} {mt : Match} {ref : PTime} {idx : Nat} {w b : Text} (hw : w ∈ nearDays) (hb : Blanks b)
    (hbl : b = [] ∨ w ∈ looseDays) (hm : mt.str 0 = w ++ b) (hlow : toLower (w ++ b) = w ++ b) :
    casualDateExtract rt g tx mt ref idx = (dayComps w ref >>= fun c => .ok ({ PResult.mk' ref idx (w ++ b) with startDate := c }.setTag .casualDate)) := by
  have hno : 108 ∉ w ++ b := by
    rw [List.mem_append, not_or]
    refine ⟨near_noL w hw, fun hc => ?_⟩
    have := hb _ hc
    unfold Blank at this
    omega
  have hday : casualDay (PResult.mk' ref idx (w ++ b)) (w ++ b) ref false =
      ({ PResult.mk' ref idx (w ++ b) with startDate := (dayRead w ref).1 }, (dayRead w ref).2) := by
    unfold dayRead casualDay
    rcases hbl with rfl | hl
    · rw [List.append_nil]
      simp only [nearDays, List.mem_cons, List.not_mem_nil, or_false] at hw
      rcases hw with rfl | rfl | rfl | rfl | rfl | rfl <;>
        · repeat (first | rw [if_pos (by decide)] | rw [if_neg (by decide)])
          rfl
    · simp only [looseDays, List.mem_cons, List.not_mem_nil, or_false] at hl
      simp only [findsAtZero_iff (p := txt!"tonight") (by decide), findsAtZero_iff (p := txt!"tomorrow") (by decide),
        findsAtZero_iff (p := txt!"tmr") (by decide), findsAtZero_iff (p := txt!"yesterday") (by decide)]
      rcases hl with rfl | rfl | rfl <;> rfl
  unfold casualDateExtract dayComps
  simp only [hm]
  rw [no_lastNight hno hlow, Out.bind_ok, hday]
  simp only []
  cases (dayRead w ref).2.date.year <;> try rfl
  cases (dayRead w ref).2.date.month <;> try rfl
  cases (dayRead w ref).2.date.day <;> rfl

/-- What the program prints for the name of a day. -/
def dayAnswer (w : Text) (ref : PTime) : Out Text := dayComps w ref >>= fun c => answer ({ PResult.mk' ref 0 w with startDate := c }.setTag .casualDate)

theorem day_run {rt : Rt} (hrt : rt.Benign) {sort : List PResult → List PResult} (hs : Sorts sort) {text P S w : Text} (hw : w ∈ nearDays)
    (hT : toLower text = P ++ w ++ S) (hps : StandsApart P S) (h : NoDateWordsBut [w] text) (hP : ¬ WholeWord w P) (hS : ¬ WholeWord w S) (ref : PTime) :
    mainRun rt sort text ref = dayAnswer w ref := by
  obtain ⟨mt, b, hm, hu, hb, hbl, -, hn⟩ := casualDate_found hw hT hps h.toFewDateWords (fun k _ hk => by simpa using hk) hP hS
  have hlow : toLower (w ++ b) = w ++ b := by rw [← hu]; exact lower_of_infix (str_infix hm 0)
  have ho : othersSilent 3 (toLower text) = true := by
    have ho := no_others h (near_notOther w hw)
    have ht := no_casualTime h.toFewDateWords (near_notPart w hw)
    unfold othersSilent
    simp [List.range_succ, mainPatterns, ht,
      ho Ast.deadline (by simp), ho Ast.middleEndian (by simp), ho Ast.timeLater (by simp), ho Ast.monthName (by simp), ho Ast.timeAgo (by simp),
      ho Ast.timeExpr (by simp), ho Ast.iso (by simp), ho Ast.holiday (by simp), ho Ast.week (by simp)]
  rw [only_run hrt hs 3 rfl casualDate_pattern casualDate_min rfl ho hm hn, day_extract hw hb hbl hu hlow]
  · unfold dayAnswer
    cases dayComps w ref with
    | ok c => exact answer_congr rfl rfl rfl fun _ => rfl
    | _ => rfl
  · intro res hr
    rw [day_extract hw hb hbl hu hlow] at hr
    obtain ⟨c, -, hr⟩ := Out.bind_eq_ok.1 hr
    cases hr
    exact ⟨rfl, rfl, rfl⟩

/-! ## Parts of a day -/

theorem casualTime_shape : ∃ th bl pa, Ast.casualTime = .seq (.cap 1 (.wb false)) (.seq (.cap 2 (.seq (.alt (.cap 3 th) .eps) (.seq bl (.cap 4 pa)))) (.cap 5 (.wb false))) ∧
    (Re.seq (.alt (.cap 3 th) .eps) (.seq bl (.cap 4 pa))).free = true ∧
    th.words = some [txt!"this"] ∧ bl.allB isSpaceB = true ∧ bl.groups = [] ∧ th.groups = [] ∧ pa.groups = [] ∧
    (∃ l, pa.words = some l ∧ ∀ w ∈ l, w ∈ partsOfDay) ∧
    (∀ w ∈ partsOfDay, ((Re.seq (.alt (.cap 3 th) .eps) (.seq bl (.cap 4 pa))).fullMatch w).isSome = true) :=
  ⟨_, _, _, rfl, by decide +kernel, by decide +kernel, by decide +kernel, by decide +kernel, by decide +kernel, by decide +kernel,
    ⟨_, rfl, by decide +kernel⟩, by decide +kernel⟩

theorem parts_word : ∀ w ∈ partsOfDay, w ≠ [] ∧ (∀ c ∈ w, isWordB c = true) ∧ w.head?.any isWordB = true ∧ (∀ v ∈ nearDays, v ∉ [w]) := by decide

theorem parts_lower : ∀ w ∈ partsOfDay, ¬ w.isEmpty = true ∧ toLower w = w := by decide

/-- What a match of the pattern looks like. -/
theorem casualTime_written {T : Text} (hT : toLower T = T) {mt : Match} (h : Ast.casualTime.search T = some mt) :
    ∃ w pre, mt.str 0 = pre ++ w ∧ mt.str 4 = w ∧ w ∈ partsOfDay ∧ (Blanks pre ∨ ∃ b, Blanks b ∧ pre = txt!"this" ++ b) := by
  obtain ⟨th, bl, pa, he, -, h1, h2, h3, h4, h5, ⟨l, h6, h7⟩, -⟩ := casualTime_shape
  have hl : toLower (mt.str 0) = mt.str 0 := lower_of_infix (t := T) (by rw [hT]; exact str_infix h 0)
  obtain ⟨cs, hcl, hgr⟩ := Re.search_cl h
  have e4 := hgr 4 (by decide)
  rw [he] at hcl
  generalize mt.str 0 = W at hcl hl
  generalize mt.str 4 = V at e4
  obtain ⟨w1, v1, c1, t1, rfl, rfl, k1, x1⟩ := cl_seq hcl
  obtain rfl := lang_wb (lang_cap k1.lang)
  obtain ⟨w2, v2, c2, t2, rfl, rfl, k2, x2⟩ := cl_seq x1
  obtain rfl := lang_wb (lang_cap x2.lang)
  obtain ⟨c2, rfl, k2'⟩ := cl_cap k2
  obtain ⟨w3, v3, c3, t3, rfl, rfl, k3, x3⟩ := cl_seq k2'
  obtain ⟨w4, v4, c4, t4, rfl, rfl, k4, x4⟩ := cl_seq x3
  obtain rfl := cl_none k4 h3
  obtain ⟨c5, rfl, k5⟩ := cl_cap x4
  obtain rfl := cl_none k5 h5
  have hv4 : toLower v4 = v4 := lower_of_infix (t := [] ++ (w3 ++ (w4 ++ v4) ++ [])) (by rw [hl]; exact ⟨w3 ++ w4, [], by simp⟩)
  have hw3 : toLower w3 = w3 := lower_of_infix (t := [] ++ (w3 ++ (w4 ++ v4) ++ [])) (by rw [hl]; exact ⟨[], w4 ++ v4, by simp⟩)
  have hpart := k5.lang.words _ h6
  rw [hv4] at hpart
  have hb := blanks_of k4.lang h2
  have hV : V = v4 := by
    rw [e4, List.append_assoc, groupText_append]
    · simp [groupText]
    · exact x2.lacks (by decide)
  refine ⟨v4, w3 ++ w4, by simp, hV, h7 _ hpart, ?_⟩
  rcases cl_alt k3 with k3 | k3
  · right
    obtain ⟨c', -, k3⟩ := cl_cap k3
    have := k3.lang.words _ h1
    rw [hw3] at this
    exact ⟨w4, hb, by rw [List.mem_singleton.1 this]⟩
  · left
    obtain ⟨rfl, -⟩ := cl_eps k3
    exact hb

theorem casualTime_found {text P S w : Text} {ex : List Text} (hw : w ∈ partsOfDay) (hT : toLower text = P ++ w ++ S) (hps : StandsApart P S)
    (h : FewDateWords ex text) (hex : ∀ k ∈ partsOfDay, k ∈ ex → k = w) (hP : ¬ WholeWord w P) (hS : ¬ WholeWord w S) :
    ∃ mt pre, Ast.casualTime.search (toLower text) = some mt ∧ mt.str 4 = w ∧ mt.str 0 = pre ++ w ∧ (Blanks pre ∨ ∃ b, Blanks b ∧ pre = txt!"this" ++ b) ∧
      P = (toLower text).take mt.start ++ pre ∧ (toLower text).drop mt.stop = S ∧ Ast.casualTime.search ((toLower text).drop mt.stop) = none := by
  obtain ⟨w0, wall, -, -⟩ := parts_word w hw
  obtain ⟨th, bl, pa, he, hfree, -, -, -, -, -, -, hfull⟩ := casualTime_shape
  have hfr : framed Ast.casualTime = true := by rw [he]; rfl
  obtain ⟨mt, hm⟩ := Option.isSome_iff_exists.1 (by
    have := framed_found (i := 1) (j := 2) (k := 5) hfree (lang_of_fullMatch (hfull w hw)) hps w0 wall
    rwa [← he, ← hT] at this)
  obtain ⟨w', pre, hu, h4, hw', hpre⟩ := casualTime_written (toLower_toLower text) hm
  obtain ⟨e1, e2⟩ := framed_word hfr hm
  obtain ⟨-, -, hsplit⟩ := framed_edges hfr hm
  obtain ⟨w0', wall', -, -⟩ := parts_word w' hw'
  have hz : ∀ c, ((toLower text).drop mt.stop).head? = some c → ¬ WordChar c := by
    refine e2 (w'.getLast w0') ?_ (wall' _ (List.getLast_mem _))
    rw [hu, List.getLast?_append, List.getLast?_eq_some_getLast w0']; rfl
  have ha : ∀ c, ((toLower text).take mt.start ++ pre).getLast? = some c → ¬ WordChar c := by
    rcases hpre with hb | ⟨b, hb, rfl⟩
    · cases hb0 : pre.getLast? with
      | some c => intro x hx; rw [List.getLast?_append, hb0] at hx; cases hx; exact blank_notWord (hb _ (List.mem_of_getLast? hb0))
      | none =>
        rw [List.getLast?_eq_none_iff] at hb0
        subst hb0
        rw [List.append_nil]
        obtain ⟨c, v, rfl⟩ := List.exists_cons_of_ne_nil w0'
        exact e1 c v hu (wall' c (by simp))
    · cases hb0 : b.getLast? with
      | some c =>
        intro x hx
        rw [List.getLast?_append, List.getLast?_append, hb0] at hx; cases hx; exact blank_notWord (hb _ (List.mem_of_getLast? hb0))
      | none =>
        rw [List.getLast?_eq_none_iff] at hb0
        subst hb0
        exfalso
        refine h.thisPart w' hw' ⟨(toLower text).take mt.start, _, ?_, fun _ => e1 116 (txt!"his" ++ w') (by rw [hu]; rfl) (by decide), fun _ => hz⟩
        rw [hu] at hsplit
        simpa only [List.append_assoc, List.nil_append] using hsplit
  have hs : P ++ w ++ S = ((toLower text).take mt.start ++ pre) ++ w' ++ (toLower text).drop mt.stop := by
    rw [hu] at hsplit
    rw [← hT]; simpa only [List.append_assoc] using hsplit
  have key : w' = w ∧ (toLower text).drop mt.stop = S ∧ (toLower text).take mt.start ++ pre = P := by
    by_cases hww : w' = w
    · subst hww
      rcases word_elsewhere w0 wall w0' wall' hps ha hz hs with h1 | ⟨h0, -, h1⟩ | h1
      · exact absurd h1 hP
      · exact ⟨rfl, h1, h0⟩
      · exact absurd h1 hS
    · exact absurd ⟨_, _, hT.trans hs, fun _ => ha, fun _ => hz⟩ (h.parts w' hw' (fun h => hww (hex w' hw' h)))
  refine ⟨mt, pre, hm, by rw [h4, key.1], by rw [hu, key.1], hpre, key.2.2.symm, key.2.1, ?_⟩
  rw [key.2.1]
  have hSl : toLower S = S := lower_of_infix (t := text) (by rw [hT]; exact (List.suffix_append _ _).isInfix)
  rw [← hSl]
  have up : ∀ {k : Text}, k.head?.any isWordB = true → WholeWord k (toLower S) → WholeWord k (toLower text) := by
    intro k hk ho
    rw [hSl] at ho
    rw [hT]; exact occurs_right _ hk hps.2 ho
  refine Re.search_needs casualTime_needs (by decide +kernel) (not_whole fun k hk => ?_) (by simp)
  rcases List.mem_append.1 hk with hk | hk
  · intro ho
    by_cases hkw : k = w
    · subst hkw; rw [hSl] at ho; exact hS ho
    · exact h.parts k hk (fun h => hkw (hex k hk h)) (up (parts_word k hk).2.2.1 ho)
  · obtain ⟨v, hv, rfl⟩ := List.mem_map.1 hk
    exact fun ho => h.thisPart v hv (up rfl ho)

/-- The components read from a part of the day. -/
def partComps (w : Text) (ref : PTime) : Out Comps := do
  let y ← ref.date.year
  let m ← ref.date.month
  let d ← ref.date.day
  let wd ← ref.date.dayOfWeek
  let c := Comps.empty
  let c := if w = txt!"afternoon" then c.imply .hour 15 else if w = txt!"evening" ∨ w = txt!"night" then c.imply .hour 20
    else if w = txt!"morning" then c.imply .hour 6 else if w = txt!"noon" then c.imply .hour 12 else c
  return ((((c.imply .year y).imply .month m).imply .mday d).imply .wday wd).imply .min ref.minutes

theorem part_extract {rt : Rt} {g : Globals} {tx : Text} {mt : Match} {ref : PTime} {idx : Nat} {w : Text} (hw : w ∈ partsOfDay) (hm : mt.str 4 = w) :
    casualTimeExtract rt g tx mt ref idx = (partComps w ref >>= fun c => .ok ({ PResult.mk' ref idx (mt.str 0) with startDate := c }.setTag .casualTime)) := by
  have hne : ¬ (mt.str 4).isEmpty = true := by rw [hm]; exact (parts_lower w hw).1
  have hs : toLower (mt.str (if (mt.str 4).isEmpty = true then 3 else 4)) = w := by rw [if_neg hne, hm]; exact (parts_lower w hw).2
  unfold casualTimeExtract partComps
  simp only [hs]
  cases ref.date.year <;> try rfl
  cases ref.date.month <;> try rfl
  cases ref.date.day <;> try rfl
  cases ref.date.dayOfWeek <;> try rfl
  simp only [partsOfDay, List.mem_cons, List.not_mem_nil, or_false] at hw
  rcases hw with rfl | rfl | rfl | rfl | rfl <;>
    · repeat (first | rw [if_pos (by decide)] | rw [if_neg (by decide)])
      rfl

/-- What the program prints for a part of the day. -/
def partAnswer (w : Text) (ref : PTime) : Out Text := partComps w ref >>= fun c => answer ({ PResult.mk' ref 0 w with startDate := c }.setTag .casualTime)

theorem part_run {rt : Rt} (hrt : rt.Benign) {sort : List PResult → List PResult} (hs : Sorts sort) {text P S w : Text} (hw : w ∈ partsOfDay)
    (hT : toLower text = P ++ w ++ S) (hps : StandsApart P S) (h : NoDateWordsBut [w] text) (hP : ¬ WholeWord w P) (hS : ¬ WholeWord w S) (ref : PTime) :
    mainRun rt sort text ref = partAnswer w ref := by
  obtain ⟨mt, -, hm, hu, -, -, -, -, hn⟩ := casualTime_found hw hT hps h.toFewDateWords (fun k _ hk => by simpa using hk) hP hS
  have ho : othersSilent 0 (toLower text) = true := by
    have ho := no_others h (part_notOther w hw)
    have ht := no_casualDate h.toFewDateWords (parts_word w hw).2.2.2
    unfold othersSilent
    simp [List.range_succ, mainPatterns, ht,
      ho Ast.deadline (by simp), ho Ast.middleEndian (by simp), ho Ast.timeLater (by simp), ho Ast.monthName (by simp), ho Ast.timeAgo (by simp),
      ho Ast.timeExpr (by simp), ho Ast.iso (by simp), ho Ast.holiday (by simp), ho Ast.week (by simp)]
  rw [only_run hrt hs 0 rfl casualTime_pattern casualTime_min rfl ho hm hn, part_extract hw hu]
  · unfold partAnswer
    cases partComps w ref with
    | ok c => exact answer_congr rfl rfl rfl fun _ => rfl
    | _ => rfl
  · intro res hr
    rw [part_extract hw hu] at hr
    obtain ⟨c, -, hr⟩ := Out.bind_eq_ok.1 hr
    cases hr
    exact ⟨rfl, rfl, rfl⟩

/-! ## C82 -/

theorem wordChar_lower (c : Nat) : WordChar (lowerB c) ↔ WordChar c := by
  unfold lowerB WordChar
  split <;> omega

theorem standsApart_lower {p s : Text} (h : StandsApart p s) : StandsApart (toLower p) (toLower s) := by
  unfold StandsApart toLower at *
  refine ⟨fun c hc => ?_, fun c hc => ?_⟩
  · rw [List.getLast?_map] at hc
    obtain ⟨x, hx, rfl⟩ := Option.map_eq_some_iff.1 hc
    rw [wordChar_lower]; exact h.1 x hx
  · rw [List.head?_map] at hc
    obtain ⟨x, hx, rfl⟩ := Option.map_eq_some_iff.1 hc
    rw [wordChar_lower]; exact h.2 x hx

theorem not_in_nil {w : Text} (h : w ≠ []) : ¬ WholeWord w [] := by
  rintro ⟨a, b, e, -, -⟩
  have := congrArg List.length e
  have := List.length_pos_iff.2 h
  simp at *
  omega

theorem four_parts : ∀ w ∈ [txt!"morning", txt!"afternoon", txt!"evening", txt!"night"], w ∈ partsOfDay := by decide

theorem alone_checks : ∀ w ∈ nearDays ++ [txt!"morning", txt!"afternoon", txt!"evening", txt!"night"], (dateWordChecks w [w]).all id = true := by decide +kernel

/-- **C82.** If the only date word of a text, upper or lower case, is one of `now`, `today`, `tonight`, `tomorrow`, `tmr`, `yesterday`, `morning`, `afternoon`,
`evening`, `night`, and it stands in the text once, then the program does with the text what it does with that word alone: the words around it, before and
after, are ignored. -/
theorem c82_words_around_do_not_matter (rt : Rt) (hrt : rt.Benign) (sort : List PResult → List PResult) (hs : Sorts sort) (p v s w : Text)
    (hw : w ∈ nearDays ++ [txt!"morning", txt!"afternoon", txt!"evening", txt!"night"]) (hv : toLower v = w) (hps : StandsApart p s)
    (h : NoDateWordsBut [w] (p ++ v ++ s)) (hp : ¬ WholeWord w (toLower p)) (hns : ¬ WholeWord w (toLower s)) (ref : PTime) :
    mainRun rt sort (p ++ v ++ s) ref = mainRun rt sort w ref := by
  have hT : toLower (p ++ v ++ s) = toLower p ++ w ++ toLower s := by rw [← hv]; simp [toLower]
  have hps' := standsApart_lower hps
  have ha := dateWordChecks_sound (alone_checks w hw)
  have hap : StandsApart [] [] := ⟨by simp, by simp⟩
  rcases List.mem_append.1 hw with hw | hw
  · obtain ⟨w0, -, wl⟩ := nearDays_word w hw
    rw [day_run hrt hs hw hT hps' h hp hns, day_run hrt hs (P := []) (S := []) hw (by simp [wl]) hap ha (not_in_nil w0) (not_in_nil w0)]
  · have hw := four_parts w hw
    obtain ⟨w0, -⟩ := parts_word w hw
    rw [part_run hrt hs hw hT hps' h hp hns, part_run hrt hs (P := []) (S := []) hw (by simp [(parts_lower w hw).2]) hap ha (not_in_nil w0) (not_in_nil w0)]

/-- **C82: the conditions are met** by ordinary sentences. -/
theorem c82_conditions_are_met : ∀ x ∈ [(txt!"Could we meet ", txt!"Tomorrow", txt!", if the new week allows?", txt!"tomorrow"),
      (txt!"What do you do ", txt!"TODAY", txt!"?", txt!"today"), (txt!"The cat, ", txt!"now", txt!" knowing nothing of tonights, slept", txt!"now"),
      (txt!"i saw him ", txt!"yesterday", txt!"   in Rome", txt!"yesterday"), (txt!"Let us go out this ", txt!"afternoon", txt!"!", txt!"afternoon")],
    x.2.2.2 ∈ nearDays ++ [txt!"morning", txt!"afternoon", txt!"evening", txt!"night"] ∧ toLower x.2.1 = x.2.2.2 ∧ StandsApart x.1 x.2.2.1 ∧
      NoDateWordsBut [x.2.2.2] (x.1 ++ x.2.1 ++ x.2.2.1) ∧ ¬ WholeWord x.2.2.2 (toLower x.1) ∧ ¬ WholeWord x.2.2.2 (toLower x.2.2.1) := by
  have h : ∀ x ∈ [(txt!"Could we meet ", txt!"Tomorrow", txt!", if the new week allows?", txt!"tomorrow"),
      (txt!"What do you do ", txt!"TODAY", txt!"?", txt!"today"), (txt!"The cat, ", txt!"now", txt!" knowing nothing of tonights, slept", txt!"now"),
      (txt!"i saw him ", txt!"yesterday", txt!"   in Rome", txt!"yesterday"), (txt!"Let us go out this ", txt!"afternoon", txt!"!", txt!"afternoon")],
    x.2.2.2 ∈ nearDays ++ [txt!"morning", txt!"afternoon", txt!"evening", txt!"night"] ∧ toLower x.2.1 = x.2.2.2 ∧
      (!(x.1.getLast?.any isWordB) && !(x.2.2.1.head?.any isWordB) && (dateWordChecks (x.1 ++ x.2.1 ++ x.2.2.1) [x.2.2.2]).all id &&
        !occursB true x.2.2.2 true (toLower x.1) && !occursB true x.2.2.2 true (toLower x.2.2.1)) = true := by decide +kernel
  intro x hx
  obtain ⟨h1, h2, h3⟩ := h x hx
  simp only [Bool.and_eq_true, Bool.not_eq_true'] at h3
  obtain ⟨⟨⟨⟨a, b⟩, c⟩, d⟩, e⟩ := h3
  refine ⟨h1, h2, ⟨fun c hc => ?_, fun c hc => ?_⟩, dateWordChecks_sound c, occursB_sound d, occursB_sound e⟩
  · rw [hc] at a; rw [wordChar_iff]; simpa using a
  · rw [hc] at b; rw [wordChar_iff]; simpa using b

/-- **C82: the word has to stand apart and alone.** As a part of a longer word it is not read; with a second date word in the text the answer is another. -/
theorem c82_conditions_are_needed :
    mainRun (Rt.usual 0) sortKeep txt!"nowhere" exampleRef ≠ mainRun (Rt.usual 0) sortKeep txt!"now" exampleRef ∧
    mainRun (Rt.usual 0) sortKeep txt!"not now: tomorrow" exampleRef ≠ mainRun (Rt.usual 0) sortKeep txt!"tomorrow" exampleRef := by
  have h : ((mainRun (Rt.usual 0) sortKeep txt!"nowhere" exampleRef) != (mainRun (Rt.usual 0) sortKeep txt!"now" exampleRef) &&
    (mainRun (Rt.usual 0) sortKeep txt!"not now: tomorrow" exampleRef) != (mainRun (Rt.usual 0) sortKeep txt!"tomorrow" exampleRef)) = true := by decide +kernel
  simpa using h

end Chrono.Props
