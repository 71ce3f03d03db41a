import Verif.Props.P07_Range
import Verif.Props.P08_Execute
import Verif.Props.P09_History
/-!
# C53, C58: the program as a whole
-/
namespace Chrono.Props
open Chrono Chrono.Spec Chrono.Boost

/-! ## Running the parsers one after the other -/

theorem execLoop_pure {f : Rt → Globals → Text → Match → PTime → Nat → Out PResult} {p : Option Re} {rt : Rt} {r : Re}
    {text : Text} {ref : PTime} : ∀ (n : Nat) (g : Globals) (rem : Text) (acc rs : List PResult) (g' : Globals),
    execLoop rt ⟨p, pureExtract f⟩ r text ref n g rem acc = .ok (rs, g') → g' = g := by
  intro n
  induction n with
  | zero => intro g rem acc rs g' h; simp [execLoop] at h
  | succ n ih =>
    intro g rem acc rs g' h
    unfold execLoop at h
    split at h
    · simp at h; exact h.2.symm
    · rename_i mt hmt
      simp only at h
      obtain ⟨x, hx, h⟩ := Out.bind_eq_ok.1 h
      obtain ⟨y, hy, hx⟩ := Out.bind_eq_ok.1 hx
      cases hx
      simp only at h
      split at h
      · obtain ⟨z, -, h⟩ := Out.bind_eq_ok.1 h
        exact ih _ _ _ _ _ h
      · obtain ⟨z, -, h⟩ := Out.bind_eq_ok.1 h
        obtain ⟨z, -, h⟩ := Out.bind_eq_ok.1 h
        obtain ⟨z, -, h⟩ := Out.bind_eq_ok.1 h
        exact ih _ _ _ _ _ h

/-- The parser leaves the global table alone. -/
def KeepsGlobals (P : Parser) : Prop :=
  ∀ rt g text ref rs g', execute rt P g text ref = .ok (rs, g') → g' = g

theorem keepsGlobals_pure {f : Rt → Globals → Text → Match → PTime → Nat → Out PResult} {p : Option Re} :
    KeepsGlobals ⟨p, pureExtract f⟩ := by
  intro rt g text ref rs g' h
  unfold execute at h
  cases p with
  | none => simp at h; exact h.2.symm
  | some r => exact execLoop_pure _ _ _ _ _ _ h

/-- All parsers of the program but the last one (`ENWeekExpressionParser`). -/
def initParsers : List Parser :=
  [casualTimeParser, deadlineParser, dayOfWeekParser, casualDateParser, middleEndianParser,
   timeLaterParser, monthNameParser, timeAgoParser, timeExprParser, isoParser, holidayParser]

theorem mainParsers_eq : mainParsers = initParsers ++ [weekParser] := rfl

theorem initParsers_keep : ∀ P ∈ initParsers, KeepsGlobals P := by
  intro P hP
  simp only [initParsers, List.mem_cons, List.not_mem_nil, or_false] at hP
  rcases hP with rfl | rfl | rfl | rfl | rfl | rfl | rfl | rfl | rfl | rfl | rfl <;> exact keepsGlobals_pure

theorem execute_toLower (rt : Rt) (P : Parser) (g : Globals) (text : Text) (ref : PTime) :
    execute rt P g (toLower text) ref = execute rt P g text ref := by
  unfold execute; rw [toLower_toLower]

/-- What parser `P` returns for the text when the program starts. -/
def ParserReturns (rt : Rt) (ref : PTime) (text : Text) (P : Parser) (rs : List PResult) : Prop :=
  ∃ g, execute rt P integerWords text ref = .ok (rs, g)

theorem runParsers_append {rt : Rt} {ref : PTime} (ps qs : List Parser) (hp : ∀ P ∈ ps, KeepsGlobals P) (g : Globals) :
    ∀ text, runParsers rt ref (ps ++ qs) g text = (do
      let x ← runParsers rt ref ps g text
      let y ← runParsers rt ref qs g (if ps = [] then text else textAfter text)
      return (x.1 ++ y.1, y.2)) := by
  induction ps with
  | nil =>
    intro text
    simp only [List.nil_append, runParsers, Out.bind_ok, if_true]
    cases runParsers rt ref qs g text <;> simp
  | cons P ps ih =>
    intro text
    simp only [List.cons_append, runParsers]
    cases hx : execute rt P g text ref with
    | ok x =>
      obtain ⟨rs, g1⟩ := x
      have := hp P (by simp) _ _ _ _ _ _ hx
      subst this
      simp only [Out.bind_ok]
      rw [ih (fun Q hQ => hp Q (by simp [hQ]))]
      have e : (if ps = [] then textAfter text else textAfter (textAfter text)) = textAfter text := by
        split
        · rfl
        · exact toLower_toLower text
      rw [e, if_neg (by simp)]
      cases runParsers rt ref ps g1 (textAfter text) with
      | ok y =>
        simp only [Out.bind_ok]
        cases runParsers rt ref qs g1 (textAfter text) <;> simp
      | _ => rfl
    | _ => rfl

theorem runParsers_init {rt : Rt} {ref : PTime} (ps : List Parser) (hp : ∀ P ∈ ps, KeepsGlobals P) {g : Globals} :
    ∀ text rs g', runParsers rt ref ps g text = .ok (rs, g') ↔
      g' = g ∧ ∃ rss, List.Forall₂ (fun P rs => ∃ g1, execute rt P g text ref = .ok (rs, g1)) ps rss ∧ rs = rss.flatten := by
  induction ps with
  | nil =>
    intro text rs g'
    simp only [runParsers, Out.ok.injEq, Prod.mk.injEq, List.forall₂_nil_left_iff, exists_eq_left, List.flatten_nil]
    tauto
  | cons P ps ih =>
    intro text rs g'
    simp only [runParsers, Out.bind_eq_ok]
    constructor
    · rintro ⟨x, hx, y, hy, h⟩
      obtain ⟨x1, x2⟩ := x
      obtain ⟨y1, y2⟩ := y
      have := hp P (by simp) _ _ _ _ _ _ hx
      subst this
      obtain ⟨h1, rss, h2, h3⟩ := (ih (fun Q hQ => hp Q (by simp [hQ])) _ _ _).1 hy
      cases h
      refine ⟨h1, x1 :: rss, .cons ⟨_, hx⟩ ?_, by rw [h3]; rfl⟩
      refine h2.imp ?_
      rintro Q rs ⟨g1, hq⟩
      refine ⟨g1, ?_⟩
      rw [textAfter, execute_toLower] at hq
      exact hq
    · rintro ⟨rfl, rss, h2, h3⟩
      cases h2 with
      | @cons _ r _ rss' h1 h2 =>
        obtain ⟨g1, h1⟩ := h1
        have := hp P (by simp) _ _ _ _ _ _ h1
        subst this
        refine ⟨_, h1, (rss'.flatten, g1), ?_, ?_⟩
        · refine (ih (fun Q hQ => hp Q (by simp [hQ])) _ _ _).2 ⟨rfl, rss', h2.imp ?_, rfl⟩
          rintro Q rs ⟨g2, hq⟩
          exact ⟨g2, by rw [textAfter, execute_toLower]; exact hq⟩
        · simp [h3]

/-- The results of the program's parsers are those of each parser on its own, one after the other. -/
theorem runParsers_main {rt : Rt} {ref : PTime} {text : Text} {rs : List PResult} :
    (∃ g, runParsers rt ref mainParsers integerWords text = .ok (rs, g)) ↔
      ∃ rss, List.Forall₂ (ParserReturns rt ref text) mainParsers rss ∧ rs = rss.flatten := by
  rw [mainParsers_eq]
  simp only [runParsers_append _ _ initParsers_keep, Out.bind_eq_ok, runParsers]
  have e : (if initParsers = [] then text else textAfter text) = textAfter text := if_neg (by simp [initParsers])
  rw [e, textAfter, execute_toLower]
  constructor
  · rintro ⟨g, x, hx, y, ⟨z, hz, u, hu, hy⟩, h⟩
    obtain ⟨-, rss, h2, h3⟩ := (runParsers_init _ initParsers_keep _ _ _).1 (show _ = Out.ok (x.1, x.2) from hx)
    refine ⟨rss ++ [z.1], List.rel_append h2 (.cons ⟨_, hz⟩ .nil), ?_⟩
    cases h; cases hu; cases hy
    simp [h3]
  · rintro ⟨rss, h, rfl⟩
    obtain ⟨a, b, h1, h2, rfl⟩ : ∃ a b, List.Forall₂ (ParserReturns rt ref text) initParsers a ∧
        List.Forall₂ (ParserReturns rt ref text) [weekParser] b ∧ rss = a ++ b := by
      have hlen := h.length_eq
      refine ⟨rss.take initParsers.length, rss.drop initParsers.length, ?_, ?_, (List.take_append_drop _ _).symm⟩
      · have := List.forall₂_take initParsers.length h
        simpa using this
      · have := List.forall₂_drop initParsers.length h
        simpa using this
    cases h2 with
    | @cons _ w _ _ hw hn =>
      cases hn
      obtain ⟨g, hw⟩ := hw
      exact ⟨_, (a.flatten, integerWords), (runParsers_init _ initParsers_keep _ _ _).2 ⟨rfl, a, h1, rfl⟩, _,
        ⟨_, hw, _, rfl, rfl⟩, by simp; rfl⟩

/-! ## The refiners never empty a list -/

theorem overlapRefine_ne {rs : List PResult} (h : rs ≠ []) (hne : ∀ r ∈ rs, NonEmpty r) : overlapRefine rs ≠ [] :=
  (c43_longest_survives rs).2 hne h

theorem mdtRefine_ne {rs out : List PResult} {text : Text} (h : rs ≠ []) (ho : mdtRefine rs text = .ok out) : out ≠ [] := by
  match rs, h, ho with
  | [r], _, ho => simp [mdtRefine] at ho; subst ho; simp
  | p :: c :: rest, _, ho =>
    unfold mdtRefine mdtLoop at ho
    obtain ⟨o, -, ho⟩ := Out.bind_eq_ok.1 ho
    cases o <;> (obtain ⟨tl, -, ho⟩ := Out.bind_eq_ok.1 ho; simp at ho; subst ho; simp)

theorem mdrRefine_ne {rs out : List PResult} {text : Text} (h : rs ≠ []) (ho : mdrRefine rs text = .ok out) : out ≠ [] := by
  match rs, h, ho with
  | [r], _, ho => simp [mdrRefine] at ho; subst ho; simp
  | p :: c :: rest, _, ho =>
    unfold mdrRefine mdrLoop at ho
    obtain ⟨o, -, ho⟩ := Out.bind_eq_ok.1 ho
    cases o <;> (obtain ⟨tl, -, ho⟩ := Out.bind_eq_ok.1 ho; simp at ho; subst ho; simp)

theorem runRefiners_ne {rs out : List PResult} {text : Text} (h : rs ≠ []) (hne : ∀ r ∈ rs, NonEmpty r)
    (ho : runRefiners rs text = .ok out) : out ≠ [] := by
  unfold runRefiners at ho
  simp only at ho
  obtain ⟨a, ha, ho⟩ := Out.bind_eq_ok.1 ho
  obtain ⟨b, hb, ho2⟩ := Out.bind_eq_ok.1 ho
  have h1 := overlapRefine_ne h hne
  obtain ⟨rs', e, hl, -⟩ := c47_only_tagged_times_before_known_zone (overlapRefine rs) text
  rw [e] at ha
  have ha := Out.ok.inj ha
  subst ha
  have h2 : rs' ≠ [] := by
    intro h0; rw [h0] at hl; exact h1 (List.eq_nil_of_length_eq_zero hl.symm)
  exact mdrRefine_ne (mdtRefine_ne h2 hb) ho2

theorem returned_nonEmpty {rt : Rt} (hrt : rt.Benign) (hst : rt.Stops) {ref : PTime} {text : Text}
    (hlen : text.length < 4294967296) {rss : List (List PResult)}
    (h : List.Forall₂ (ParserReturns rt ref text) mainParsers rss) :
    ∀ r ∈ rss.flatten, NonEmpty r ∧ Inside text r := by
  intro r hr
  obtain ⟨rs, hrs, hr⟩ := List.mem_flatten.1 hr
  obtain ⟨i, hi, rfl⟩ := List.getElem_of_mem hrs
  have hi' : i < mainParsers.length := by rw [h.length_eq]; exact hi
  obtain ⟨g, hg⟩ := (List.forall₂_iff_get.1 h).2 i hi' hi
  have hP : mainParsers.get ⟨i, hi'⟩ ∈ allParsers := by
    unfold allParsers; exact List.mem_append_left _ (List.get_mem _ _)
  have := (c15_spans_inside_ordered_disjoint _ hP rt hrt hst _ _ text ref hlen _ hg).1 r hr
  exact ⟨this.1, this.2, hlen⟩

/-! ## C53 -/

/-- The line printed when nothing was found (time.cpp:88), and the beginning of any other line (time.cpp:86). -/
def invalidLine : Text := txt!"[???] -- Invalid date"
def foundLine : Text := txt!"Date:\t"

/-- A sorting routine: it returns a permutation sorted by index. -/
def Sorts (sort : List PResult → List PResult) : Prop := ∀ l, SortedPerm l (sort l)

theorem mainRun_eq {rt : Rt} {ref : PTime} {text : Text} {sort : List PResult → List PResult} {rs : List PResult} {g : Globals}
    (h : runParsers rt ref mainParsers integerWords text = .ok (rs, g)) :
    mainRun rt sort text ref = (do
      let out ← runRefiners (sort rs) (textAfter text)
      printResult out) := by
  unfold mainRun; rw [h]; rfl

theorem mainRun_ok {rt : Rt} {ref : PTime} {text : Text} {sort : List PResult → List PResult} {line : Text}
    (h : mainRun rt sort text ref = .ok line) :
    ∃ rs g out, runParsers rt ref mainParsers integerWords text = .ok (rs, g) ∧
      runRefiners (sort rs) (textAfter text) = .ok out ∧ printResult out = .ok line := by
  unfold mainRun at h
  obtain ⟨x, hx, h⟩ := Out.bind_eq_ok.1 h
  obtain ⟨out, ho, h⟩ := Out.bind_eq_ok.1 h
  exact ⟨x.1, x.2, out, hx, ho, h⟩

/-- **C53.** Whenever the program prints a line (that is, unless it dies with an exception), the line is
"[???] -- Invalid date" exactly if each of the twelve parsers, run on the text on its own, found nothing; and in every
other case the line begins with "Date:". -/
theorem c53_invalid_iff_nothing_found (rt : Rt) (hrt : rt.Benign) (hst : rt.Stops) (sort : List PResult → List PResult)
    (hs : Sorts sort) (text : Text) (hlen : text.length < 4294967296) (ref : PTime) (line : Text)
    (h : mainRun rt sort text ref = .ok line) :
    (line = invalidLine ↔ ∀ P ∈ mainParsers, ParserReturns rt ref text P []) ∧
    (line ≠ invalidLine → ∃ d, line = foundLine ++ d) := by
  obtain ⟨rs, g, out, h1, h2, h3⟩ := mainRun_ok h
  obtain ⟨rss, h4, rfl⟩ := runParsers_main.1 ⟨g, h1⟩
  have hne := returned_nonEmpty hrt hst hlen h4
  obtain ⟨hp, -⟩ := hs rss.flatten
  have key : (line = invalidLine ∧ rss.flatten = []) ∨ ((∃ d, line = foundLine ++ d) ∧ rss.flatten ≠ []) := by
    by_cases h0 : rss.flatten = []
    · refine .inl ⟨?_, h0⟩
      rw [h0] at hp h2
      have := hp.eq_nil
      rw [this] at h2
      have e : runRefiners [] (textAfter text) = .ok [] := by
        unfold runRefiners
        obtain ⟨rs', e, hl, -⟩ := c47_only_tagged_times_before_known_zone [] (textAfter text)
        simp only [overlapRefine]
        have : rs' = [] := List.eq_nil_of_length_eq_zero (by simpa using hl)
        rw [e, this]
        rfl
      rw [e] at h2; cases h2
      simp [printResult] at h3
      exact h3.symm
    · refine .inr ⟨?_, h0⟩
      have : sort rss.flatten ≠ [] := by
        intro he; rw [he] at hp; exact h0 hp.symm.eq_nil
      have hout := runRefiners_ne this (fun r hr => (hne r (hp.mem_iff.1 hr)).1) h2
      match out, hout with
      | r :: _, _ =>
        unfold printResult at h3
        obtain ⟨d, -, h3⟩ := Out.bind_eq_ok.1 h3
        simp at h3
        exact ⟨d, h3.symm⟩
  have hdiff : ∀ d, foundLine ++ d ≠ invalidLine := by
    intro d hd; injection hd with h _; revert h; decide
  have hall : rss.flatten = [] ↔ ∀ P ∈ mainParsers, ParserReturns rt ref text P [] := by
    constructor
    · intro h0 P hP
      obtain ⟨i, hi, rfl⟩ := List.getElem_of_mem hP
      have hi' : i < rss.length := by rw [← h4.length_eq]; exact hi
      have := (List.forall₂_iff_get.1 h4).2 i hi hi'
      rw [List.flatten_eq_nil_iff] at h0
      rw [show rss.get ⟨i, hi'⟩ = [] from h0 _ (List.get_mem _ _)] at this
      exact this
    · intro hP
      rw [List.flatten_eq_nil_iff]
      intro rs hrs
      obtain ⟨i, hi, rfl⟩ := List.getElem_of_mem hrs
      have hi' : i < mainParsers.length := by rw [h4.length_eq]; exact hi
      obtain ⟨g1, e1⟩ := (List.forall₂_iff_get.1 h4).2 i hi' hi
      obtain ⟨g2, e2⟩ := hP _ (List.get_mem mainParsers ⟨i, hi'⟩)
      rw [e1] at e2
      simp at e2
      exact e2.1
  rcases key with ⟨k1, k2⟩ | ⟨⟨d, k1⟩, k2⟩
  · exact ⟨⟨fun _ => hall.1 k2, fun _ => k1⟩, fun h0 => absurd k1 h0⟩
  · refine ⟨⟨fun h0 => ?_, fun h0 => absurd (hall.2 h0) k2⟩, fun _ => ⟨d, k1⟩⟩
    rw [k1] at h0
    exact absurd h0 (hdiff d)

/-! ## C58 -/

/-- **C58.** If no two mentions found by the parsers have the same place and the same length, the printed line (and
whether there is one) does not depend on how `std::sort` orders mentions that begin at the same place. -/
theorem c58_sort_ties_do_not_matter (rt : Rt) (hrt : rt.Benign) (hst : rt.Stops)
    (sort sort' : List PResult → List PResult) (hs : Sorts sort) (hs' : Sorts sort')
    (text : Text) (hlen : text.length < 4294967296) (ref : PTime)
    (hd : ∀ rss, List.Forall₂ (ParserReturns rt ref text) mainParsers rss →
      rss.flatten.Pairwise (fun a b => ¬ (a.index = b.index ∧ a.textLength = b.textLength))) :
    mainRun rt sort text ref = mainRun rt sort' text ref := by
  cases hr : runParsers rt ref mainParsers integerWords text with
  | ok x =>
    obtain ⟨rs, g⟩ := x
    rw [mainRun_eq hr, mainRun_eq hr]
    obtain ⟨rss, h4, rfl⟩ := runParsers_main.1 ⟨g, hr⟩
    have hne := returned_nonEmpty hrt hst hlen h4
    have hd := hd rss h4
    obtain ⟨p, q⟩ := hs rss.flatten
    obtain ⟨p', q'⟩ := hs' rss.flatten
    have e : overlapRefine (sort rss.flatten) = overlapRefine (sort' rss.flatten) := by
      refine c46_sort_order_irrelevant (sort' rss.flatten) (sort rss.flatten) (p.trans p'.symm) q' q
        (fun x hx => (hne x (p'.mem_iff.1 hx)).1) ?_
      refine (p'.pairwise_iff ?_).2 hd
      rintro a b h ⟨h1, h2⟩
      exact h ⟨h1.symm, h2.symm⟩
    unfold runRefiners
    rw [e]
  | _ => unfold mainRun; rw [hr]; rfl

end Chrono.Props
