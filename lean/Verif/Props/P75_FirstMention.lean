import Verif.Props.P74_TwoDays
/-!
# C95–C97: texts with any number of mentions

What the program prints is settled by the first mention (and the one after it, if the two are merged), whatever is found in
the rest of the text, and by whichever parsers.
-/
namespace Chrono.Spec
open Chrono Chrono.Boost Chrono.Props

/-- `x` is one of the mentions the parsers of `main` find in the text. -/
def Mention (rt : Rt) (ref : PTime) (text : Text) (x : PResult) : Prop :=
  ∃ P ∈ mainParsers, ∃ rs, ParserReturns rt ref text P rs ∧ x ∈ rs

/-- Every parser returns (none of them throws). -/
def AllReturn (rt : Rt) (ref : PTime) (text : Text) : Prop := ∀ P ∈ mainParsers, ∃ rs, ParserReturns rt ref text P rs

/-- `x` shares a character with `r` and is shorter. -/
def Hidden (r x : PResult) : Prop := Overlap x r ∧ x.textLength < r.textLength

/-- No mention that shares a character with `z` is as long as it. -/
def Kept (rt : Rt) (ref : PTime) (text : Text) (z : PResult) : Prop :=
  Mention rt ref text z ∧ ∀ y, Mention rt ref text y → y = z ∨ ¬ Overlap y z ∨ y.textLength < z.textLength

/-- Another mention stands between `r` and `x`. -/
def Parted (rt : Rt) (ref : PTime) (text : Text) (r x : PResult) : Prop :=
  ∃ z, Kept rt ref text z ∧ Before r z ∧ Before z x

/-- A time with a known time-zone abbreviation right after it is the only thing the time-zone refiner changes. -/
def NoZone (text : Text) (r : PResult) : Prop :=
  ∀ abbr off, r.getTag .timeExpression = true → ¬ FollowedByZone text r abbr off

end Chrono.Spec

namespace Chrono.Props
open Chrono Chrono.Spec Chrono.Boost

/-! ## Overlaps -/

theorem disjoint_first {out : List PResult} {r : PResult} (hpw : out.Pairwise Before) (hne : ∀ x ∈ out, NonEmpty x) (hr : r ∈ out)
    (h : ∀ x ∈ out, x = r ∨ Hidden r x ∨ Before r x) : ∃ tl, out = r :: tl ∧ ∀ x ∈ tl, Before r x := by
  match out, hr with
  | a :: tl, hr =>
    have hp := List.pairwise_cons.1 hpw
    rcases List.mem_cons.1 hr with rfl | hr'
    · exact ⟨tl, rfl, hp.1⟩
    · exfalso
      have hb := hp.1 r hr'
      have na := hne a (by simp)
      have nr := hne r hr
      unfold Before stop NonEmpty at *
      rcases h a (by simp) with rfl | ⟨ho, -⟩ | hbr
      · omega
      · unfold Overlap stop at ho; omega
      · omega

/-- The first of the mentions, if it is longer than those it shares a character with, is the first after the overlaps are removed. -/
theorem overlap_first {l : List PResult} {r : PResult} (hso : SortedByIndex l) (hr : r ∈ l) (hne : ∀ x ∈ l, NonEmpty x)
    (h : ∀ x ∈ l, x = r ∨ Hidden r x ∨ Before r x) :
    ∃ tl, overlapRefine l = r :: tl ∧ (∀ x ∈ tl, x ∈ l ∧ Before r x) ∧ tl.Pairwise Before := by
  have hno : ∀ x, Before r x → ¬ Overlap x r := fun x hx => by unfold Overlap Before at *; omega
  have kr : r ∈ overlapRefine l := c43_locally_longest_survives l hso r hr (hne r hr) (fun x hx => by
    rcases h x hx with rfl | h1 | h1
    · exact .inl rfl
    · exact .inr (.inr h1.2)
    · exact .inr (.inl (hno x h1)))
  obtain ⟨hsub, hpw⟩ := c42_sublist_and_disjoint l hso
  obtain ⟨tl, e, htl⟩ := disjoint_first hpw (fun x hx => hne x (hsub.mem hx)) kr (fun x hx => h x (hsub.mem hx))
  rw [e] at hsub hpw
  exact ⟨tl, e, fun x hx => ⟨hsub.mem (by simp [hx]), htl x hx⟩, (List.pairwise_cons.1 hpw).2⟩

/-- The same for the first two. -/
theorem overlap_first_two {l : List PResult} {r s : PResult} (hso : SortedByIndex l) (hr : r ∈ l) (hs : s ∈ l)
    (hne : ∀ x ∈ l, NonEmpty x) (hrs : Before r s) (h : ∀ x ∈ l, x = r ∨ x = s ∨
      ((Overlap x r ∨ Overlap x s) ∧ (Overlap x r → x.textLength < r.textLength) ∧ (Overlap x s → x.textLength < s.textLength)) ∨ Before s x) :
    ∃ tl, overlapRefine l = r :: s :: tl ∧ (∀ x ∈ tl, x ∈ l ∧ Before s x) ∧ tl.Pairwise Before := by
  have nr := hne r hr
  have ns := hne s hs
  have hno : ∀ x y, Before x y → ¬ Overlap y x ∧ ¬ Overlap x y := fun x y hx => by unfold Overlap Before at *; omega
  have hrx : ∀ x, Before s x → Before r x := fun x hx => by unfold Before stop NonEmpty at *; omega
  have kr : r ∈ overlapRefine l := c43_locally_longest_survives l hso r hr nr (fun x hx => by
    rcases h x hx with rfl | rfl | ⟨-, h1, -⟩ | h1
    · exact .inl rfl
    · exact .inr (.inl (hno _ _ hrs).1)
    · by_cases ho : Overlap x r
      · exact .inr (.inr (h1 ho))
      · exact .inr (.inl ho)
    · exact .inr (.inl (hno _ _ (hrx x h1)).1))
  have ks : s ∈ overlapRefine l := c43_locally_longest_survives l hso s hs ns (fun x hx => by
    rcases h x hx with rfl | rfl | ⟨-, -, h1⟩ | h1
    · exact .inr (.inl (hno _ _ hrs).2)
    · exact .inl rfl
    · by_cases ho : Overlap x s
      · exact .inr (.inr (h1 ho))
      · exact .inr (.inl ho)
    · exact .inr (.inl (hno _ _ h1).1))
  obtain ⟨hsub, hpw⟩ := c42_sublist_and_disjoint l hso
  have apart : ∀ x ∈ overlapRefine l, ∀ y ∈ overlapRefine l, Overlap x y → x = y := by
    intro x hx y hy ho
    obtain ⟨i, hi, rfl⟩ := List.getElem_of_mem hx
    obtain ⟨j, hj, rfl⟩ := List.getElem_of_mem hy
    have hp := List.pairwise_iff_getElem.1 hpw
    rcases Nat.lt_trichotomy i j with hij | rfl | hij
    · exact absurd ho (hno _ _ (hp i j hi hj hij)).2
    · rfl
    · exact absurd ho (hno _ _ (hp j i hj hi hij)).1
  have hk : ∀ x ∈ overlapRefine l, x = r ∨ x = s ∨ Before s x := by
    intro x hx
    rcases h x (hsub.mem hx) with h1 | h1 | ⟨h1 | h1, -⟩ | h1
    · exact .inl h1
    · exact .inr (.inl h1)
    · exact .inl (apart x hx r kr h1)
    · exact .inr (.inl (apart x hx s ks h1))
    · exact .inr (.inr h1)
  obtain ⟨tl, e, htl⟩ := disjoint_first hpw (fun x hx => hne x (hsub.mem hx)) kr (fun x hx => by
    rcases hk x hx with h1 | rfl | h1
    · exact .inl h1
    · exact .inr (.inr hrs)
    · exact .inr (.inr (hrx x h1)))
  rw [e] at hpw ks hk hsub
  have hp := List.pairwise_cons.1 hpw
  have hself : ∀ x, NonEmpty x → ¬ Before x x := fun x hx => by unfold NonEmpty at hx; unfold Before stop; omega
  have ks' : s ∈ tl := by
    rcases List.mem_cons.1 ks with rfl | h1
    · exact absurd hrs (hself _ nr)
    · exact h1
  obtain ⟨tl', e', htl'⟩ := disjoint_first hp.2 (fun x hx => hne x (hsub.mem (by simp [hx]))) ks' (fun x hx => by
    rcases hk x (by simp [hx]) with rfl | h1 | h1
    · exact absurd (htl _ hx) (hself _ nr)
    · exact .inl h1
    · exact .inr (.inr h1))
  subst e'
  exact ⟨tl', e, fun x hx => ⟨hsub.mem (by simp [hx]), htl' x hx⟩, (List.pairwise_cons.1 hp.2).2⟩

theorem olrLoop_reaches (prev : PResult) (l : List PResult) (hso : SortedByIndex (prev :: l)) (hne : ∀ x ∈ prev :: l, NonEmpty x) :
    (∃ z ∈ olrLoop prev l, stop prev ≤ stop z) ∧ ∀ x ∈ l, ∃ z ∈ olrLoop prev l, x.index < stop z := by
  induction l generalizing prev with
  | nil =>
    unfold olrLoop
    rw [nonEmpty_not_isEmpty (hne prev (by simp))]
    simp
  | cons t rest ih =>
    have hsp := (List.pairwise_cons.1 hso).1
    have hst := (List.pairwise_cons.1 hso).2
    have nt := hne t (by simp)
    have hpt := hsp t (by simp)
    unfold olrLoop
    split
    · rename_i hov
      split
      · rename_i hlt
        obtain ⟨⟨z, hz, hz'⟩, h2⟩ := ih t hst (fun x hx => hne x (List.mem_cons_of_mem _ hx))
        refine ⟨⟨z, hz, ?_⟩, fun x hx => ?_⟩
        · unfold stop at *; omega
        · rcases List.mem_cons.1 hx with rfl | hx
          · exact ⟨z, hz, by unfold stop NonEmpty at *; omega⟩
          · exact h2 x hx
      · rename_i hlt
        obtain ⟨⟨z, hz, hz'⟩, h2⟩ := ih prev (List.pairwise_cons.2 ⟨fun x hx => hsp x (by simp [hx]), (List.pairwise_cons.1 hst).2⟩)
          (fun x hx => hne x (by rcases List.mem_cons.1 hx with rfl | hx <;> simp [*]))
        refine ⟨⟨z, hz, hz'⟩, fun x hx => ?_⟩
        rcases List.mem_cons.1 hx with rfl | hx
        · exact ⟨z, hz, by unfold stop at *; omega⟩
        · exact h2 x hx
    · obtain ⟨⟨z, hz, hz'⟩, h2⟩ := ih t hst (fun x hx => hne x (List.mem_cons_of_mem _ hx))
      refine ⟨⟨prev, by simp, Nat.le_refl _⟩, fun x hx => ?_⟩
      rcases List.mem_cons.1 hx with rfl | hx
      · exact ⟨z, by simp [hz], by unfold stop NonEmpty at *; omega⟩
      · obtain ⟨y, hy, hy'⟩ := h2 x hx
        exact ⟨y, by simp [hy], hy'⟩

/-- Whatever is removed, some mention kept ends after it begins. -/
theorem overlap_reaches {l : List PResult} (hso : SortedByIndex l) (hne : ∀ x ∈ l, NonEmpty x) :
    ∀ x ∈ l, ∃ z ∈ overlapRefine l, x.index < stop z := by
  have self : ∀ x, NonEmpty x → x.index < stop x := fun x hx => by unfold stop NonEmpty at *; omega
  match l, hso, hne with
  | [], _, _ => simp
  | [a], _, hne => intro x hx; exact ⟨x, hx, self x (hne x hx)⟩
  | a :: b :: rest, hso, hne =>
    obtain ⟨⟨z, hz, hz'⟩, h2⟩ := olrLoop_reaches a (b :: rest) hso hne
    intro x hx
    rcases List.mem_cons.1 hx with rfl | hx
    · exact ⟨z, hz, by have := self x (hne x (by simp)); omega⟩
    · exact h2 x hx

/-! ## The mentions that reach the other refiners -/

/-- The refiners after the overlaps are removed. -/
def afterOverlaps (l : List PResult) (text : Text) : Out (List PResult) := do
  let rs ← tzRefine l text
  let rs ← mdtRefine rs text
  mdrRefine rs text

/-- What the time-zone refiner leaves alone, whether or not a zone follows. -/
theorem tzOne_keeps (text : Text) (r : PResult) : (tzOne Ast.tzName text r).index = r.index ∧
    (tzOne Ast.tzName text r).hasEnd = r.hasEnd ∧
    (DateOnly (tzOne Ast.tzName text r) ↔ DateOnly r) ∧ (TimeOnly (tzOne Ast.tzName text r) ↔ TimeOnly r) ∧
    (NoZone text r → (tzOne Ast.tzName text r).text = r.text ∧ (tzOne Ast.tzName text r).startDate = r.startDate ∧
      (tzOne Ast.tzName text r).endDate = r.endDate ∧ ∀ t, (tzOne Ast.tzName text r).getTag t = r.getTag t) := by
  have hone : tzRefine [r] text = .ok [tzOne Ast.tzName text r] := by unfold tzRefine; rw [Ast.compile_tzName]; rfl
  obtain ⟨rs', e, hl, hh⟩ := c47_only_tagged_times_before_known_zone [r] text
  rw [hone] at e
  simp only [Out.ok.injEq] at e
  subst e
  obtain ⟨h1, h2, h3, -, h5, -⟩ := hh 0 (by simp) (by simp)
  simp only [List.getElem_cons_zero] at h1 h2 h3 h5
  have hc : ∀ k, Comps.certainKey k ≠ .tzoffset → (tzOne Ast.tzName text r).startDate.certain k = r.startDate.certain k := by
    intro k hk
    have hset : ∀ (c : Comps) (off : Int), (c.set .tzoffset off).certain k = c.certain k := by
      intro c off; simp [Comps.certain, Comps.set, Comps.upd, hk]
    have happ : ∀ (q : PResult) (abbr : Text) (off : Int), (tzApply q abbr off).startDate.certain k = q.startDate.certain k := by
      intro q abbr off
      unfold tzApply
      have hs : ∀ (x : PResult) (a : Text), ((x.setText a).setTag .extractTZ).startDate = x.startDate := by
        intro x a
        unfold PResult.setTag PResult.setText
        cases x.tags .extractTZ <;> rfl
      simp only [hs]
      split <;> split <;> simp [PResult.onStart, hset]
    have ht : (r.touchTag .timeExpression).startDate = r.startDate := by
      unfold PResult.touchTag
      cases r.tags .timeExpression <;> rfl
    unfold tzOne
    simp only
    split
    · split
      · split
        · split
          · rw [happ, ht]
          · rw [ht]
        · rw [ht]
      · rw [ht]
    · rw [ht]
  refine ⟨h1, h2, ?_, ?_, fun hz => ?_⟩
  · unfold DateOnly
    rw [show ∀ c : Comps, c.isCertainName txt!"hour" = c.certain .hour from fun _ => rfl,
      show ∀ c : Comps, c.isCertainName txt!"hour" = c.certain .hour from fun _ => rfl, hc _ (by decide)]
  · unfold TimeOnly
    simp only [show ∀ c : Comps, c.isCertainName txt!"month" = c.certain .month from fun _ => rfl,
      show ∀ c : Comps, c.isCertainName txt!"mday" = c.certain .mday from fun _ => rfl]
    rw [hc _ (by decide), hc _ (by decide)]
  · obtain ⟨h6, h7, h8⟩ := h5 (by rintro ⟨x, o, h, h'⟩; exact hz x o h h')
    exact ⟨h6, h7, h3, h8⟩

theorem tz_list (text : Text) (l : List PResult) : tzRefine l text = .ok (l.map (tzOne Ast.tzName text)) := by
  unfold tzRefine; rw [Ast.compile_tzName]

theorem pair_tz {text : Text} {r r' x : PResult} (hr : r'.startDate = r.startDate) :
    DateTimePair r' (tzOne Ast.tzName text x) ↔ DateTimePair r x := by
  obtain ⟨-, -, j3, j4, -⟩ := tzOne_keeps text x
  unfold DateTimePair
  rw [j3, j4]
  unfold DateOnly TimeOnly
  rw [hr]

/-- The date and time of a mention stay when its zone is set. -/
theorem reads_tz {text : Text} {r : PResult} {t : DateTime} (h : Reads r.startDate t) : Reads (tzOne Ast.tzName text r).startDate t := by
  have hone : tzRefine [r] text = .ok [tzOne Ast.tzName text r] := by unfold tzRefine; rw [Ast.compile_tzName]; rfl
  obtain ⟨rs', e, hl, hh⟩ := c47_only_tagged_times_before_known_zone [r] text
  rw [hone] at e
  simp only [Out.ok.injEq] at e
  subst e
  obtain ⟨-, -, -, h4, -⟩ := hh 0 (by simp) (by simp)
  simp only [List.getElem_cons_zero] at h4
  obtain ⟨a1, a2, a3, a4, a5, a6⟩ := h
  exact ⟨(h4 _ (by decide)).trans a1, (h4 _ (by decide)).trans a2, (h4 _ (by decide)).trans a3, (h4 _ (by decide)).trans a4, (h4 _ (by decide)).trans a5, (h4 _ (by decide)).trans a6⟩

theorem mdt_dates_total {text : Text} : ∀ (l : List PResult) (x : PResult), l.Pairwise (fun a b => ¬ DateTimePair a b) →
    ∃ out, mdtLoop text x l = .ok out ∧ ∀ y ∈ out, y = x ∨ y ∈ l := by
  intro l
  induction l with
  | nil => intro x _; unfold mdtLoop; exact ⟨_, rfl, by split <;> simp⟩
  | cons a l ih =>
    intro x hp
    cases l with
    | nil => unfold mdtLoop; exact ⟨_, rfl, by split <;> simp⟩
    | cons b l =>
      have h := List.pairwise_cons.1 hp
      unfold mdtLoop
      rw [mdtStep_not_pair (h.1 b (by simp))]
      simp only [Out.bind_ok]
      obtain ⟨out, ho, ho'⟩ := ih b h.2
      rw [ho]
      refine ⟨_, rfl, fun y hy => ?_⟩
      rcases List.mem_cons.1 hy with rfl | hy
      · exact .inr (by simp)
      · rcases ho' y hy with rfl | hy
        · exact .inr (by simp)
        · exact .inr (List.mem_cons_of_mem _ hy)

theorem mdr_dates_total {text : Text} : ∀ (n : Nat) (l : List PResult) (x : PResult), l.length ≤ n → (∀ y ∈ l, Inside text y) →
    (∀ y ∈ l, ∃ t : DateTime, t.Valid ∧ Reads y.startDate t) → ∃ out, mdrLoop text x l = .ok out := by
  intro n
  induction n with
  | zero => intro l x hl _ _; cases l <;> [skip; simp at hl]; unfold mdrLoop; exact ⟨_, rfl⟩
  | succ n ih =>
    intro l x hl hin hd
    match l, hl, hin, hd with
    | [], _, _, _ => unfold mdrLoop; exact ⟨_, rfl⟩
    | [a], _, _, _ => unfold mdrLoop; exact ⟨_, rfl⟩
    | a :: b :: rest, hl, hin, hd =>
      have ha := hin a (by simp)
      have hb := hin b (by simp)
      obtain ⟨o, ho⟩ : ∃ o, mdrStep text a b = .ok o := by
        unfold mdrStep
        split
        · rcases mdrAble_total (b := b) ha with h | h
          · rw [h]
            obtain ⟨t, ht, hrt⟩ := hd a (by simp)
            obtain ⟨u, hu, hru⟩ := hd b (by simp)
            obtain ⟨T, hT, -⟩ := date_of_reads hrt ht
            obtain ⟨U, hU, -⟩ := date_of_reads hru hu
            rcases mdrMerge_total ha hb with ⟨m, hm, -⟩ | ⟨e, he, hne⟩
            · simp only [Out.bind_ok, if_true, hm]; exact ⟨_, rfl⟩
            · exfalso
              unfold mdrMerge at he
              rw [hT, hU] at he
              simp only [Out.bind_ok] at he
              obtain ⟨a1, -⟩ := ha
              unfold stop at a1
              unfold substrN at he
              rw [if_pos (by omega)] at he
              simp at he
          · rw [h]; exact ⟨_, rfl⟩
        · exact ⟨_, rfl⟩
      unfold mdrLoop
      rw [ho]
      simp only [Out.bind_ok]
      cases o with
      | none =>
        simp only
        obtain ⟨out, h⟩ := ih (b :: rest) a (by simp at hl ⊢; omega) (fun y hy => hin y (List.mem_cons_of_mem _ hy)) (fun y hy => hd y (List.mem_cons_of_mem _ hy))
        rw [h]; exact ⟨_, rfl⟩
      | some m =>
        simp only
        obtain ⟨out, h⟩ := ih rest m (by simp at hl; omega) (fun y hy => hin y (List.mem_cons_of_mem _ (List.mem_cons_of_mem _ hy)))
          (fun y hy => hd y (List.mem_cons_of_mem _ (List.mem_cons_of_mem _ hy)))
        rw [h]; exact ⟨_, rfl⟩

theorem afterOverlaps_dates {text : Text} {l : List PResult} (hin : ∀ x ∈ l, Inside text x)
    (hd : ∀ x ∈ l, ∃ t : DateTime, t.Valid ∧ Reads x.startDate t) (hp : l.Pairwise (fun a b => ¬ DateTimePair a b)) :
    ∃ out, afterOverlaps l text = .ok out := by
  have htot := tzRefine_total hin
  unfold afterOverlaps
  rw [tz_list] at htot ⊢
  obtain ⟨a, ha, hain, -⟩ | ⟨e, he, -⟩ := htot
  swap
  · cases he
  simp only [Out.ok.injEq] at ha
  subst ha
  simp only [Out.bind_ok]
  have hd' : ∀ x ∈ l.map (tzOne Ast.tzName text), ∃ t : DateTime, t.Valid ∧ Reads x.startDate t := by
    intro x hx
    obtain ⟨y, hy, rfl⟩ := List.mem_map.1 hx
    obtain ⟨t, ht, hr⟩ := hd y hy
    exact ⟨t, ht, reads_tz hr⟩
  have hp' : (l.map (tzOne Ast.tzName text)).Pairwise (fun a b => ¬ DateTimePair a b) := by
    rw [List.pairwise_map]
    refine hp.imp (fun {x y} h => ?_)
    obtain ⟨-, -, i3, i4, -⟩ := tzOne_keeps text x
    obtain ⟨-, -, j3, j4, -⟩ := tzOne_keeps text y
    unfold DateTimePair at *
    rwa [i3, i4, j3, j4]
  generalize l.map (tzOne Ast.tzName text) = k at *
  obtain ⟨out, ho, hmem⟩ : ∃ out, mdtRefine k text = .ok out ∧ ∀ y ∈ out, y ∈ k := by
    match k, hp' with
    | [], _ => exact ⟨[], rfl, by simp⟩
    | [a], _ => exact ⟨[a], rfl, by simp⟩
    | a :: b :: rest, hp' =>
      obtain ⟨out, ho, hm⟩ := mdt_dates_total (text := text) (a :: b :: rest) b hp'
      exact ⟨out, ho, fun y hy => by
        rcases hm y hy with rfl | h
        · simp
        · exact h⟩
  rw [ho]
  simp only [Out.bind_ok]
  match out, hmem with
  | [], _ => exact ⟨_, rfl⟩
  | [a], _ => exact ⟨_, rfl⟩
  | a :: b :: rest, hmem =>
    exact mdr_dates_total _ (a :: b :: rest) a (Nat.le_refl _) (fun y hy => hain y (hmem y hy)) (fun y hy => hd' y (hmem y hy))

/-- The mentions of a text, sorted and without overlaps, and what the program does with them. -/
theorem run_mentions {rt : Rt} (hrt : Rt.Defined rt) {sort : List PResult → List PResult} (hs : Sorts sort) {text : Text}
    (hlen : text.length < 4294967296) {ref : PTime} (hret : AllReturn rt ref text) :
    ∃ l, SortedByIndex l ∧ (∀ x, x ∈ l ↔ Mention rt ref text x) ∧ (∀ x ∈ l, NonEmpty x ∧ Inside (toLower text) x) ∧
      mainRun rt sort text ref = (afterOverlaps (overlapRefine l) (toLower text) >>= printResult) ∧
      ((∀ x, Mention rt ref text x → ∃ t : DateTime, t.Valid ∧ Reads x.startDate t) →
        (∀ x y, Mention rt ref text x → Mention rt ref text y → Before x y → ¬ DateTimePair x y) →
        ∃ out, afterOverlaps (overlapRefine l) (toLower text) = .ok out) := by
  obtain ⟨rss, h4⟩ := forall₂_of_forall hret
  obtain ⟨g, hg⟩ := runParsers_main.2 ⟨rss, h4, rfl⟩
  obtain ⟨hp, hso⟩ := hs rss.flatten
  have hne := returned_nonEmpty hrt.stale hrt.stops hlen h4
  have hl : (toLower text).length = text.length := by simp [toLower]
  have hin : ∀ x, Inside text x → Inside (toLower text) x := fun x h => by unfold Inside at *; rw [hl]; exact h
  have hm : ∀ x, x ∈ sort rss.flatten ↔ Mention rt ref text x := fun x => by rw [hp.mem_iff]; exact mem_flatten_of_returns h4
  have hi : ∀ x ∈ sort rss.flatten, NonEmpty x ∧ Inside (toLower text) x := fun x hx => by
    have := hne x (hp.mem_iff.1 hx)
    exact ⟨this.1, hin x this.2⟩
  refine ⟨sort rss.flatten, hso, hm, hi, ?_, fun h1 h2 => ?_⟩
  · rw [mainRun_eq hg]
    rfl
  · obtain ⟨hsub, hpw⟩ := c42_sublist_and_disjoint _ hso
    refine afterOverlaps_dates (fun x hx => (hi x (hsub.mem hx)).2) (fun x hx => h1 x ((hm x).1 (hsub.mem hx))) ?_
    exact List.Pairwise.imp_of_mem (fun {x y} hx hy h => h2 x y ((hm x).1 (hsub.mem hx)) ((hm y).1 (hsub.mem hy)) h) hpw

/-- The tail of what the date/time refiner returns begins where its input begins. -/
theorem mdtLoop_head {text : Text} {c : PResult} {rest : List PResult} (hin : ∀ x ∈ c :: rest, Inside text x)
    (hle : ∀ x ∈ rest, c.index ≤ x.index) {out : List PResult} (h : mdtLoop text c (c :: rest) = .ok out) :
    ∀ m ∈ out.head?, m.index = c.index := by
  match rest, hin, hle, h with
  | [], _, _, h =>
    unfold mdtLoop at h
    split at h <;> (simp only [Out.ok.injEq] at h; subst h; simp)
  | d :: rest, hin, hle, h =>
    unfold mdtLoop at h
    obtain ⟨o, ho, h⟩ := Out.bind_eq_ok.1 h
    cases o with
    | none =>
      simp only at h
      obtain ⟨tl, -, h⟩ := Out.bind_eq_ok.1 h
      simp at h; subst h
      simp
    | some m =>
      simp only at h
      obtain ⟨tl, -, h⟩ := Out.bind_eq_ok.1 h
      simp at h; subst h
      have hd := hle d (by simp)
      simp only [List.head?_cons, Option.mem_def, Option.some.injEq, forall_eq']
      rcases mdtStep_some ho with ⟨-, -, h1⟩ | ⟨-, -, h1⟩
      · obtain ⟨-, h2, -⟩ := mdtMerge_ok (hin c (by simp)) (hin d (by simp)) h1
        omega
      · obtain ⟨-, h2, -⟩ := mdtMerge_ok (hin d (by simp)) (hin c (by simp)) h1
        omega

/-- The date/time refiner on a list whose first element is not merged with the next. -/
theorem mdt_keeps_first {text : Text} {r : PResult} {tl : List PResult} (hin : ∀ x ∈ r :: tl, Inside text x)
    (hso : SortedByIndex tl) (hp : ∀ x ∈ tl.head?, ¬ DateTimePair r x) :
    OkOrNotADate (fun out => ∃ tl', out = r :: tl' ∧ (∀ x ∈ tl', Inside text x) ∧ ∀ m ∈ tl'.head?, ∃ x ∈ tl.head?, m.index = x.index)
      (mdtRefine (r :: tl) text) := by
  match tl, hin, hso, hp with
  | [], _, _, _ => exact .ok ⟨[], rfl, by simp, by simp⟩
  | c :: rest, hin, hso, hp =>
    show OkOrNotADate _ (mdtLoop text c (r :: c :: rest))
    unfold mdtLoop
    rw [mdtStep_not_pair (hp c (by simp))]
    simp only [Out.bind_ok]
    have hin' : ∀ x ∈ c :: rest, Inside text x := fun x hx => hin x (List.mem_cons_of_mem _ hx)
    refine (mdtLoop_total text _ (c :: rest) c (Nat.le_refl _) (hin c (by simp)) hin').bind fun out ho hout => .ok ?_
    exact ⟨out, rfl, hout, fun m hm => ⟨c, by simp, mdtLoop_head hin' (List.pairwise_cons.1 hso).1 ho m hm⟩⟩

/-- The range refiner on a list whose first element is not joined with the next. -/
theorem mdr_keeps_first {text : Text} {r : PResult} {tl : List PResult} (hin : ∀ x ∈ r :: tl, Inside text x)
    (hj : ∀ m ∈ tl.head?, Before r m ∧ (r.hasEnd = true ∨ ¬ Joined text r m)) :
    OkOrNotADate (fun out => ∃ tl', out = r :: tl') (mdrRefine (r :: tl) text) := by
  match tl, hin, hj with
  | [], _, _ => exact .ok ⟨[], rfl⟩
  | c :: rest, hin, hj =>
    obtain ⟨hb, hj⟩ := hj c (by simp)
    show OkOrNotADate _ (mdrLoop text r (r :: c :: rest))
    unfold mdrLoop
    rw [mdrStep_unjoined (hin r (by simp)) (hin c (by simp)) hb (by tauto)]
    simp only [Out.bind_ok]
    exact (mdrLoop_total text _ (c :: rest) r (Nat.le_refl _) (hin r (by simp))
      (fun x hx => hin x (List.mem_cons_of_mem _ hx))).bind fun out _ _ => .ok ⟨out, rfl⟩

theorem _root_.Chrono.Props.OkOrNotADate.mono {α : Type} {P Q : α → Prop} {x : Out α} (h : OkOrNotADate P x) (hpq : ∀ a, P a → Q a) : OkOrNotADate Q x := by
  rcases h with ⟨a, ha, h⟩ | h
  · exact .inl ⟨a, ha, hpq a h⟩
  · exact .inr h

/-- The first of the results is printed as `d`. -/
def FirstIs (d : Text) (out : List PResult) : Prop := ∃ r tl, out = r :: tl ∧ r.toDate = .ok d

theorem firstIs {r : PResult} {d : Text} (h : r.toDate = .ok d) {out : List PResult} (ho : ∃ tl, out = r :: tl) : FirstIs d out := by
  obtain ⟨tl, rfl⟩ := ho
  exact ⟨r, tl, rfl, h⟩

theorem FirstIs.prints {d : Text} {out : List PResult} (h : FirstIs d out) : printResult out = .ok (foundLine ++ d) := by
  obtain ⟨r, tl, rfl, h⟩ := h
  simp [printResult, h, foundLine]

theorem prints_then {d : Text} {o : Out (List PResult)} (h : OkOrNotADate (FirstIs d) o) :
    OkOrNotADate (fun line => line = foundLine ++ d) (o >>= printResult) :=
  h.bind fun out _ ho => by rw [ho.prints]; exact .ok rfl

/-- The refiners after the overlaps are removed, on a list whose first element nothing is merged with. -/
theorem refine_first {text : Text} {r : PResult} {tl : List PResult} (hin : ∀ x ∈ r :: tl, Inside text x)
    (hso : SortedByIndex tl) (hz : NoZone text r) (hb : ∀ x ∈ tl.head?, Before r x ∧ ¬ DateTimePair r x ∧ (r.hasEnd = true ∨ ¬ Joined text r x))
    {d : Text} (hd : r.toDate = .ok d) :
    OkOrNotADate (FirstIs d) (afterOverlaps (r :: tl) text) := by
  unfold afterOverlaps
  obtain ⟨k1, k2, k3, k4, k5⟩ := tzOne_keeps text r
  obtain ⟨k5, k6, k7, k8⟩ := k5 hz
  have htot := tzRefine_total hin
  rw [tz_list] at htot ⊢
  obtain ⟨a, ha, hain, -⟩ | ⟨e, he, -⟩ := htot
  swap
  · cases he
  simp only [Out.ok.injEq] at ha
  subst ha
  simp only [Out.bind_ok, List.map_cons]
  rw [List.map_cons] at hain
  have hd' : (tzOne Ast.tzName text r).toDate = .ok d := by rw [toDate_congr (r := r) k6 k7 k2 k8, hd]
  have hst : stop (tzOne Ast.tzName text r) = stop r := by unfold stop PResult.textLength; rw [k1, k5]
  generalize tzOne Ast.tzName text r = r' at *
  have hso' : SortedByIndex (tl.map (tzOne Ast.tzName text)) := by
    unfold SortedByIndex at *
    rw [List.pairwise_map]
    exact hso.imp (fun {x y} h => by rw [(tzOne_keeps text x).1, (tzOne_keeps text y).1]; exact h)
  refine (mdt_keeps_first hain hso' ?_).bind fun out _ hout => ?_
  · intro x hx
    rw [List.head?_map, Option.mem_def, Option.map_eq_some_iff] at hx
    obtain ⟨y, hy, rfl⟩ := hx
    obtain ⟨-, -, j3, j4, -⟩ := tzOne_keeps text y
    unfold DateTimePair
    rw [j3, j4, k3, k4]
    exact (hb y hy).2.1
  · obtain ⟨tl', rfl, hin', hh⟩ := hout
    refine (mdr_keeps_first (r := r') (tl := tl') (fun x hx => ?_) (fun m hm => ?_)).mono fun out hout => firstIs hd' hout
    · rcases List.mem_cons.1 hx with rfl | hx
      · exact hain x (by simp)
      · exact hin' x hx
    · obtain ⟨x, hx, e⟩ := hh m hm
      rw [List.head?_map, Option.mem_def, Option.map_eq_some_iff] at hx
      obtain ⟨y, hy, rfl⟩ := hx
      rw [(tzOne_keeps text y).1] at e
      obtain ⟨b1, -, b3⟩ := hb y hy
      unfold Before Joined at *
      rw [hst, e, k2]
      exact ⟨b1, b3⟩

/-- No kept mention stands before the first of those left. -/
theorem not_parted {l : List PResult} {rt : Rt} {ref : PTime} {text : Text} (hso : SortedByIndex l) (hne : ∀ x ∈ l, NonEmpty x)
    (hmem : ∀ x, x ∈ l ↔ Mention rt ref text x) {r x : PResult} {tl pre : List PResult} (e : overlapRefine l = pre ++ r :: tl) (hx : x ∈ tl.head?) :
    ¬ Parted rt ref text r x := by
  rintro ⟨z, ⟨hz, hk⟩, h1, h2⟩
  have hzl := (hmem z).2 hz
  have nz := hne z hzl
  have kz := c43_locally_longest_survives l hso z hzl nz (fun y hy => hk y ((hmem y).1 hy))
  obtain ⟨hsub, hpw⟩ := c42_sublist_and_disjoint l hso
  have hl : ∀ y ∈ pre ++ r :: tl, NonEmpty y := fun y hy => hne y (hsub.mem (by rw [e]; exact hy))
  rw [e] at kz hpw
  obtain ⟨-, hp2, hp3⟩ := List.pairwise_append.1 hpw
  have hr := hl r (by simp)
  rcases List.mem_append.1 kz with h | h
  · have := hp3 z h r (by simp)
    unfold Before stop NonEmpty at *; omega
  rcases List.mem_cons.1 h with rfl | h
  · unfold Before stop NonEmpty at *; omega
  match tl, hx, h, hp2 with
  | y :: rest, hx, h, hp2 =>
    simp only [List.head?_cons, Option.mem_def, Option.some.injEq] at hx
    subst hx
    have nx := hl y (by simp)
    rcases List.mem_cons.1 h with rfl | h
    · unfold Before stop NonEmpty at *; omega
    · have := (List.pairwise_cons.1 (List.pairwise_cons.1 hp2).2).1 z h
      unfold Before stop NonEmpty at *; omega

/-- The refined mentions of the text: `o`; the program prints the first of them. -/
def Refined (rt : Rt) (sort : List PResult → List PResult) (text : Text) (ref : PTime) (o : Out (List PResult)) : Prop :=
  mainRun rt sort text ref = (o >>= printResult) ∧
  ((∀ x, Mention rt ref text x → ∃ t : DateTime, t.Valid ∧ Reads x.startDate t) →
    (∀ x y, Mention rt ref text x → Mention rt ref text y → Before x y → ¬ DateTimePair x y) → ∃ out, o = .ok out)

theorem Refined.prints {rt : Rt} {sort : List PResult → List PResult} {text : Text} {ref : PTime} {o : Out (List PResult)}
    (h : Refined rt sort text ref o) {d : Text} (hd : OkOrNotADate (FirstIs d) o) :
    OkOrNotADate (fun line => line = foundLine ++ d) (mainRun rt sort text ref) := by
  rw [h.1]; exact prints_then hd

theorem Refined.prints_dates {rt : Rt} {sort : List PResult → List PResult} {text : Text} {ref : PTime} {o : Out (List PResult)}
    (h : Refined rt sort text ref o) {d : Text} (hd : OkOrNotADate (FirstIs d) o)
    (h1 : ∀ x, Mention rt ref text x → ∃ t : DateTime, t.Valid ∧ Reads x.startDate t)
    (h2 : ∀ x y, Mention rt ref text x → Mention rt ref text y → Before x y → ¬ DateTimePair x y) :
    mainRun rt sort text ref = .ok (foundLine ++ d) := by
  obtain ⟨out, ho⟩ := h.2 h1 h2
  rw [h.1]
  rw [ho] at hd ⊢
  rcases hd with ⟨a, ha, hf⟩ | ⟨e, he, -⟩
  · simp only [Out.ok.injEq] at ha
    subst ha
    rw [Out.bind_ok, hf.prints]
  · cases he

theorem first_refined {rt : Rt} (hrt : Rt.Defined rt) {sort : List PResult → List PResult} (hs : Sorts sort)
    {text : Text} (hlen : text.length < 4294967296) {ref : PTime} (hret : AllReturn rt ref text) {r : PResult}
    (hr : Mention rt ref text r) (hz : NoZone (toLower text) r)
    (hall : ∀ x, Mention rt ref text x → x = r ∨ Hidden r x ∨
      (Before r x ∧ (¬ DateTimePair r x ∧ (r.hasEnd = true ∨ ¬ Joined (toLower text) r x) ∨ Parted rt ref text r x)))
    {d : Text} (hd : r.toDate = .ok d) :
    ∃ o, Refined rt sort text ref o ∧ OkOrNotADate (FirstIs d) o := by
  obtain ⟨l, hso, hmem, hne, hrun, hdates⟩ := run_mentions hrt hs hlen hret
  obtain ⟨tl, e, htl, hpw⟩ := overlap_first hso ((hmem r).2 hr) (fun x hx => (hne x hx).1) (fun x hx => by
    rcases hall x ((hmem x).1 hx) with h | h | h
    · exact .inl h
    · exact .inr (.inl h)
    · exact .inr (.inr h.1))
  refine ⟨_, ⟨hrun, hdates⟩, ?_⟩
  rw [e]
  refine refine_first (fun x hx => ?_) (hpw.imp (fun {x y} h => by unfold Before stop at h; omega)) hz (fun x hx => ?_) hd
  · rcases List.mem_cons.1 hx with rfl | hx
    · exact (hne x ((hmem x).2 hr)).2
    · exact (hne x (htl x hx).1).2
  · have hnr := (hne r ((hmem r).2 hr)).1
    have hx' := hx
    have hx := List.mem_of_mem_head? hx
    have hb := (htl x hx).2
    rcases hall x ((hmem x).1 (htl x hx).1) with rfl | ⟨h, -⟩ | ⟨-, h | h⟩
    · exact absurd hb (by unfold Before stop NonEmpty at *; omega)
    · exact absurd hb (by unfold Before Overlap at *; omega)
    · exact ⟨hb, h⟩
    · exact absurd h (not_parted (pre := []) hso (fun x hx => (hne x hx).1) hmem e hx')

/-- **C95.** Whatever mentions a text has: the first of them, if it is longer than those it shares a character with, is
not merged with a later one and has no time zone after it, is what the program prints - or the program ends with one of
Boost's "not a date" exceptions (thrown for some later mention that is no calendar date). -/
theorem c95_first_mention_is_printed {rt : Rt} (hrt : Rt.Defined rt) {sort : List PResult → List PResult} (hs : Sorts sort)
    {text : Text} (hlen : text.length < 4294967296) {ref : PTime} (hret : AllReturn rt ref text) {r : PResult}
    (hr : Mention rt ref text r) (hz : NoZone (toLower text) r)
    (hall : ∀ x, Mention rt ref text x → x = r ∨ Hidden r x ∨
      (Before r x ∧ (¬ DateTimePair r x ∧ (r.hasEnd = true ∨ ¬ Joined (toLower text) r x) ∨ Parted rt ref text r x)))
    {d : Text} (hd : r.toDate = .ok d) :
    OkOrNotADate (fun line => line = foundLine ++ d) (mainRun rt sort text ref) := by
  obtain ⟨o, h1, h2⟩ := first_refined hrt hs hlen hret hr hz hall hd
  exact h1.prints h2

/-- **C95 (dates only).** If every mention is a calendar date and time, and no two are a date and a time that are merged, the
program throws nothing. -/
theorem c95_first_of_dates_is_printed {rt : Rt} (hrt : Rt.Defined rt) {sort : List PResult → List PResult} (hs : Sorts sort)
    {text : Text} (hlen : text.length < 4294967296) {ref : PTime} (hret : AllReturn rt ref text) {r : PResult}
    (hr : Mention rt ref text r) (hz : NoZone (toLower text) r)
    (hall : ∀ x, Mention rt ref text x → x = r ∨ Hidden r x ∨
      (Before r x ∧ (¬ DateTimePair r x ∧ (r.hasEnd = true ∨ ¬ Joined (toLower text) r x) ∨ Parted rt ref text r x)))
    {d : Text} (hd : r.toDate = .ok d)
    (hdates : ∀ x, Mention rt ref text x → ∃ t : DateTime, t.Valid ∧ Reads x.startDate t)
    (hpairs : ∀ x y, Mention rt ref text x → Mention rt ref text y → Before x y → ¬ DateTimePair x y) :
    mainRun rt sort text ref = .ok (foundLine ++ d) := by
  obtain ⟨o, h1, h2⟩ := first_refined hrt hs hlen hret hr hz hall hd
  exact h1.prints_dates h2 hdates hpairs

/-! ## The first two mentions -/

/-- What the time-zone refiner makes of a mention no zone follows. -/
theorem tz_same {text : Text} {r : PResult} (hz : NoZone text r) : ∃ r', tzOne Ast.tzName text r = r' ∧ r'.index = r.index ∧
    r'.text = r.text ∧ r'.startDate = r.startDate ∧ r'.hasEnd = r.hasEnd ∧ r'.endDate = r.endDate ∧ (∀ t, r'.getTag t = r.getTag t) ∧
    stop r' = stop r := by
  obtain ⟨k1, k2, -, -, k5⟩ := tzOne_keeps text r
  obtain ⟨k5, k6, k7, k8⟩ := k5 hz
  exact ⟨_, rfl, k1, k5, k6, k2, k7, k8, by unfold stop PResult.textLength; rw [k1, k5]⟩

theorem pair_same {r r' s s' : PResult} (hr : r'.startDate = r.startDate) (hs : s'.startDate = s.startDate) :
    DateTimePair r' s' ↔ DateTimePair r s := by
  unfold DateTimePair DateOnly TimeOnly; rw [hr, hs]

/-- Two mentions that the range refiner joins. -/
theorem mdrStep_joined {text : Text} {a b : PResult} (ha : Inside text a) (hb : Inside text b) (hab : Before a b)
    (hna : NonEmpty a) (ea : a.hasEnd = false) (eb : b.hasEnd = false) (hj : Joined text a b) {t u : DateTime} (ht : t.Valid) (hu : u.Valid)
    (hra : Reads a.startDate t) (hrb : Reads b.startDate u) :
    ∃ m, mdrStep text a b = .ok (some m) ∧ m.hasEnd = true ∧ Reads m.startDate t ∧ Reads m.endDate (if instant t ≤ instant u then u else t) ∧
      (∀ tag, m.getTag tag = true → tag = .mergeDateRange ∨ a.getTag tag = true ∨ b.getTag tag = true) := by
  obtain ⟨m, hm, -, m2, m3, m4, m5, -, m6⟩ := c69_joined_dates_become_a_range text a b ha hb hab hna ea eb hj t u ht hu hra hrb
  refine ⟨m, ?_, m2, m3, ?_, m6⟩
  · change mdrLoop text a [a, b] = _ at hm
    unfold mdrLoop at hm
    obtain ⟨o, ho, h⟩ := Out.bind_eq_ok.1 hm
    cases o with
    | none =>
      simp only at h
      obtain ⟨tl, -, h⟩ := Out.bind_eq_ok.1 h
      simp at h
      rw [h.1, m2] at ea; cases ea
    | some m' =>
      simp only at h
      obtain ⟨tl, -, h⟩ := Out.bind_eq_ok.1 h
      simp at h
      rw [ho, h.1]
  · by_cases h : instant t ≤ instant u
    · rw [if_pos h]; exact m4 h
    · rw [if_neg h]; exact m5 (by omega)

theorem refine_joined {text : Text} {r s : PResult} {tl : List PResult} (hin : ∀ x ∈ r :: s :: tl, Inside text x)
    (hnr : NonEmpty r) (hns : NonEmpty s) (hrs : Before r s) (hz : NoZone text r) (hz' : NoZone text s) (hp : ¬ DateTimePair r s)
    (hp' : ∀ x ∈ tl.head?, ¬ DateTimePair s x) (er : r.hasEnd = false) (es : s.hasEnd = false) (hj : Joined text r s)
    (hxr : r.getTag .extractTZ = false) (hxs : s.getTag .extractTZ = false)
    {t u : DateTime} (ht : t.Valid) (hu : u.Valid) (hrr : Reads r.startDate t) (hrb : Reads s.startDate u) :
    OkOrNotADate (FirstIs (t.format ++ txt!" - " ++ (if instant t ≤ instant u then u else t).format)) (afterOverlaps (r :: s :: tl) text) := by
  unfold afterOverlaps
  have htot := tzRefine_total hin
  rw [tz_list] at htot ⊢
  obtain ⟨a, ha, hain, -⟩ | ⟨e, he, -⟩ := htot
  swap
  · cases he
  simp only [Out.ok.injEq] at ha
  subst ha
  simp only [Out.bind_ok, List.map_cons]
  rw [List.map_cons, List.map_cons] at hain
  obtain ⟨r', e1, a1, a2, a3, a4, a5, a6, a7⟩ := tz_same hz
  obtain ⟨s', e2, b1, b2, b3, b4, b5, b6, b7⟩ := tz_same hz'
  rw [e1, e2] at hain ⊢
  have hns' : s'.isEmpty = false := nonEmpty_not_isEmpty (by unfold NonEmpty PResult.textLength at *; rw [b2]; exact hns)
  obtain ⟨m, hm, m2, m3, m4, m5⟩ := mdrStep_joined (a := r') (b := s') (hain r' (by simp)) (hain s' (by simp))
    (by unfold Before at *; rw [a7, b1]; exact hrs) (by unfold NonEmpty PResult.textLength at *; rw [a2]; exact hnr)
    (a4.trans er) (b4.trans es) (by unfold Joined at *; rw [a7, b1]; exact hj) ht hu (by rw [a3]; exact hrr) (by rw [b3]; exact hrb)
  have hmdt : OkOrNotADate (fun out => ∃ tl', out = r' :: s' :: tl' ∧ ∀ x ∈ tl', Inside text x)
      (mdtRefine (r' :: s' :: tl.map (tzOne Ast.tzName text)) text) := by
    change OkOrNotADate _ (mdtLoop text s' (r' :: s' :: tl.map (tzOne Ast.tzName text)))
    unfold mdtLoop
    rw [mdtStep_not_pair (by rw [pair_same a3 b3]; exact hp)]
    simp only [Out.bind_ok]
    cases tl with
    | nil =>
      simp only [List.map_nil]
      unfold mdtLoop
      rw [hns']
      exact .ok ⟨[], rfl, by simp⟩
    | cons c rest =>
      simp only [List.map_cons]
      unfold mdtLoop
      rw [mdtStep_not_pair (by rw [pair_tz b3]; exact hp' c (by simp))]
      simp only [Out.bind_ok]
      have : OkOrNotADate (fun out => ∃ tl', out = s' :: tl' ∧ ∀ x ∈ tl', Inside text x)
          (do let tl ← mdtLoop text (tzOne Ast.tzName text c) (tzOne Ast.tzName text c :: rest.map (tzOne Ast.tzName text)); return s' :: tl) :=
        (mdtLoop_total text _ _ _ (Nat.le_refl _) (hain _ (by simp)) (fun x hx => hain x (by
          rw [List.map_cons]; exact List.mem_cons_of_mem _ (List.mem_cons_of_mem _ hx)))).bind fun out _ hout => .ok ⟨out, rfl, hout⟩
      exact this.bind fun out _ ⟨tl', h, hh⟩ => .ok ⟨tl', by rw [h], hh⟩
  refine hmdt.bind fun out _ ⟨tl', hout, hin'⟩ => ?_
  subst hout
  change OkOrNotADate _ (mdrLoop text r' (r' :: s' :: tl'))
  unfold mdrLoop
  rw [hm]
  simp only [Out.bind_ok]
  have him : Inside text m := by
    rcases mdrStep_total (hain r' (by simp)) (hain s' (by simp)) with ⟨o, ho, hi⟩ | ⟨e, he, -⟩
    · rw [hm] at ho; simp only [Out.ok.injEq] at ho; exact hi m ho.symm
    · rw [hm] at he; cases he
  have hloop : OkOrNotADate (fun out => ∃ tl, out = m :: tl) (do let tl ← mdrLoop text m tl'; return m :: tl) :=
    (mdrLoop_total text _ tl' m (Nat.le_refl _) him hin').bind fun out _ _ => .ok ⟨out, rfl⟩
  have hx : m.getTag .extractTZ = false := by
    cases h : m.getTag .extractTZ with
    | false => rfl
    | true =>
      rcases m5 _ h with h | h | h
      · cases h
      · rw [a6, hxr] at h; cases h
      · rw [b6, hxs] at h; cases h
  have hv : (if instant t ≤ instant u then u else t).Valid := by split <;> assumption
  have hprint := c08_toDate_prints_range m t _ ht m3 hv m4 m2 hx
  exact hloop.mono fun out hout => firstIs hprint hout

theorem joined_refined {rt : Rt} (hrt : Rt.Defined rt) {sort : List PResult → List PResult} (hs : Sorts sort)
    {text : Text} (hlen : text.length < 4294967296) {ref : PTime} (hret : AllReturn rt ref text) {r s : PResult}
    (hr : Mention rt ref text r) (hs' : Mention rt ref text s) (hrs : Before r s)
    (hz : NoZone (toLower text) r) (hz' : NoZone (toLower text) s) (hp : ¬ DateTimePair r s)
    (er : r.hasEnd = false) (es : s.hasEnd = false) (hj : Joined (toLower text) r s)
    (hxr : r.getTag .extractTZ = false) (hxs : s.getTag .extractTZ = false)
    (hall : ∀ x, Mention rt ref text x → x = r ∨ x = s ∨
      ((Overlap x r ∨ Overlap x s) ∧ (Overlap x r → x.textLength < r.textLength) ∧ (Overlap x s → x.textLength < s.textLength)) ∨
      (Before s x ∧ (¬ DateTimePair s x ∨ Parted rt ref text s x)))
    {t u : DateTime} (ht : t.Valid) (hu : u.Valid) (hrr : Reads r.startDate t) (hrb : Reads s.startDate u) :
    ∃ o, Refined rt sort text ref o ∧ OkOrNotADate (FirstIs (t.format ++ txt!" - " ++ (if instant t ≤ instant u then u else t).format)) o := by
  obtain ⟨l, hso, hmem, hne, hrun, hdates⟩ := run_mentions hrt hs hlen hret
  have mr := hne r ((hmem r).2 hr)
  have ms := hne s ((hmem s).2 hs')
  obtain ⟨tl, e, htl, hpw⟩ := overlap_first_two hso ((hmem r).2 hr) ((hmem s).2 hs') (fun x hx => (hne x hx).1) hrs (fun x hx => by
    rcases hall x ((hmem x).1 hx) with h | h | h | h
    · exact .inl h
    · exact .inr (.inl h)
    · exact .inr (.inr (.inl h))
    · exact .inr (.inr (.inr h.1)))
  refine ⟨_, ⟨hrun, hdates⟩, ?_⟩
  rw [e]
  refine refine_joined (fun x hx => ?_) mr.1 ms.1 hrs hz hz' hp (fun x hx => ?_) er es hj hxr hxs ht hu hrr hrb
  · rcases List.mem_cons.1 hx with rfl | hx
    · exact mr.2
    rcases List.mem_cons.1 hx with rfl | hx
    · exact ms.2
    · exact (hne x (htl x hx).1).2
  · have hx' := hx
    have hx := List.mem_of_mem_head? hx
    have hb := (htl x hx).2
    have nr := mr.1
    have ns := ms.1
    have nx := (hne x (htl x hx).1).1
    rcases hall x ((hmem x).1 (htl x hx).1) with rfl | rfl | ⟨h | h, -⟩ | ⟨-, h | h⟩
    · exact absurd hb (by unfold Before stop NonEmpty at *; omega)
    · exact absurd hb (by unfold Before stop NonEmpty at *; omega)
    · exact absurd hb (by unfold Before Overlap stop NonEmpty at *; omega)
    · exact absurd hb (by unfold Before Overlap at *; omega)
    · exact h
    · exact absurd h (not_parted (pre := [r]) hso (fun x hx => (hne x hx).1) hmem e hx')

/-- **C96.** The first two mentions, if they are dates without an end joined by a range word, are printed as the range from
the first to the second (to the first, if the second is earlier), whatever is found after them. -/
theorem c96_first_two_joined_are_printed {rt : Rt} (hrt : Rt.Defined rt) {sort : List PResult → List PResult} (hs : Sorts sort)
    {text : Text} (hlen : text.length < 4294967296) {ref : PTime} (hret : AllReturn rt ref text) {r s : PResult}
    (hr : Mention rt ref text r) (hs' : Mention rt ref text s) (hrs : Before r s)
    (hz : NoZone (toLower text) r) (hz' : NoZone (toLower text) s) (hp : ¬ DateTimePair r s)
    (er : r.hasEnd = false) (es : s.hasEnd = false) (hj : Joined (toLower text) r s)
    (hxr : r.getTag .extractTZ = false) (hxs : s.getTag .extractTZ = false)
    (hall : ∀ x, Mention rt ref text x → x = r ∨ x = s ∨
      ((Overlap x r ∨ Overlap x s) ∧ (Overlap x r → x.textLength < r.textLength) ∧ (Overlap x s → x.textLength < s.textLength)) ∨
      (Before s x ∧ (¬ DateTimePair s x ∨ Parted rt ref text s x)))
    {t u : DateTime} (ht : t.Valid) (hu : u.Valid) (hrr : Reads r.startDate t) (hrb : Reads s.startDate u) :
    OkOrNotADate (fun line => line = foundLine ++ t.format ++ txt!" - " ++ (if instant t ≤ instant u then u else t).format)
      (mainRun rt sort text ref) := by
  obtain ⟨o, h1, h2⟩ := joined_refined hrt hs hlen hret hr hs' hrs hz hz' hp er es hj hxr hxs hall ht hu hrr hrb
  simpa only [List.append_assoc] using h1.prints h2

/-- **C96 (dates only).** If every mention is a calendar date and time, and no two are a date and a time that are merged, the
program throws nothing. -/
theorem c96_first_two_of_dates_are_printed {rt : Rt} (hrt : Rt.Defined rt) {sort : List PResult → List PResult} (hs : Sorts sort)
    {text : Text} (hlen : text.length < 4294967296) {ref : PTime} (hret : AllReturn rt ref text) {r s : PResult}
    (hr : Mention rt ref text r) (hs' : Mention rt ref text s) (hrs : Before r s)
    (hz : NoZone (toLower text) r) (hz' : NoZone (toLower text) s) (hp : ¬ DateTimePair r s)
    (er : r.hasEnd = false) (es : s.hasEnd = false) (hj : Joined (toLower text) r s)
    (hxr : r.getTag .extractTZ = false) (hxs : s.getTag .extractTZ = false)
    (hall : ∀ x, Mention rt ref text x → x = r ∨ x = s ∨
      ((Overlap x r ∨ Overlap x s) ∧ (Overlap x r → x.textLength < r.textLength) ∧ (Overlap x s → x.textLength < s.textLength)) ∨
      (Before s x ∧ (¬ DateTimePair s x ∨ Parted rt ref text s x)))
    {t u : DateTime} (ht : t.Valid) (hu : u.Valid) (hrr : Reads r.startDate t) (hrb : Reads s.startDate u)
    (hdates : ∀ x, Mention rt ref text x → ∃ t : DateTime, t.Valid ∧ Reads x.startDate t)
    (hpairs : ∀ x y, Mention rt ref text x → Mention rt ref text y → Before x y → ¬ DateTimePair x y) :
    mainRun rt sort text ref = .ok (foundLine ++ t.format ++ txt!" - " ++ (if instant t ≤ instant u then u else t).format) := by
  obtain ⟨o, h1, h2⟩ := joined_refined hrt hs hlen hret hr hs' hrs hz hz' hp er es hj hxr hxs hall ht hu hrr hrb
  simpa only [List.append_assoc] using h1.prints_dates h2 hdates hpairs

/-! ## A date and a time first -/

/-- A date and a time, in either order: what the date/time refiner makes of them. -/
theorem mdtStep_date_time {text : Text} {a b : PResult} (hna : NonEmpty a) (hia : Inside text a) (hib : Inside text b) (hab : Before a b)
    (hxa : a.getTag .extractTZ = false) (hxb : b.getTag .extractTZ = false) (hea : a.hasEnd = false) (heb : b.hasEnd = false)
    {d t : PResult} (hdt : d = a ∧ t = b ∨ d = b ∧ t = a ∧ (isDateOnly t && isTimeOnly d) = false) (hd : NoTime d.startDate) (ht : isTimeOnly t = true)
    {y mo da h mi s : Nat} (hdate : DateIs d.startDate (y, mo, da)) (htime : TimeIs t.startDate h mi s) :
    ∃ m, mdtStep text a b = .ok (some m) ∧ m.index = a.index ∧ stop m = max (stop a) (stop b) ∧ m.hasEnd = false ∧
      m.getTag .extractTZ = false ∧ Reads m.startDate ⟨y, mo, da, h, mi, s⟩ ∧ Inside text m := by
  obtain ⟨e1, e2, e3, e4, e5, e6⟩ : Inside text d ∧ Inside text t ∧ d.hasEnd = false ∧ t.hasEnd = false ∧ d.getTag .extractTZ = false ∧
      t.getTag .extractTZ = false := by
    rcases hdt with ⟨rfl, rfl⟩ | ⟨rfl, rfl, -⟩ <;> exact ⟨by assumption, by assumption, by assumption, by assumption, by assumption, by assumption⟩
  obtain ⟨m, hm, -⟩ := mdtMerge_end (text := text) (d := d) (t := t) e1 (e? := none) (by unfold mergedEnd; rw [e3, e4]; rfl)
  obtain ⟨m1, m2, m3, m4, -⟩ := mdtMerge_ok e1 e2 hm
  have mtag := mdtMerge_tags hm
  have hD : isDateOnly d = true := by
    unfold isDateOnly; unfold NoTime at hd; rw [hd.1]; rfl
  have hable : mdtAble text a b = .ok true := by rw [mdtAble_eq, if_pos hia.1]
  refine ⟨m, ?_, ?_, ?_, by rw [m4, e3, e4]; rfl, ?_, ?_, ?_⟩
  · unfold mdtStep
    rcases hdt with ⟨rfl, rfl⟩ | ⟨rfl, rfl, hn⟩
    · simp [hD, ht, hable, hm]
    · simp [hD, ht, hn, hable, hm]
  · unfold Before stop at hab
    rw [m2]
    rcases hdt with ⟨rfl, rfl⟩ | ⟨rfl, rfl, -⟩ <;> omega
  · rw [m3]
    rcases hdt with ⟨rfl, rfl⟩ | ⟨rfl, rfl, -⟩ <;> omega
  · cases h : m.getTag .extractTZ with
    | false => rfl
    | true =>
      rcases mtag _ h with h | h | h
      · cases h
      · rw [e5] at h; cases h
      · rw [e6] at h; cases h
  · obtain ⟨g1, g2, g3⟩ := hd
    obtain ⟨k1, k2, k3, k4⟩ := mergeComponent_get d.startDate t.startDate g1 g2 g3
    obtain ⟨x1, x2, x3⟩ := hdate
    obtain ⟨t1, t2, t3⟩ := htime
    rw [m1]
    exact ⟨(k1 _ (by decide) (by decide) (by decide)).trans x1, (k1 _ (by decide) (by decide) (by decide)).trans x2,
      (k1 _ (by decide) (by decide) (by decide)).trans x3, k2.trans t1, k3.trans t2, k4.trans t3⟩
  · unfold Inside at *
    rcases hdt with ⟨rfl, rfl⟩ | ⟨rfl, rfl, -⟩ <;> exact ⟨by omega, by omega⟩

theorem refine_date_time {text : Text} {a b : PResult} {tl : List PResult} (hin : ∀ x ∈ a :: b :: tl, Inside text x)
    (hna : NonEmpty a) (hnb : NonEmpty b) (hab : Before a b) (hso : SortedByIndex tl)
    (hza : NoZone text a) (hzb : NoZone text b)
    (htl : ∀ x ∈ tl.head?, Before b x ∧ ¬ Joined text b x) (hend : tl = [] → ∀ w ∈ rangeWords, ¬ w <:+: text.drop (stop b))
    (hxa : a.getTag .extractTZ = false) (hxb : b.getTag .extractTZ = false) (hea : a.hasEnd = false) (heb : b.hasEnd = false)
    {d t : PResult} (hdt : d = a ∧ t = b ∨ d = b ∧ t = a ∧ (isDateOnly t && isTimeOnly d) = false) (hd : NoTime d.startDate) (ht : isTimeOnly t = true)
    {y mo da h mi s : Nat} (hdate : DateIs d.startDate (y, mo, da)) (htime : TimeIs t.startDate h mi s)
    (hv : (DateTime.mk y mo da h mi s).Valid) :
    OkOrNotADate (FirstIs (DateTime.mk y mo da h mi s).format) (afterOverlaps (a :: b :: tl) text) := by
  unfold afterOverlaps
  have htot := tzRefine_total hin
  rw [tz_list] at htot ⊢
  obtain ⟨l, hl, hain, -⟩ | ⟨e, he, -⟩ := htot
  swap
  · cases he
  simp only [Out.ok.injEq] at hl
  subst hl
  simp only [Out.bind_ok, List.map_cons]
  rw [List.map_cons, List.map_cons] at hain
  obtain ⟨a', e1, a1, a2, a3, a4, a5, a6, a7⟩ := tz_same hza
  obtain ⟨b', e2, b1, b2, b3, b4, b5, b6, b7⟩ := tz_same hzb
  rw [e1, e2] at hain ⊢
  have hnb' : NonEmpty b' := by unfold NonEmpty PResult.textLength at *; rw [b2]; exact hnb
  have hab' : Before a' b' := by unfold Before at *; rw [a7, b1]; exact hab
  obtain ⟨D, T, hDT, hD1, hT1⟩ : ∃ D T, (D = a' ∧ T = b' ∨ D = b' ∧ T = a' ∧ (isDateOnly T && isTimeOnly D) = false) ∧ D.startDate = d.startDate ∧ T.startDate = t.startDate := by
    rcases hdt with ⟨rfl, rfl⟩ | ⟨rfl, rfl, hn⟩
    · exact ⟨a', b', .inl ⟨rfl, rfl⟩, a3, b3⟩
    · exact ⟨b', a', .inr ⟨rfl, rfl, by unfold isDateOnly isTimeOnly at *; rw [a3, b3]; exact hn⟩, b3, a3⟩
  obtain ⟨m, hm, m1, m2, m3, m4, m5, m6⟩ := mdtStep_date_time (text := text) (a := a') (b := b')
    (by unfold NonEmpty PResult.textLength at *; rw [a2]; exact hna) (hain a' (by simp)) (hain b' (by simp)) hab'
    ((a6 _).trans hxa) ((b6 _).trans hxb) (a4.trans hea) (b4.trans heb) hDT (by rw [hD1]; exact hd)
    (by unfold isTimeOnly at *; rw [hT1]; exact ht) (y := y) (mo := mo) (da := da) (h := h) (mi := mi) (s := s)
    (by rw [hD1]; exact hdate) (by rw [hT1]; exact htime)
  have hbs : b'.index < stop b' := by unfold stop NonEmpty at *; omega
  have hms : stop m = stop b := by rw [m2, ← b7]; unfold Before at hab'; omega
  have hnm : NonEmpty m := by
    unfold Before at hab'
    have : a'.index ≤ stop a' := by unfold stop; omega
    have h1 : m.index < stop m := by omega
    unfold stop at h1; unfold NonEmpty; omega
  have hprint := c08_toDate_prints_start m _ hv m5 m3 m4
  have hmdt : OkOrNotADate (fun out => ∃ tl', out = m :: tl' ∧ (∀ x ∈ tl', Inside text x) ∧ (tl = [] → tl' = [b']) ∧
      ∀ q ∈ tl'.head?, tl ≠ [] → ∃ x ∈ tl.head?, q.index = x.index) (mdtRefine (a' :: b' :: tl.map (tzOne Ast.tzName text)) text) := by
    change OkOrNotADate _ (mdtLoop text b' (a' :: b' :: tl.map (tzOne Ast.tzName text)))
    unfold mdtLoop
    rw [hm]
    simp only [Out.bind_ok]
    cases tl with
    | nil =>
      simp only [List.map_nil, List.headD_nil]
      unfold mdtLoop
      rw [nonEmpty_not_isEmpty hnb']
      refine .ok ⟨[b'], rfl, ?_, fun _ => rfl, fun _ _ h => absurd rfl h⟩
      intro x hx
      simp only [List.mem_cons, List.not_mem_nil, or_false] at hx
      subst hx
      exact hain _ (by simp)
    | cons c rest =>
      simp only [List.map_cons, List.headD_cons]
      have hin' : ∀ x ∈ tzOne Ast.tzName text c :: rest.map (tzOne Ast.tzName text), Inside text x := fun x hx => hain x (by
          rw [List.map_cons]; exact List.mem_cons_of_mem _ (List.mem_cons_of_mem _ hx))
      refine (mdtLoop_total text _ _ _ (Nat.le_refl _) (hin' _ (by simp)) hin').bind fun out ho hout => .ok ?_
      refine ⟨out, rfl, hout, (by rintro ⟨⟩), fun q hq _ => ⟨c, by simp, ?_⟩⟩
      rw [mdtLoop_head hin' ?_ ho q hq, (tzOne_keeps text c).1]
      intro x hx
      obtain ⟨z, hz, rfl⟩ := List.mem_map.1 hx
      rw [(tzOne_keeps text c).1, (tzOne_keeps text z).1]
      exact (List.pairwise_cons.1 hso).1 z hz
  refine hmdt.bind fun out _ ⟨tl', hout, hin', hnil, hhead⟩ => ?_
  subst hout
  cases tl with
  | nil =>
    rw [hnil rfl, mdr_covered hnm m6 (by rw [hms, b7]) (by rw [b7]; exact hend rfl)]
    exact .ok (firstIs hprint ⟨_, rfl⟩)
  | cons c rest =>
    refine (mdr_keeps_first (fun x hx => ?_) (fun q hq => ?_)).mono fun out hout => firstIs hprint hout
    · rcases List.mem_cons.1 hx with rfl | hx
      · exact m6
      · exact hin' x hx
    · obtain ⟨x, hx, e⟩ := hhead q hq (by simp)
      obtain ⟨h1, h2⟩ := htl x hx
      unfold Before Joined at *
      rw [hms, e]
      exact ⟨h1, .inr h2⟩

/-- What the refiners after the overlaps get, and make of it. -/
theorem date_time_refined {rt : Rt} (hrt : Rt.Defined rt) {sort : List PResult → List PResult} (hs : Sorts sort)
    {text : Text} (hlen : text.length < 4294967296) {ref : PTime} (hret : AllReturn rt ref text) {a b : PResult}
    (ha : Mention rt ref text a) (hb : Mention rt ref text b) (hab : Before a b)
    (hza : NoZone (toLower text) a) (hzb : NoZone (toLower text) b)
    (hxa : a.getTag .extractTZ = false) (hxb : b.getTag .extractTZ = false) (hea : a.hasEnd = false) (heb : b.hasEnd = false)
    (hall : ∀ x, Mention rt ref text x → x = a ∨ x = b ∨
      ((Overlap x a ∨ Overlap x b) ∧ (Overlap x a → x.textLength < a.textLength) ∧ (Overlap x b → x.textLength < b.textLength)) ∨
      (Before b x ∧ (¬ Joined (toLower text) b x ∨ Parted rt ref text b x)))
    (hend : (∃ x, Mention rt ref text x ∧ Before b x) ∨ ∀ w ∈ rangeWords, ¬ w <:+: (toLower text).drop (stop b))
    {d t : PResult} (hdt : d = a ∧ t = b ∨ d = b ∧ t = a ∧ (isDateOnly t && isTimeOnly d) = false) (hd : NoTime d.startDate) (ht : isTimeOnly t = true)
    {y mo da h mi s : Nat} (hdate : DateIs d.startDate (y, mo, da)) (htime : TimeIs t.startDate h mi s)
    (hv : (DateTime.mk y mo da h mi s).Valid) :
    ∃ k, mainRun rt sort text ref = (afterOverlaps k (toLower text) >>= printResult) ∧ (∀ x ∈ k, Mention rt ref text x ∧ NonEmpty x ∧ Inside (toLower text) x) ∧ k.Pairwise Before ∧
      OkOrNotADate (FirstIs (DateTime.mk y mo da h mi s).format) (afterOverlaps k (toLower text)) := by
  obtain ⟨l, hso, hmem, hne, hrun, -⟩ := run_mentions hrt hs hlen hret
  have ma := hne a ((hmem a).2 ha)
  have mb := hne b ((hmem b).2 hb)
  obtain ⟨tl, e, htl, hpw⟩ := overlap_first_two hso ((hmem a).2 ha) ((hmem b).2 hb) (fun x hx => (hne x hx).1) hab (fun x hx => by
    rcases hall x ((hmem x).1 hx) with h | h | h | h
    · exact .inl h
    · exact .inr (.inl h)
    · exact .inr (.inr (.inl h))
    · exact .inr (.inr (.inr h.1)))
  obtain ⟨hsub, hpw'⟩ := c42_sublist_and_disjoint _ hso
  refine ⟨_, hrun, fun x hx => ⟨(hmem x).1 (hsub.mem hx), hne x (hsub.mem hx)⟩, hpw', ?_⟩
  have hreach := overlap_reaches hso (fun x hx => (hne x hx).1)
  rw [e] at hreach ⊢
  have na := ma.1
  have nb := mb.1
  refine refine_date_time (fun x hx => ?_) na nb hab (hpw.imp (fun {x y} h => by unfold Before stop at h; omega)) hza hzb
    (fun x hx => ?_) (fun h0 => ?_) hxa hxb hea heb hdt hd ht hdate htime hv
  · rcases List.mem_cons.1 hx with rfl | hx
    · exact ma.2
    rcases List.mem_cons.1 hx with rfl | hx
    · exact mb.2
    · exact (hne x (htl x hx).1).2
  · have hx' := hx
    have hx := List.mem_of_mem_head? hx
    have hbx := (htl x hx).2
    refine ⟨hbx, ?_⟩
    have nx := (hne x (htl x hx).1).1
    rcases hall x ((hmem x).1 (htl x hx).1) with rfl | rfl | ⟨h | h, -⟩ | ⟨-, h | h⟩
    · exact absurd hbx (by unfold Before stop NonEmpty at *; omega)
    · exact absurd hbx (by unfold Before stop NonEmpty at *; omega)
    · exact absurd hbx (by unfold Before Overlap stop NonEmpty at *; omega)
    · exact absurd hbx (by unfold Before Overlap at *; omega)
    · exact h
    · exact absurd h (not_parted (pre := [a]) hso (fun x hx => (hne x hx).1) hmem e hx')
  · rcases hend with ⟨x, hx, hbx⟩ | h
    · exfalso
      obtain ⟨z, hz, hz'⟩ := hreach x ((hmem x).2 hx)
      subst h0
      simp only [List.mem_cons, List.not_mem_nil, or_false] at hz
      rcases hz with rfl | rfl
      · unfold Before stop NonEmpty at *; omega
      · unfold Before at *; omega
    · exact h

/-- **C97.** The first two mentions, if one is a date without a time and the other a time without a date, in either order (or the first is
both, as a part of the day is, and the second a time), are
printed as that date at that time, whatever is found after them - as long as no range word follows. -/
theorem c97_first_date_and_time_are_printed {rt : Rt} (hrt : Rt.Defined rt) {sort : List PResult → List PResult} (hs : Sorts sort)
    {text : Text} (hlen : text.length < 4294967296) {ref : PTime} (hret : AllReturn rt ref text) {a b : PResult}
    (ha : Mention rt ref text a) (hb : Mention rt ref text b) (hab : Before a b)
    (hza : NoZone (toLower text) a) (hzb : NoZone (toLower text) b)
    (hxa : a.getTag .extractTZ = false) (hxb : b.getTag .extractTZ = false) (hea : a.hasEnd = false) (heb : b.hasEnd = false)
    (hall : ∀ x, Mention rt ref text x → x = a ∨ x = b ∨
      ((Overlap x a ∨ Overlap x b) ∧ (Overlap x a → x.textLength < a.textLength) ∧ (Overlap x b → x.textLength < b.textLength)) ∨
      (Before b x ∧ (¬ Joined (toLower text) b x ∨ Parted rt ref text b x)))
    (hend : (∃ x, Mention rt ref text x ∧ Before b x) ∨ ∀ w ∈ rangeWords, ¬ w <:+: (toLower text).drop (stop b))
    {d t : PResult} (hdt : d = a ∧ t = b ∨ d = b ∧ t = a ∧ (isDateOnly t && isTimeOnly d) = false) (hd : NoTime d.startDate) (ht : isTimeOnly t = true)
    {y mo da h mi s : Nat} (hdate : DateIs d.startDate (y, mo, da)) (htime : TimeIs t.startDate h mi s)
    (hv : (DateTime.mk y mo da h mi s).Valid) :
    OkOrNotADate (fun line => line = foundLine ++ (DateTime.mk y mo da h mi s).format) (mainRun rt sort text ref) := by
  obtain ⟨k, hrun, -, -, ho⟩ := date_time_refined hrt hs hlen hret ha hb hab hza hzb hxa hxb hea heb hall hend hdt hd ht hdate htime hv
  rw [hrun]
  exact prints_then ho

/-! ## Without exceptions -/

theorem mdtLoop_apart {text : Text} : ∀ (c : PResult) (rest : List PResult), (∀ x ∈ c :: rest, NonEmpty x) →
    (c :: rest).Pairwise (fun a b => ¬ DateTimePair a b) → mdtLoop text c (c :: rest) = .ok (c :: rest) := by
  intro c rest
  induction rest generalizing c with
  | nil =>
    intro hne _
    unfold mdtLoop
    rw [nonEmpty_not_isEmpty (hne c (by simp))]
    rfl
  | cons d rest ih =>
    intro hne hp
    have h := List.pairwise_cons.1 hp
    unfold mdtLoop
    rw [mdtStep_not_pair (h.1 d (by simp))]
    simp only [Out.bind_ok]
    rw [ih d (fun x hx => hne x (List.mem_cons_of_mem _ hx)) h.2]
    rfl

theorem mdtRefine_apart {text : Text} {l : List PResult} (hne : ∀ x ∈ l, NonEmpty x)
    (hp : l.Pairwise (fun a b => ¬ DateTimePair a b)) : mdtRefine l text = .ok l := by
  match l, hne, hp with
  | [], _, _ => rfl
  | [x], _, _ => rfl
  | a :: b :: rest, hne, hp =>
    have h := List.pairwise_cons.1 hp
    show mdtLoop text b (a :: b :: rest) = _
    unfold mdtLoop
    rw [mdtStep_not_pair (h.1 b (by simp))]
    simp only [Out.bind_ok]
    rw [mdtLoop_apart b rest (fun x hx => hne x (List.mem_cons_of_mem _ hx)) h.2]
    rfl

theorem mdrLoop_apart {text : Text} : ∀ (l : List PResult) (x : PResult), (∀ y ∈ l, Inside text y) →
    l.Pairwise (fun a b => Before a b ∧ (a.hasEnd = true ∨ b.hasEnd = true ∨ ¬ Joined text a b)) → ∃ out, mdrLoop text x l = .ok out := by
  intro l
  induction l with
  | nil => intro x _ _; unfold mdrLoop; exact ⟨_, rfl⟩
  | cons a l ih =>
    intro x hin hp
    cases l with
    | nil => unfold mdrLoop; exact ⟨_, rfl⟩
    | cons b l =>
      have h := List.pairwise_cons.1 hp
      obtain ⟨h1, h2⟩ := h.1 b (by simp)
      unfold mdrLoop
      rw [mdrStep_unjoined (hin a (by simp)) (hin b (by simp)) h1 h2]
      simp only [Out.bind_ok]
      obtain ⟨out, ho⟩ := ih a (fun y hy => hin y (List.mem_cons_of_mem _ hy)) h.2
      rw [ho]
      exact ⟨_, rfl⟩

/-- **C95 (mentions that nothing joins).** If no mention has a time zone after it, and no two of them are a date and a time or
have a range word between them, the program prints the first: it throws nothing. -/
theorem c95_first_of_unrelated_mentions {rt : Rt} (hrt : Rt.Defined rt) {sort : List PResult → List PResult} (hs : Sorts sort)
    {text : Text} (hlen : text.length < 4294967296) {ref : PTime} (hret : AllReturn rt ref text) {r : PResult}
    (hr : Mention rt ref text r) (hz : ∀ x, Mention rt ref text x → NoZone (toLower text) x)
    (hall : ∀ x, Mention rt ref text x → x = r ∨ Hidden r x ∨ Before r x)
    (hp : ∀ x y, Mention rt ref text x → Mention rt ref text y → Before x y → ¬ DateTimePair x y ∧
      (x.hasEnd = true ∨ y.hasEnd = true ∨ ¬ Joined (toLower text) x y))
    {d : Text} (hd : r.toDate = .ok d) : mainRun rt sort text ref = .ok (foundLine ++ d) := by
  obtain ⟨l, hso, hmem, hne, hrun, -⟩ := run_mentions hrt hs hlen hret
  obtain ⟨tl, e, htl, hpw⟩ := overlap_first hso ((hmem r).2 hr) (fun x hx => (hne x hx).1) (fun x hx => hall x ((hmem x).1 hx))
  have hm : ∀ x ∈ r :: tl, Mention rt ref text x := by
    intro x hx
    rcases List.mem_cons.1 hx with rfl | hx
    · exact hr
    · exact (hmem x).1 (htl x hx).1
  have hbef : (r :: tl).Pairwise Before := List.pairwise_cons.2 ⟨fun x hx => (htl x hx).2, hpw⟩
  have hd' : (tzOne Ast.tzName (toLower text) r).toDate = .ok d := by
    obtain ⟨r', e1, -, -, a3, a4, a5, a6, -⟩ := tz_same (hz r hr)
    rw [e1, toDate_congr (r := r) a3 a5 a4 a6, hd]
  have hl : (r :: tl).map (tzOne Ast.tzName (toLower text)) = tzOne Ast.tzName (toLower text) r :: tl.map (tzOne Ast.tzName (toLower text)) := rfl
  rw [hrun, e]
  unfold afterOverlaps
  rw [tz_list]
  simp only [Out.bind_ok]
  rw [mdtRefine_apart]
  · simp only [Out.bind_ok]
    obtain ⟨out, ho, ho'⟩ : ∃ out, mdrRefine ((r :: tl).map (tzOne Ast.tzName (toLower text))) (toLower text) = .ok out ∧
        ∃ tl', out = tzOne Ast.tzName (toLower text) r :: tl' := by
      have hpair : ((r :: tl).map (tzOne Ast.tzName (toLower text))).Pairwise
          (fun a b => Before a b ∧ (a.hasEnd = true ∨ b.hasEnd = true ∨ ¬ Joined (toLower text) a b)) := by
        rw [List.pairwise_map]
        refine List.Pairwise.imp_of_mem ?_ hbef
        intro x y hx hy hxy
        obtain ⟨x', e1, -, -, -, a4, -, -, a7⟩ := tz_same (hz x (hm x hx))
        obtain ⟨y', e2, b1, -, -, b4, -⟩ := tz_same (hz y (hm y hy))
        rw [e1, e2]
        have := (hp x y (hm x hx) (hm y hy) hxy).2
        unfold Before Joined at *
        rw [a7, b1, a4, b4]
        exact ⟨hxy, this⟩
      have hin : ∀ y ∈ (r :: tl).map (tzOne Ast.tzName (toLower text)), Inside (toLower text) y := by
        intro y hy
        obtain ⟨x, hx, rfl⟩ := List.mem_map.1 hy
        obtain ⟨x', e1, -, -, -, -, -, -, a7⟩ := tz_same (hz x (hm x hx))
        rw [e1]
        unfold Inside
        rw [a7]
        exact (hne x ((hmem x).2 (hm x hx))).2
      rw [hl] at hpair hin ⊢
      cases hmm : tl.map (tzOne Ast.tzName (toLower text)) with
      | nil => exact ⟨_, rfl, [], rfl⟩
      | cons b rest =>
        rw [hmm] at hpair hin
        obtain ⟨out, ho⟩ := mdrLoop_apart _ (tzOne Ast.tzName (toLower text) r) hin hpair
        refine ⟨out, ho, ?_⟩
        have h := List.pairwise_cons.1 hpair
        obtain ⟨h1, h2⟩ := h.1 b (by simp)
        unfold mdrLoop at ho
        rw [mdrStep_unjoined (hin _ (by simp)) (hin b (by simp)) h1 h2] at ho
        simp only [Out.bind_ok] at ho
        obtain ⟨tl', -, ho⟩ := Out.bind_eq_ok.1 ho
        simp at ho
        exact ⟨tl', ho.symm⟩
    obtain ⟨tl', rfl⟩ := ho'
    rw [ho]
    simp [printResult, hd', foundLine]
  · intro y hy
    obtain ⟨x, hx, rfl⟩ := List.mem_map.1 hy
    obtain ⟨x', e1, -, a2, -⟩ := tz_same (hz x (hm x hx))
    rw [e1]
    unfold NonEmpty PResult.textLength
    rw [a2]
    exact (hne x ((hmem x).2 (hm x hx))).1
  · rw [List.pairwise_map]
    refine List.Pairwise.imp_of_mem ?_ hbef
    intro x y hx hy hxy
    obtain ⟨x', e1, -, -, a3, -⟩ := tz_same (hz x (hm x hx))
    rw [e1, pair_tz a3]
    exact (hp x y (hm x hx) (hm y hy) hxy).1

end Chrono.Props
