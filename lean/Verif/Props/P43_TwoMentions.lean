import Verif.Props.P19_EndToEnd
import Verif.Props.P37_MergeDetails
import Verif.Props.P35_DayRanges
/-!
# C43: the locally longest mention survives; texts with two mentions
-/
namespace Chrono.Props
open Chrono Chrono.Spec Chrono.Boost

theorem olrLoop_local (prev r : PResult) (l : List PResult) (hr : NonEmpty r) (hso : SortedByIndex (prev :: l))
    (hmem : r ∈ prev :: l) (hlong : ∀ x ∈ prev :: l, x = r ∨ ¬ Overlap x r ∨ x.textLength < r.textLength) :
    r ∈ olrLoop prev l := by
  induction l generalizing prev with
  | nil =>
    simp only [List.mem_cons, List.not_mem_nil, or_false] at hmem
    subst hmem
    unfold olrLoop
    rw [nonEmpty_not_isEmpty hr]; simp
  | cons t rest ih =>
    have hp := hlong prev (by simp)
    have ht := hlong t (by simp)
    have hsp := (List.pairwise_cons.1 hso).1
    have hst := (List.pairwise_cons.1 hso).2
    have hst' := (List.pairwise_cons.1 hst).1
    have hpt := hsp t (by simp)
    unfold olrLoop
    split
    · rename_i hov
      split
      · rename_i hlt
        have hpr : prev ≠ r := by
          rintro rfl
          rcases ht with rfl | ht | ht
          · omega
          · unfold Overlap stop at ht; unfold NonEmpty at hr; omega
          · omega
        apply ih t hst
        · rcases List.mem_cons.1 hmem with h | h
          · exact absurd h.symm hpr
          · exact h
        · intro x hx; exact hlong x (List.mem_cons_of_mem _ hx)
      · rename_i hlt
        apply ih prev
        · exact List.pairwise_cons.2 ⟨fun x hx => hsp x (by simp [hx]), (List.pairwise_cons.1 hst).2⟩
        · rcases List.mem_cons.1 hmem with h | h
          · rw [h]; simp
          · rcases List.mem_cons.1 h with h | h
            · subst h
              rcases hp with rfl | hp | hp
              · simp
              · exfalso; unfold Overlap stop at hp; unfold NonEmpty at hr; omega
              · omega
            · exact List.mem_cons_of_mem _ h
        · intro x hx
          rcases List.mem_cons.1 hx with rfl | hx
          · exact hp
          · exact hlong x (by simp [hx])
    · rcases List.mem_cons.1 hmem with h | h
      · rw [h]; simp
      · apply List.mem_cons_of_mem
        apply ih t hst h
        intro x hx; exact hlong x (List.mem_cons_of_mem _ hx)

/-- **C43 (local form).** In a list sorted by index, a non-empty result that is strictly longer than every other result it
shares a character with is kept. -/
theorem c43_locally_longest_survives (l : List PResult) (hso : SortedByIndex l) (r : PResult) (hm : r ∈ l) (hr : NonEmpty r)
    (hlong : ∀ x ∈ l, x = r ∨ ¬ Overlap x r ∨ x.textLength < r.textLength) : r ∈ overlapRefine l := by
  match l with
  | [] => simp at hm
  | [x] => simpa [overlapRefine] using hm
  | r0 :: r1 :: rest => exact olrLoop_local r0 r (r1 :: rest) hr hso hm hlong

/-- The hypotheses are met: spans 0-3, 2-6, 8-11, 9-20; the second is kept although the last is longer. -/
example : mention 2 4 ∈ overlapRefine [mention 0 3, mention 2 4, mention 8 3, mention 9 11] :=
  c43_locally_longest_survives _ (by simp [SortedByIndex, mention]) _ (by simp) (by decide) (by
    intro x hx
    simp only [List.mem_cons, List.not_mem_nil, or_false] at hx
    rcases hx with rfl | rfl | rfl | rfl
    · exact .inr (.inr (by decide))
    · exact .inl rfl
    · exact .inr (.inl (by decide))
    · exact .inr (.inl (by decide)))

theorem overlapRefine_two {l : List PResult} {a b : PResult} (hso : SortedByIndex l) (ha : a ∈ l) (hb : b ∈ l)
    (hna : NonEmpty a) (hnb : NonEmpty b) (hab : Before a b)
    (h : ∀ x ∈ l, x = a ∨ x = b ∨ ((Overlap x a ∨ Overlap x b) ∧ (Overlap x a → x.textLength < a.textLength) ∧
      (Overlap x b → x.textLength < b.textLength))) : overlapRefine l = [a, b] := by
  have hno : ¬ Overlap b a ∧ ¬ Overlap a b := by unfold Overlap Before at *; omega
  have ka : a ∈ overlapRefine l := c43_locally_longest_survives l hso a ha hna (fun x hx => by
    rcases h x hx with rfl | rfl | ⟨-, h1, -⟩
    · exact .inl rfl
    · exact .inr (.inl hno.1)
    · by_cases ho : Overlap x a
      · exact .inr (.inr (h1 ho))
      · exact .inr (.inl ho))
  have kb : b ∈ overlapRefine l := c43_locally_longest_survives l hso b hb hnb (fun x hx => by
    rcases h x hx with rfl | rfl | ⟨-, -, h1⟩
    · exact .inr (.inl hno.2)
    · exact .inl rfl
    · by_cases ho : Overlap x b
      · exact .inr (.inr (h1 ho))
      · exact .inr (.inl ho))
  obtain ⟨hsub, hpw⟩ := c42_sublist_and_disjoint l hso
  have hself : ∀ x, NonEmpty x → ¬ Before x x := fun x hx => by unfold NonEmpty at hx; unfold Before stop; omega
  have hba : ¬ Before b a := by unfold Before stop NonEmpty at *; omega
  have only : ∀ x ∈ overlapRefine l, x = a ∨ x = b := by
    intro x hx
    rcases h x (hsub.mem hx) with h1 | h1 | ⟨h1, h2, h3⟩
    · exact .inl h1
    · exact .inr h1
    · exfalso
      have key : ∀ y ∈ overlapRefine l, Overlap x y → x.textLength < y.textLength → False := by
        intro y hy ho hl
        have hne : x ≠ y := by rintro rfl; omega
        rcases (List.pairwise_iff_getElem.1 hpw) with hp
        obtain ⟨i, hi, rfl⟩ := List.getElem_of_mem hx
        obtain ⟨j, hj, rfl⟩ := List.getElem_of_mem hy
        rcases Nat.lt_trichotomy i j with hij | rfl | hij
        · have := hp i j hi hj hij; unfold Before Overlap at *; omega
        · exact hne rfl
        · have := hp j i hj hi hij; unfold Before Overlap at *; omega
      rcases h1 with h1 | h1
      · exact key a ka h1 (h2 h1)
      · exact key b kb h1 (h3 h1)
  match hL : overlapRefine l, ka, kb with
  | [p], ka, kb =>
    simp only [List.mem_cons, List.not_mem_nil, or_false] at ka kb
    subst ka; subst kb
    exact absurd hab (hself _ hna)
  | [p, q], ka, kb =>
    rw [hL] at only hpw
    have hpq := (List.pairwise_cons.1 hpw).1 q (by simp)
    rcases only p (by simp) with rfl | rfl <;> rcases only q (by simp) with rfl | rfl
    · exact absurd hpq (hself _ hna)
    · rfl
    · exact absurd hpq hba
    · exact absurd hpq (hself _ hnb)
  | p :: q :: s :: rest, ka, kb =>
    exfalso
    rw [hL] at only hpw
    have hpq := (List.pairwise_cons.1 hpw).1 q (by simp)
    have hps := (List.pairwise_cons.1 hpw).1 s (by simp)
    have hqs := (List.pairwise_cons.1 (List.pairwise_cons.1 hpw).2).1 s (by simp)
    rcases only p (by simp) with rfl | rfl <;> rcases only q (by simp) with rfl | rfl <;> rcases only s (by simp) with rfl | rfl <;>
      first
      | exact hself _ hna hpq
      | exact hself _ hnb hpq
      | exact hself _ hna hps
      | exact hself _ hnb hps
      | exact hself _ hna hqs
      | exact hself _ hnb hqs

/-- The program on a text with exactly two mentions that count: the refiners get `[a, b]`. -/
theorem run_two {rt : Rt} (hrt : Rt.Defined rt) {sort : List PResult → List PResult} (hs : Sorts sort) {text : Text}
    (hlen : text.length < 4294967296) {ref : PTime} {a b : PResult}
    (ha : ∃ P ∈ mainParsers, ∃ rs, ParserReturns rt ref text P rs ∧ a ∈ rs)
    (hb : ∃ P ∈ mainParsers, ∃ rs, ParserReturns rt ref text P rs ∧ b ∈ rs) (hab : Before a b)
    (hall : ∀ P ∈ mainParsers, ∃ rs, ParserReturns rt ref text P rs ∧ ∀ x ∈ rs, x = a ∨ x = b ∨
      ((Overlap x a ∨ Overlap x b) ∧ (Overlap x a → x.textLength < a.textLength) ∧ (Overlap x b → x.textLength < b.textLength))) :
    NonEmpty a ∧ NonEmpty b ∧ Inside (toLower text) a ∧ Inside (toLower text) b ∧
    mainRun rt sort text ref = (do
      let rs ← tzRefine [a, b] (toLower text)
      let rs ← mdtRefine rs (toLower text)
      let rs ← mdrRefine rs (toLower text)
      printResult rs) := by
  obtain ⟨rss, h4⟩ := forall₂_of_forall (fun P hP => (hall P hP).imp fun _ h => h.1)
  obtain ⟨g, hg⟩ := runParsers_main.2 ⟨rss, h4, rfl⟩
  obtain ⟨hp, hso⟩ := hs rss.flatten
  have hne := returned_nonEmpty hrt.stale hrt.stops hlen h4
  have ma := (mem_flatten_of_returns h4).2 ha
  have mb := (mem_flatten_of_returns h4).2 hb
  have hl : (toLower text).length = text.length := by simp [toLower]
  have hin : ∀ x, Inside text x → Inside (toLower text) x := fun x h => by unfold Inside at *; rw [hl]; exact h
  refine ⟨(hne a ma).1, (hne b mb).1, hin a (hne a ma).2, hin b (hne b mb).2, ?_⟩
  rw [mainRun_eq hg]
  have ho := overlapRefine_two (l := sort rss.flatten) hso (hp.mem_iff.2 ma) (hp.mem_iff.2 mb) (hne a ma).1 (hne b mb).1 hab (by
    intro x hx
    obtain ⟨P, hP, rs, h1, h2⟩ := (mem_flatten_of_returns h4).1 (hp.mem_iff.1 hx)
    obtain ⟨rs', h3, h5⟩ := hall P hP
    rw [parserReturns_unique h1 h3] at h2
    exact h5 x h2)
  unfold runRefiners textAfter
  simp only [ho]
  cases tzRefine [a, b] (toLower text) <;> simp
  rename_i rs
  cases mdtRefine rs (toLower text) <;> simp

/-- Time zones: results that no zone follows keep everything that matters. -/
theorem tz_two {text : Text} {a b : PResult} (ha : ∀ abbr off, a.getTag .timeExpression = true → ¬ FollowedByZone text a abbr off)
    (hb : ∀ abbr off, b.getTag .timeExpression = true → ¬ FollowedByZone text b abbr off) :
    ∃ a' b', tzRefine [a, b] text = .ok [a', b'] ∧
      (a'.index = a.index ∧ a'.text = a.text ∧ a'.startDate = a.startDate ∧ a'.hasEnd = a.hasEnd ∧ a'.endDate = a.endDate ∧ ∀ t, a'.getTag t = a.getTag t) ∧
      (b'.index = b.index ∧ b'.text = b.text ∧ b'.startDate = b.startDate ∧ b'.hasEnd = b.hasEnd ∧ b'.endDate = b.endDate ∧ ∀ t, b'.getTag t = b.getTag t) := by
  obtain ⟨rs', e, hl, hh⟩ := c47_only_tagged_times_before_known_zone [a, b] text
  match rs', hl with
  | [a', b'], _ =>
    refine ⟨a', b', e, ?_, ?_⟩
    · obtain ⟨h1, h2, h3, -, h5, -⟩ := hh 0 (by simp) (by simp)
      obtain ⟨h6, h7, h8⟩ := h5 (by rintro ⟨x, o, h, h'⟩; exact ha x o h h')
      exact ⟨h1, h6, h7, h2, h3, h8⟩
    · obtain ⟨h1, h2, h3, -, h5, -⟩ := hh 1 (by simp) (by simp)
      obtain ⟨h6, h7, h8⟩ := h5 (by rintro ⟨x, o, h, h'⟩; exact hb x o h h')
      exact ⟨h1, h6, h7, h2, h3, h8⟩

/-! ## Two dates with a range word between them -/

theorem mdt_dates {text : Text} {a b : PResult} (ha : isTimeOnly a = false) (hb : isTimeOnly b = false) (hnb : NonEmpty b) :
    mdtRefine [a, b] text = .ok [a, b] := by
  have hst : mdtStep text a b = .ok none := by
    unfold mdtStep
    simp [ha, hb]
  unfold mdtRefine
  simp only [mdtLoop, hst, Out.bind_ok, nonEmpty_not_isEmpty hnb]
  rfl

/-- Two dates without an end, joined by a range word, are printed as the range from the first to the second (to the first, if
the second is earlier). -/
theorem prints_joined {rt : Rt} {sort : List PResult → List PResult} {text : Text} {ref : PTime} {a b : PResult}
    (hna : NonEmpty a) (hnb : NonEmpty b) (hia : Inside (toLower text) a) (hib : Inside (toLower text) b) (hab : Before a b)
    (hrun : mainRun rt sort text ref = (do
      let rs ← tzRefine [a, b] (toLower text)
      let rs ← mdtRefine rs (toLower text)
      let rs ← mdrRefine rs (toLower text)
      printResult rs))
    (hza : a.getTag .timeExpression = false) (hzb : b.getTag .timeExpression = false)
    (hxa : a.getTag .extractTZ = false) (hxb : b.getTag .extractTZ = false)
    (hta : isTimeOnly a = false) (htb : isTimeOnly b = false)
    (hea : a.hasEnd = false) (heb : b.hasEnd = false) (hj : Joined (toLower text) a b)
    {t u : DateTime} (ht : t.Valid) (hu : u.Valid) (hra : Reads a.startDate t) (hrb : Reads b.startDate u) :
    mainRun rt sort text ref = .ok (foundLine ++ t.format ++ txt!" - " ++ (if instant t ≤ instant u then u else t).format) := by
  obtain ⟨a', b', e, ⟨a1, a2, a3, a4, a5, a6⟩, ⟨b1, b2, b3, b4, b5, b6⟩⟩ := tz_two (text := toLower text) (a := a) (b := b)
    (fun _ _ h => by rw [hza] at h; cases h) (fun _ _ h => by rw [hzb] at h; cases h)
  have hsa : stop a' = stop a := by unfold stop PResult.textLength; rw [a1, a2]
  have hsb : stop b' = stop b := by unfold stop PResult.textLength; rw [b1, b2]
  have hna' : NonEmpty a' := by unfold NonEmpty PResult.textLength at *; rw [a2]; exact hna
  have hnb' : NonEmpty b' := by unfold NonEmpty PResult.textLength at *; rw [b2]; exact hnb
  have hmdt := mdt_dates (text := toLower text) (a := a') (b := b') (by unfold isTimeOnly at *; rw [a3]; exact hta)
    (by unfold isTimeOnly at *; rw [b3]; exact htb) hnb'
  obtain ⟨m, hm, -, m2, m3, m4, m5, -, m6⟩ := c69_joined_dates_become_a_range (toLower text) a' b'
    (by unfold Inside at *; rw [hsa]; exact hia) (by unfold Inside at *; rw [hsb]; exact hib)
    (by unfold Before at *; rw [hsa, b1]; exact hab) hna' (a4.trans hea) (b4.trans heb)
    (by unfold Joined at *; rw [hsa, b1]; exact hj) t u ht hu (by rw [a3]; exact hra) (by rw [b3]; exact hrb)
  have hx : m.getTag .extractTZ = false := by
    cases h : m.getTag .extractTZ with
    | false => rfl
    | true =>
      rcases m6 _ h with h | h | h
      · cases h
      · rw [a6, hxa] at h; cases h
      · rw [b6, hxb] at h; cases h
  rw [hrun, e]
  simp only [Out.bind_ok]
  rw [hmdt]
  simp only [Out.bind_ok]
  rw [hm]
  simp only [Out.bind_ok]
  obtain ⟨v, hv, hv1, hv2⟩ : ∃ v, (if instant t ≤ instant u then u else t) = v ∧ v.Valid ∧ Reads m.endDate v := by
    by_cases h : instant t ≤ instant u
    · exact ⟨u, if_pos h, hu, m4 h⟩
    · exact ⟨t, if_neg h, ht, m5 (by omega)⟩
  rw [hv]
  have := c08_toDate_prints_range m t v ht m3 hv1 hv2 m2 hx
  simp [printResult, this, foundLine]

/-- Two dates without a range word between them: the first is printed, the second is not. -/
theorem prints_separate {rt : Rt} {sort : List PResult → List PResult} {text : Text} {ref : PTime} {a b : PResult}
    (hna : NonEmpty a) (hnb : NonEmpty b) (hia : Inside (toLower text) a) (hib : Inside (toLower text) b) (hab : Before a b)
    (hrun : mainRun rt sort text ref = (do
      let rs ← tzRefine [a, b] (toLower text)
      let rs ← mdtRefine rs (toLower text)
      let rs ← mdrRefine rs (toLower text)
      printResult rs))
    (hza : a.getTag .timeExpression = false) (hzb : b.getTag .timeExpression = false) (hxa : a.getTag .extractTZ = false)
    (hta : isTimeOnly a = false) (htb : isTimeOnly b = false) (hea : a.hasEnd = false) (hj : ¬ Joined (toLower text) a b)
    {t : DateTime} (ht : t.Valid) (hra : Reads a.startDate t) :
    mainRun rt sort text ref = .ok (foundLine ++ t.format) := by
  obtain ⟨a', b', e, ⟨a1, a2, a3, a4, a5, a6⟩, ⟨b1, b2, b3, b4, b5, b6⟩⟩ := tz_two (text := toLower text) (a := a) (b := b)
    (fun _ _ h => by rw [hza] at h; cases h) (fun _ _ h => by rw [hzb] at h; cases h)
  have hsa : stop a' = stop a := by unfold stop PResult.textLength; rw [a1, a2]
  have hsb : stop b' = stop b := by unfold stop PResult.textLength; rw [b1, b2]
  have hna' : NonEmpty a' := by unfold NonEmpty PResult.textLength at *; rw [a2]; exact hna
  have hnb' : NonEmpty b' := by unfold NonEmpty PResult.textLength at *; rw [b2]; exact hnb
  have hia' : Inside (toLower text) a' := by unfold Inside at *; rw [hsa]; exact hia
  have hib' : Inside (toLower text) b' := by unfold Inside at *; rw [hsb]; exact hib
  have hab' : Before a' b' := by unfold Before at *; rw [hsa, b1]; exact hab
  have hj' : ¬ Joined (toLower text) a' b' := by unfold Joined at *; rw [hsa, b1]; exact hj
  have hmdt := mdt_dates (text := toLower text) (a := a') (b := b') (by unfold isTimeOnly at *; rw [a3]; exact hta)
    (by unfold isTimeOnly at *; rw [b3]; exact htb) hnb'
  have hm := c52_last_replaced_by_previous_partial [] a' b' (toLower text) (by
    intro r hr
    simp only [List.nil_append, List.mem_cons, List.not_mem_nil, or_false] at hr
    rcases hr with rfl | rfl
    · exact ⟨hia', hna'⟩
    · exact ⟨hib', hnb'⟩) (by
    exact ⟨⟨hab', .inr (.inr hj')⟩, trivial⟩)
  simp only [List.nil_append] at hm
  rw [hrun, e]
  simp only [Out.bind_ok]
  rw [hmdt]
  simp only [Out.bind_ok]
  rw [hm]
  simp only [Out.bind_ok]
  have := c08_toDate_prints_start a' t ht (by rw [a3]; exact hra) (a4.trans hea) ((a6 _).trans hxa)
  simp [printResult, this, foundLine]

end Chrono.Props
