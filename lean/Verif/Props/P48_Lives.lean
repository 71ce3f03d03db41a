import Verif.Props.P47_Alive
import Verif.Props.P14_Program
/-!
# C78: presentable mentions always come to be printed
-/
namespace Chrono.Props
open Chrono Chrono.Spec Chrono.Boost

theorem printable_set_zone {c : Comps} (v : Int) (h : Printable c) : Printable (c.set .tzoffset v) := by
  obtain ⟨y, m, d, h, mi, s, y1, y2, hc, hh, hmi, hs, ⟨d1, d2, d3⟩, t1, t2, t3⟩ := h
  refine ⟨y, m, d, h, mi, s, y1, y2, hc, hh, hmi, hs, ⟨?_, ?_, ?_⟩, ?_, ?_, ?_⟩ <;> simp only [get_set] <;> simpa using ‹_›

theorem timeOnly_set_zone (c : Comps) (v : Int) (n : Text) (hn : n = txt!"month" ∨ n = txt!"mday") :
    (c.set .tzoffset v).isCertainName n = c.isCertainName n := by
  rcases hn with rfl | rfl <;> rfl

theorem tzRefine_handy {text : Text} {rs : List PResult} (h : ∀ r ∈ rs, Handy text r) :
    Normal (fun out => ∀ r ∈ out, Handy text r) (tzRefine rs text) := by
  have hin := tzRefine_total (text := text) (rs := rs) fun r hr => (h r hr).1
  have e : tzRefine rs text = .ok (rs.map (tzOne Ast.tzName text)) := by
    unfold tzRefine; rw [Ast.compile_tzName]
  rw [e] at hin ⊢
  rcases hin with ⟨out, ho, hi, -⟩ | ⟨x, hx, -⟩
  · cases ho
    refine normal_ok fun r hr => ⟨hi r hr, ?_⟩
    obtain ⟨q, hq, rfl⟩ := List.mem_map.1 hr
    obtain ⟨-, ⟨p1, p2, p3⟩, p4⟩ := h q hq
    obtain ⟨f1, f2, f3⟩ := tzOne_fields Ast.tzName text q
    generalize tzOne Ast.tzName text q = q' at *
    have conclude : Printable q'.startDate → (-10000 ≤ q'.startDate.get .tzoffset ∧ q'.startDate.get .tzoffset ≤ 10000) →
        (∀ n, n = txt!"month" ∨ n = txt!"mday" → q'.startDate.isCertainName n = q.startDate.isCertainName n) →
        Presentable q' ∧ NoTimeRange q' := by
      intro c1 c2 c3
      refine ⟨⟨c1, fun he => ?_, c2⟩, fun ht => ?_⟩
      · rw [f1]; exact p2 (by rw [← f2]; exact he)
      · rw [f2]
        exact p4 ⟨by rw [← c3 _ (.inl rfl)]; exact ht.1, by rw [← c3 _ (.inr rfl)]; exact ht.2⟩
    rcases f3 with f3 | ⟨e, he, f3 | f3⟩
    · rw [f3] at conclude
      exact conclude p1 p3 fun _ _ => rfl
    · rw [f3] at conclude
      refine conclude (printable_set_zone _ p1) ?_ fun n hn => timeOnly_set_zone _ _ n hn
      have := tzTable_bounds e he
      simpa [get_set] using this
    · rw [f3] at conclude
      refine conclude (printable_set_zone _ (printable_set_zone _ p1)) ?_ fun n hn => ?_
      · have := tzTable_bounds e he
        simpa [get_set] using this
      · rw [timeOnly_set_zone _ _ n hn, timeOnly_set_zone _ _ n hn]
  · simp at hx

/-- **C78 (refiners).** If every mention handed to the refiners lies inside the text, has a start and an end that can be
printed, and is not a bare range of times, then the refiners and the printing never fail: there is a line. -/
theorem c78_presentable_mentions_are_printed (rs : List PResult) (text : Text)
    (h : ∀ r ∈ rs, Inside text r ∧ Presentable r ∧ NoTimeRange r) :
    ∃ line, (runRefiners rs text >>= printResult) = .ok line := by
  have h0 : ∀ r ∈ overlapRefine rs, Handy text r := fun r hr => h r ((overlapRefine_sublist rs).mem hr)
  obtain ⟨out, ho, hp⟩ : Normal (fun out => ∀ r ∈ out, Inside text r ∧ Presentable r) (runRefiners rs text) := by
    unfold runRefiners
    simp only
    exact normal_bind (tzRefine_handy h0) fun a ha => normal_bind (mdtRefine_presentable ha) fun b hb => mdrRefine_presentable hb
  rw [ho]
  simp only [Out.bind_ok]
  unfold printResult
  match out, hp with
  | [], _ => exact ⟨_, rfl⟩
  | r :: _, hp =>
    obtain ⟨d, hd⟩ := presentable_toDate (hp r (by simp)).2
    simp only [hd, Out.bind_ok]
    exact ⟨_, rfl⟩

/-- What parser `P` returns is presentable. -/
def Lives (rt : Rt) (ref : PTime) (text : Text) (P : Parser) : Prop :=
  ∃ rs, ParserReturns rt ref text P rs ∧ ∀ r ∈ rs, Presentable r ∧ NoTimeRange r

/-- **C78 (program).** If each of the program's parsers, run on its own, returns, and all it returns can be presented
and is not a bare range of times, then the program prints a line. -/
theorem c78_program_prints_presentable_mentions (rt : Rt) (hrt : rt.Benign) (hst : rt.Stops)
    (sort : List PResult → List PResult) (hs : Sorts sort) (text : Text) (hlen : text.length < 4294967296) (ref : PTime)
    (h : ∀ P ∈ mainParsers, Lives rt ref text P) :
    ∃ line, mainRun rt sort text ref = .ok line := by
  have hex : ∃ rss, List.Forall₂ (fun P rs => ParserReturns rt ref text P rs ∧ ∀ r ∈ rs, Presentable r ∧ NoTimeRange r) mainParsers rss := by
    generalize mainParsers = ps at h
    induction ps with
    | nil => exact ⟨[], .nil⟩
    | cons P ps ih =>
      obtain ⟨rss, hr⟩ := ih fun Q hQ => h Q (by simp [hQ])
      obtain ⟨rs, hP⟩ := h P (by simp)
      exact ⟨rs :: rss, .cons hP hr⟩
  obtain ⟨rss, hr⟩ := hex
  have hr1 := hr.imp (S := ParserReturns rt ref text) fun P rs h => h.1
  have hin := returned_nonEmpty hrt hst hlen hr1
  have hpres : ∀ r ∈ rss.flatten, Presentable r ∧ NoTimeRange r := by
    intro r hmem
    obtain ⟨rs, hrs, hmem⟩ := List.mem_flatten.1 hmem
    obtain ⟨i, hi, rfl⟩ := List.getElem_of_mem hrs
    have hi' : i < mainParsers.length := by rw [hr.length_eq]; exact hi
    exact ((List.forall₂_iff_get.1 hr).2 i hi' hi).2 r hmem
  obtain ⟨g, hg⟩ := runParsers_main.2 ⟨rss, hr1, rfl⟩
  rw [mainRun_eq hg]
  obtain ⟨hp, -⟩ := hs rss.flatten
  refine c78_presentable_mentions_are_printed _ _ fun r hmem => ?_
  have hm := hp.mem_iff.1 hmem
  have hlen' : (textAfter text).length = text.length := by simp [textAfter, toLower]
  refine ⟨?_, hpres r hm⟩
  have := (hin r hm).2
  exact ⟨by rw [hlen']; exact this.1, by rw [hlen']; exact this.2⟩

end Chrono.Props
