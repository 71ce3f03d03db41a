import Verif.Spec.Zone
import Verif.Spec.Spans
import Verif.Lemmas.RelSimp
import Verif.Model.Refiners.TimeZone
/-!
# C47: `ExtractTimeZoneAbbreviation::refine`
-/
namespace Chrono.Props
open Chrono Chrono.Spec

theorem space_test (ic : Bool) (c : Nat) : (Single.set ic false [.cls .space false]).test c = true ↔ Blank c := by
  simp [Single.test, Item.test, ClassK.test, isSpaceB, Blank]
  omega

theorem az_test (c : Nat) : (Single.set true false [.range 65 90]).test c = true ↔ Letter c :=
  Single.test_iff _ _ (by decide +kernel) (fun c h => by unfold Letter at h; omega) c

theorem lparen_test (c : Nat) : (Single.ch true 40).test c = true ↔ c = 40 :=
  Single.test_iff (.ch true 40) (· = 40) (by decide +kernel) (fun c h => by omega) c

theorem rparen_test (c : Nat) : (Single.ch true 41).test c = true ↔ c = 41 :=
  Single.test_iff (.ch true 41) (· = 41) (by decide +kernel) (fun c h => by omega) c

theorem zoneSuffix_abbr {rest abbr : Text} (h : ZoneSuffix rest abbr) :
    abbr = rest.filter (fun c => decide (Letter c)) := by
  obtain ⟨blanks, op, cl, rfl, hb, ho, hc, -, -, hl⟩ := h
  have e1 : blanks.filter (fun c => decide (Letter c)) = [] := by
    rw [List.filter_eq_nil_iff]; intro c hc; have := hb c hc; rw [decide_eq_true_eq]; unfold Letter; unfold Blank at this; omega
  have e2 : op.filter (fun c => decide (Letter c)) = [] := by
    rcases ho with rfl | rfl <;> decide
  have e3 : cl.filter (fun c => decide (Letter c)) = [] := by
    rcases hc with rfl | rfl <;> decide
  have e4 : abbr.filter (fun c => decide (Letter c)) = abbr := by
    rw [List.filter_eq_self]; intro c hc; simpa using hl c hc
  rw [List.filter_append, List.filter_append, List.filter_append, e1, e2, e3, e4]; simp

/-- Soundness of the zone pattern. -/
theorem tzName_some {t : Text} {mt : Match} (h : Ast.tzName.fullMatch t = some mt) :
    ZoneSuffix t (mt.str 1) := by
  obtain ⟨hsub, -, -, s', hrel, hrest, hcaps, -⟩ := Re.fullMatch_some h
  unfold Match.str
  rw [hsub, ← hcaps]
  simp only [Ast.tzName, rel_seq, rel_bol, rel_star_one, rel_alt, rel_one, rel_eps, rel_cap, rel_look,
    space_test, az_test, lparen_test, rparen_test] at hrel
  obtain ⟨_, ⟨-, rfl⟩, s1, ⟨w, t1, hr1, hw, rfl⟩, s2, h2, s3, ⟨s4, h4, rfl⟩, s5, h5, -, rfl⟩ := hrel
  -- the opening parenthesis
  obtain ⟨op, t2, hop, hr2, hs2⟩ : ∃ op t2, (op = [] ∨ op = txt!"(") ∧ t1 = op ++ t2 ∧
      s2.rest = t2 ∧ s2.pos = w.length + op.length ∧ s2.caps = [] := by
    rcases h2 with ⟨c, t', hr, rfl, rfl⟩ | rfl
    · exact ⟨[40], t', .inr rfl, hr, rfl, by simp [St.adv, St.advs, startSt], rfl⟩
    · exact ⟨[], t1, .inl rfl, rfl, rfl, by simp [St.advs, startSt], rfl⟩
  obtain ⟨hs2r, hs2p, hs2c⟩ := hs2
  -- the letters
  obtain ⟨ab, t3, hab, hab1, hab2, hr3, hs4r, hs4p, hs4c⟩ : ∃ ab t3, (∀ c ∈ ab, Letter c) ∧ 2 ≤ ab.length ∧
      ab.length ≤ 4 ∧ t2 = ab ++ t3 ∧ s4.rest = t3 ∧ s4.pos = s2.pos + ab.length ∧ s4.caps = s2.caps := by
    obtain ⟨x1, ⟨c1, u1, e1, l1, rfl⟩, x2, ⟨c2, u2, e2, l2, rfl⟩, h⟩ := h4
    simp only [St.adv] at e2
    subst e2
    rcases h with ⟨x3, ⟨c3, u3, e3, l3, rfl⟩, h⟩ | rfl
    · simp only [St.adv] at e3
      subst e3
      rcases h with ⟨c4, u4, e4, l4, rfl⟩ | rfl
      · simp only [St.adv] at e4
        subst e4
        refine ⟨[c1, c2, c3, c4], u4, by simp [l1, l2, l3, l4], by simp, by simp, ?_, rfl, ?_, rfl⟩
        · rw [← hs2r, e1]; rfl
        · simp [St.adv]
      · refine ⟨[c1, c2, c3], u3, by simp [l1, l2, l3], by simp, by simp, ?_, rfl, ?_, rfl⟩
        · rw [← hs2r, e1]; rfl
        · simp [St.adv]
    · refine ⟨[c1, c2], u2, by simp [l1, l2], by simp, by simp, ?_, rfl, ?_, rfl⟩
      · rw [← hs2r, e1]; rfl
      · simp [St.adv]
  -- the closing parenthesis
  obtain ⟨cl, hcl, hr4, hs5c⟩ : ∃ cl, (cl = [] ∨ cl = txt!")") ∧ t3 = cl ∧
      s'.caps = (1, s2.pos, s4.pos) :: s4.caps := by
    rcases h5 with ⟨c, t', hr, rfl, rfl⟩ | rfl
    · simp only [St.adv] at hrest
      subst hrest
      exact ⟨[41], .inr rfl, by rw [← hs4r]; exact hr, rfl⟩
    · exact ⟨[], .inl rfl, by rw [← hs4r]; exact hrest, rfl⟩
  have ht : t = w ++ op ++ ab ++ cl := by
    have : t = w ++ t1 := by simpa [startSt] using hr1
    rw [this, hr2, hr3, hr4]; simp
  have hslice : slice t s2.pos s4.pos = ab := by
    unfold slice
    rw [ht, hs4p, hs2p]
    have : w ++ op ++ ab ++ cl = (w ++ op) ++ (ab ++ cl) := by simp
    rw [this, show w.length + op.length = (w ++ op).length by simp, List.drop_left,
      show (w ++ op).length + ab.length - (w ++ op).length = ab.length by omega, List.take_left]
  simp only [hs5c, capSpan]
  simp only [beq_self_eq_true, if_true, hslice]
  exact ⟨w, op, cl, ht, hw, hop, hcl, hab1, hab2, hab⟩

/-- Completeness of the zone pattern. -/
theorem tzName_none {t : Text} (h : Ast.tzName.fullMatch t = none) (abbr : Text) : ¬ ZoneSuffix t abbr := by
  rintro ⟨w, op, cl, ht, hw, ho, hc, h1, h2, hl⟩
  have hn := Re.fullMatch_none h
  -- build the match
  let s0 : St := startSt t 0
  have hrel : ∃ s', Rel Ast.tzName s0 s' ∧ s'.rest = [] := by
    simp only [Ast.tzName, rel_seq, rel_bol, rel_star_one, rel_alt, rel_one, rel_eps, rel_cap, rel_look,
      space_test, az_test, lparen_test, rparen_test]
    obtain ⟨s2, hs2, hs2r⟩ : ∃ s2 : St, ((∃ c u, ((s0.advs w (op ++ (abbr ++ cl))).rest = c :: u ∧ c = 40 ∧
        s2 = (s0.advs w (op ++ (abbr ++ cl))).adv c u)) ∨ s2 = s0.advs w (op ++ (abbr ++ cl))) ∧
        s2.rest = abbr ++ cl := by
      rcases ho with rfl | rfl
      · exact ⟨_, .inr rfl, rfl⟩
      · exact ⟨(s0.advs w ([40] ++ (abbr ++ cl))).adv 40 (abbr ++ cl), .inl ⟨40, _, rfl, rfl, rfl⟩, rfl⟩
    have hcl5 : ∀ s4 : St, s4.rest = cl → ∃ s5, ((∃ c u, s4.rest = c :: u ∧ c = 41 ∧ s5 = s4.adv c u) ∨ s5 = s4) ∧
        s5.rest = [] := by
      intro s4 h4
      rcases hc with rfl | rfl
      · exact ⟨s4, .inr rfl, h4⟩
      · exact ⟨s4.adv 41 [], .inl ⟨41, [], h4, rfl, rfl⟩, rfl⟩
    have hlook : ∀ s5 : St, s5.rest = [] → ((Re.m (α := Unit)
        (.alt (.one (.set true true [.cls .word false])) .eol) s5 (fun _ => some ())).isSome != false) = true := by
      intro s5 h5
      simp [Re.m, h5, orElse']
    obtain ⟨s4, hs4, hs4r⟩ : ∃ s4 : St, (∃ s1, (∃ c u, s2.rest = c :: u ∧ Letter c ∧ s1 = s2.adv c u) ∧
        ∃ s3, (∃ c u, s1.rest = c :: u ∧ Letter c ∧ s3 = s1.adv c u) ∧
        ((∃ s6, (∃ c u, s3.rest = c :: u ∧ Letter c ∧ s6 = s3.adv c u) ∧
          ((∃ c u, s6.rest = c :: u ∧ Letter c ∧ s4 = s6.adv c u) ∨ s4 = s6)) ∨ s4 = s3)) ∧ s4.rest = cl := by
      match abbr, h1, h2, hl, hs2r with
      | [a, b], _, _, hl, hr =>
        exact ⟨_, ⟨_, ⟨a, b :: cl, hr, hl a (by simp), rfl⟩, _, ⟨b, cl, rfl, hl b (by simp), rfl⟩, .inr rfl⟩, rfl⟩
      | [a, b, c], _, _, hl, hr =>
        exact ⟨_, ⟨_, ⟨a, b :: c :: cl, hr, hl a (by simp), rfl⟩, _, ⟨b, c :: cl, rfl, hl b (by simp), rfl⟩,
          .inl ⟨_, ⟨c, cl, rfl, hl c (by simp), rfl⟩, .inr rfl⟩⟩, rfl⟩
      | [a, b, c, d], _, _, hl, hr =>
        exact ⟨_, ⟨_, ⟨a, b :: c :: d :: cl, hr, hl a (by simp), rfl⟩, _,
          ⟨b, c :: d :: cl, rfl, hl b (by simp), rfl⟩,
          .inl ⟨_, ⟨c, d :: cl, rfl, hl c (by simp), rfl⟩, .inl ⟨d, cl, rfl, hl d (by simp), rfl⟩⟩⟩, rfl⟩
    obtain ⟨s5, hs5, hs5r⟩ := hcl5 { s4 with caps := (1, s2.pos, s4.pos) :: s4.caps } hs4r
    refine ⟨s5, ⟨s0, ⟨rfl, rfl⟩, _, ⟨w, op ++ (abbr ++ cl), ?_, hw, rfl⟩, s2, hs2, _, ⟨s4, hs4, rfl⟩, s5, hs5,
      hlook s5 hs5r, rfl⟩, hs5r⟩
    show t = _
    rw [ht]; simp
  obtain ⟨s', hr, hr'⟩ := hrel
  exact hn s' hr hr'

theorem tzLookup_iff (l : List (Text × Int)) (h : (l.map Prod.fst).Nodup) (k : Text) (v : Int) :
    tzLookup l k = some v ↔ (k, v) ∈ l := by
  induction l with
  | nil => simp [tzLookup]
  | cons p l ih =>
    obtain ⟨k', v'⟩ := p
    simp only [List.map_cons, List.nodup_cons] at h
    unfold tzLookup
    by_cases hk : k' = k
    · subst hk
      simp only [if_true, List.mem_cons, Prod.mk.injEq, true_and, Option.some.injEq]
      constructor
      · intro h; left; exact h.symm
      · rintro (h' | h')
        · exact h'.symm
        · exact absurd (List.mem_map.2 ⟨_, h', rfl⟩) h.1
    · rw [if_neg hk, ih h.2]
      simp only [List.mem_cons, Prod.mk.injEq]
      constructor
      · exact .inr
      · rintro (h' | h')
        · exact absurd h'.1.symm hk
        · exact h'

theorem tzTable_nodup : (tzTable.map Prod.fst).Nodup := by decide +kernel

theorem zone_iff (abbr : Text) (off : Int) : tzLookup tzTable (toUpper abbr) = some off ↔ ZoneOffset abbr off :=
  tzLookup_iff tzTable tzTable_nodup _ _

/-- A known zone abbreviation with offset `off` follows the mention `r` up to the end of the text. -/
def FollowedByZone (text : Text) (r : PResult) (abbr : Text) (off : Int) : Prop :=
  stop r ≤ text.length ∧ ZoneSuffix (text.drop (stop r)) abbr ∧ ZoneOffset abbr off

/-- **C47.** The time-zone refiner never fails and keeps the number and the indices of the results. A result that
does not carry the time-expression tag, or is not followed by (exactly) a known zone abbreviation, keeps its text,
its components, its end flag and the reading of all its tags. A tagged one that is followed by a known zone with
offset `off` gets the start offset `off` - unless its offset was already certain (and so is the offset of its
end, if it has one) - the zone tag (unless that tag had been read before), the abbreviation as its text, and
nothing else of its components changes. -/
theorem c47_only_tagged_times_before_known_zone (rs : List PResult) (text : Text) :
    ∃ rs', tzRefine rs text = .ok rs' ∧ rs'.length = rs.length ∧
      ∀ i (h : i < rs.length) (h' : i < rs'.length),
        let r := rs[i]; let r' := rs'[i]
        r'.index = r.index ∧ r'.hasEnd = r.hasEnd ∧ r'.endDate = r.endDate ∧
        (∀ k, k ≠ .tzoffset → r'.startDate.get k = r.startDate.get k) ∧
        ((¬ ∃ abbr off, r.getTag .timeExpression = true ∧ FollowedByZone text r abbr off) →
          r'.text = r.text ∧ r'.startDate = r.startDate ∧ ∀ t, r'.getTag t = r.getTag t) ∧
        (∀ abbr off, r.getTag .timeExpression = true → FollowedByZone text r abbr off →
          r'.text = abbr ∧
          r'.startDate.get .tzoffset =
            (if r.startDate.certain .tzoffset ∧ (r.hasEnd = true → r.endDate.certain .tzoffset = true)
             then r.startDate.get .tzoffset else off) ∧
          (r.tags .extractTZ = none → r'.getTag .extractTZ = true) ∧
          ∀ t, t ≠ .extractTZ → r'.getTag t = r.getTag t) := by
  have one : ∀ r : PResult, let r' := tzOne Ast.tzName text r
        r'.index = r.index ∧ r'.hasEnd = r.hasEnd ∧ r'.endDate = r.endDate ∧
        (∀ k, k ≠ .tzoffset → r'.startDate.get k = r.startDate.get k) ∧
        ((¬ ∃ abbr off, r.getTag .timeExpression = true ∧ FollowedByZone text r abbr off) →
          r'.text = r.text ∧ r'.startDate = r.startDate ∧ ∀ t, r'.getTag t = r.getTag t) ∧
        (∀ abbr off, r.getTag .timeExpression = true → FollowedByZone text r abbr off →
          r'.text = abbr ∧
          r'.startDate.get .tzoffset =
            (if r.startDate.certain .tzoffset ∧ (r.hasEnd = true → r.endDate.certain .tzoffset = true)
             then r.startDate.get .tzoffset else off) ∧
          (r.tags .extractTZ = none → r'.getTag .extractTZ = true) ∧
          ∀ t, t ≠ .extractTZ → r'.getTag t = r.getTag t) := by
    intro r
    -- reading the tag changes nothing observable
    have touch : ∃ q : PResult, r.touchTag .timeExpression = q ∧ q.index = r.index ∧ q.text = r.text ∧
        q.hasEnd = r.hasEnd ∧ q.endDate = r.endDate ∧ q.startDate = r.startDate ∧
        (∀ t, q.getTag t = r.getTag t) ∧ q.tags .extractTZ = r.tags .extractTZ := by
      refine ⟨_, rfl, ?_⟩
      unfold PResult.touchTag
      cases ht : r.tags .timeExpression with
      | some b => simp
      | none =>
        refine ⟨rfl, rfl, rfl, rfl, rfl, ?_, rfl⟩
        intro t
        by_cases h : t = .timeExpression
        · subst h; simp [PResult.getTag, ht]
        · simp [PResult.getTag, h]
    obtain ⟨q, hq, q1, q2, q3, q4, q5, q6, q7⟩ := touch
    have noop : (∀ abbr off, r.getTag .timeExpression = true → ¬ FollowedByZone text r abbr off) →
        q.index = r.index ∧ q.hasEnd = r.hasEnd ∧ q.endDate = r.endDate ∧
        (∀ k, k ≠ .tzoffset → q.startDate.get k = r.startDate.get k) ∧
        ((¬ ∃ abbr off, r.getTag .timeExpression = true ∧ FollowedByZone text r abbr off) →
          q.text = r.text ∧ q.startDate = r.startDate ∧ ∀ t, q.getTag t = r.getTag t) ∧
        (∀ abbr off, r.getTag .timeExpression = true → FollowedByZone text r abbr off →
          q.text = abbr ∧
          q.startDate.get .tzoffset =
            (if r.startDate.certain .tzoffset ∧ (r.hasEnd = true → r.endDate.certain .tzoffset = true)
             then r.startDate.get .tzoffset else off) ∧
          (r.tags .extractTZ = none → q.getTag .extractTZ = true) ∧
          ∀ t, t ≠ .extractTZ → q.getTag t = r.getTag t) := by
      intro hno
      exact ⟨q1, q3, q4, fun k _ => by rw [q5], fun _ => ⟨q2, q5, q6⟩, fun a o h1 h2 => absurd h2 (hno a o h1)⟩
    simp only
    unfold tzOne
    simp only [hq]
    by_cases hf : r.getTag .timeExpression = true
    · rw [if_pos hf]
      unfold substr
      have hstop : q.index + q.textLength = stop r := by unfold stop PResult.textLength; rw [q1, q2]
      rw [hstop]
      by_cases hin : stop r ≤ text.length
      · rw [if_pos hin]
        simp only
        cases hm : Ast.tzName.fullMatch (text.drop (stop r)) with
        | none =>
          exact noop (fun a o _ h => tzName_none hm a h.2.1)
        | some mt =>
          have hz := tzName_some hm
          simp only
          cases ho : tzLookup tzTable (toUpper (mt.str 1)) with
          | none =>
            refine noop (fun a o _ h => ?_)
            have : a = mt.str 1 := (zoneSuffix_abbr h.2.1).trans (zoneSuffix_abbr hz).symm
            have := (zone_iff a o).2 h.2.2
            simp_all
          | some off =>
            have hfz : FollowedByZone text r (mt.str 1) off := ⟨hin, hz, (zone_iff _ _).1 ho⟩
            have huniq : ∀ a o, FollowedByZone text r a o → a = mt.str 1 ∧ o = off := by
              intro a o h
              have e : a = mt.str 1 := (zoneSuffix_abbr h.2.1).trans (zoneSuffix_abbr hz).symm
              refine ⟨e, ?_⟩
              have := (zone_iff a o).2 h.2.2
              rw [e, ho] at this
              simpa using this.symm
            simp only
            -- the two conditional assignments
            obtain ⟨p, hp, p1, p2, p3, p4, p5, p6⟩ : ∃ p : PResult,
                (let res := if !q.startDate.certain .tzoffset then q.onStart (·.set .tzoffset off) else q
                 if res.hasEnd && !res.endDate.certain .tzoffset then res.onStart (·.set .tzoffset off) else res) = p ∧
                p.index = q.index ∧ p.hasEnd = q.hasEnd ∧ p.endDate = q.endDate ∧ p.tags = q.tags ∧
                (∀ k, k ≠ .tzoffset → p.startDate.get k = q.startDate.get k) ∧
                p.startDate.get .tzoffset =
                  (if q.startDate.certain .tzoffset ∧ (q.hasEnd = true → q.endDate.certain .tzoffset = true)
                    then q.startDate.get .tzoffset else off) := by
              refine ⟨_, rfl, ?_⟩
              have hk : ∀ (c : Comps) k, k ≠ Key.tzoffset → (c.set .tzoffset off).get k = c.get k := by
                intro c k hk; simp [Comps.get, Comps.set, Comps.upd, hk]
              have ht : ∀ (c : Comps), (c.set .tzoffset off).get .tzoffset = off := by
                intro c; simp [Comps.get, Comps.set, Comps.upd]
              cases h1 : q.startDate.certain .tzoffset <;> cases h2 : q.hasEnd <;>
                cases h3 : q.endDate.certain .tzoffset <;>
                simp [PResult.onStart, h2, h3, ht] <;>
                (intro k hk'; simp [hk _ k hk'])
            have hap : tzApply q (mt.str 1) off = (p.setText (mt.str 1)).setTag .extractTZ := by
              rw [← hp]; rfl
            rw [hap]
            -- tag and text
            have hset : ∃ z : PResult, (p.setText (mt.str 1)).setTag .extractTZ = z ∧ z.index = p.index ∧
                z.text = mt.str 1 ∧ z.hasEnd = p.hasEnd ∧ z.endDate = p.endDate ∧ z.startDate = p.startDate ∧
                (p.tags .extractTZ = none → z.getTag .extractTZ = true) ∧
                (∀ t, t ≠ .extractTZ → z.getTag t = p.getTag t) := by
              refine ⟨_, rfl, ?_⟩
              unfold PResult.setTag PResult.setText
              cases ht : p.tags .extractTZ with
              | some b => simp [PResult.getTag]
              | none =>
                refine ⟨rfl, rfl, rfl, rfl, rfl, fun _ => by simp [PResult.getTag], fun t h => ?_⟩
                simp [PResult.getTag, h]
            obtain ⟨z, hz', z1, z2, z3, z4, z5, z6, z7⟩ := hset
            rw [hz']
            have hpt : ∀ t, p.getTag t = q.getTag t := fun t => by unfold PResult.getTag; rw [p4]
            refine ⟨by rw [z1, p1, q1], by rw [z3, p2, q3], by rw [z4, p3, q4],
              fun k hk => by rw [z5, p5 k hk, q5], fun hno => absurd ⟨_, _, hf, hfz⟩ hno, ?_⟩
            intro a o _ h
            obtain ⟨rfl, rfl⟩ := huniq a o h
            refine ⟨z2, ?_, fun h => z6 (by rw [p4, q7, h]), fun t h => by rw [z7 t h, hpt, q6]⟩
            rw [z5, p6, q5, q3, q4]
      · rw [if_neg hin]
        exact noop (fun a o _ h => hin h.1)
    · rw [if_neg hf]
      exact noop (fun a o h _ => absurd h hf)
  refine ⟨rs.map (tzOne Ast.tzName text), ?_, by simp, ?_⟩
  · unfold tzRefine; rw [Ast.compile_tzName]
  · intro i h h'
    simp only [List.getElem_map]
    exact one rs[i]

/-- The hypotheses are met: "5pm EST" style text, with a tagged result spanning the first three characters. -/
example : ∃ r : PResult, r.getTag .timeExpression = true ∧
    FollowedByZone txt!"5pm (est)" r txt!"est" (-300) ∧ r.startDate.certain .tzoffset = false :=
  ⟨(PResult.mk' ⟨0⟩ 0 txt!"5pm").setTag .timeExpression, rfl,
    ⟨by decide, ⟨txt!" ", txt!"(", txt!")", by decide, by decide, by decide, by decide, by decide, by decide,
      by decide⟩, by unfold ZoneOffset; decide +kernel⟩, rfl⟩

/-- A word that is not a zone does not count. -/
example : ¬ ∃ abbr off, FollowedByZone txt!"5pm today" ((PResult.mk' ⟨0⟩ 0 txt!"5pm").setTag .timeExpression) abbr off := by
  rintro ⟨abbr, off, -, h, -⟩
  have h1 := zoneSuffix_abbr h
  obtain ⟨-, -, -, -, -, -, -, -, h2, -⟩ := h
  rw [h1] at h2
  revert h2
  decide

end Chrono.Props
