import Verif.Spec.Numbers
import Verif.Props.P65_ClockInText
/-!
# C86: numbers that are no times of day
-/
namespace Chrono.Props
open Chrono Chrono.Spec Chrono.Boost

/-! ## The shape of a match -/

/-- No word goes on from before the position to after it. -/
def Apt (s : St) : Prop := ∀ x c, s.prev = some x → s.rest.head? = some c → WordChar x → WordChar c → False

theorem apt_of_boundary {s : St} (h : s.atWordBoundary = true) : Apt s := by
  intro x c hx hc hx' hc'
  unfold St.atWordBoundary at h
  rw [wordChar_iff] at hx' hc'
  rw [hx] at h
  cases hr : s.rest with
  | nil => rw [hr] at hc; cases hc
  | cons a t =>
    rw [hr] at hc h
    cases hc
    simp [hx', hc'] at h

theorem timeExpr_all : ∃ b n mn frac range, Ast.timeExpr = .seq (.cap 1 (.alt (.alt .bol blankRe) (.one (.ch true 84))))
      (.seq (.alt .eps (.seq b (.star true blankRe))) (clockRe (.alt (.alt d14 n) mn) frac range)) ∧
    b.words = some [txt!"at", txt!"from"] ∧ b.groups = [] ∧ frac.groups = [5] ∧ range.endsWb = true ∧ ([2, 3, 4].all fun k => !range.groups.contains k) = true ∧
    (Re.seq (.cap 1 (.alt (.alt .bol blankRe) (.one (.ch true 84)))) (.seq (.alt .eps (.seq b (.star true blankRe))) (.alt n mn))).has (hits clockKeys false) (hits clockKeys false) [] = true :=
  ⟨_, _, _, _, _, rfl, by decide +kernel, by decide +kernel, by decide +kernel, by decide +kernel, by decide +kernel, by decide +kernel⟩

theorem lower_mem {X : Text} (h : toLower X = X) {c : Nat} (hc : c ∈ X) : lowerB c = c := by
  unfold toLower at h
  exact List.map_inj_left.1 (h.trans (List.map_id _).symm) c hc

theorem lower_infix {X w : Text} (h : toLower X = X) (hw : w <:+: X) : toLower w = w := by
  unfold toLower
  exact (List.map_inj_left.2 fun c hc => lower_mem h (hw.subset hc)).trans (List.map_id _)

/-- What a match of the clock-time pattern looks like. -/
theorem clock_match {X : Text} (hX : toLower X = X) {q : Nat} (hq : q ≤ X.length) {s' : St} (h : Rel Ast.timeExpr (startSt X q) s')
    (hclk : ∀ k ∈ clockKeys, ¬ Occurs k.atStart k.word k.atEnd X) :
    ∃ A D B, X = A ++ D ++ B ∧ D ≠ [] ∧ (∀ c ∈ D, isDigitB c = true) ∧ D.length ≤ 4 ∧ (∀ c, A.getLast? = some c → Blank c ∨ c = 116 ∨ c = 109) ∧
      (∀ c, B.head? = some c → isDigitB c = false ∧ (WordChar c → c = 97 ∨ c = 112 ∨ c = 111)) ∧ capSpan 2 s'.caps = some (A.length, A.length + D.length) ∧
      (capSpan 4 s'.caps = none ∨ ∃ sep ∈ [txt!":", [239, 188, 154]], ∃ c d, isDigitB c = true ∧ isDigitB d = true ∧ [c] ++ sep ++ [d] <:+: X) ∧ Apt s' := by
  obtain ⟨b, n, mn, frac, range, hast, hbw, hbg, hfg, hrw, hrg, hk⟩ := timeExpr_all
  rw [hast] at h
  obtain ⟨z1, h1, h⟩ := rel_seq.1 h
  obtain ⟨z2, h2, h⟩ := rel_seq.1 h
  unfold clockRe at h
  obtain ⟨z3, h3, h⟩ := rel_seq.1 h
  obtain ⟨z4, h4, h⟩ := rel_seq.1 h
  obtain ⟨z5, h5, h⟩ := rel_seq.1 h
  obtain ⟨z6, h6, h⟩ := rel_seq.1 h
  obtain ⟨z7, h7, h8⟩ := rel_seq.1 h
  have h3 : Rel (.cap 2 d14) z2 z3 := by
    rcases rel_cap2 h3 with h3 | ⟨s'', h3⟩
    · exact h3
    · exfalso
      have := Re.search_needs hk (by decide +kernel) (text := X) (by rw [hX]; exact hclk) (by simp)
      rw [hX] at this
      exact Re.search_none this _ hq _ (.seq h1 (.seq h2 h3))
  have o0 := startSt_on X q hq
  obtain ⟨u1, c1⟩ := h1.consumed
  obtain ⟨u2, c2⟩ := h2.consumed
  obtain ⟨u3, c3⟩ := h3.consumed
  obtain ⟨u4, c4⟩ := h4.consumed
  obtain ⟨u5, c5⟩ := h5.consumed
  have o1 := (o0.of_consumed c1).1
  have o2 := (o1.of_consumed c2).1
  have o3 := (o2.of_consumed c3).1
  have o4 := (o3.of_consumed c4).1
  have hl3 : Lang d14 u3 := lang_cap ⟨_, _, h3, c3⟩
  have hd3 : ∀ c ∈ u3, isDigitB c = true := fun c hc => hl3.allB _ (by decide +kernel) c hc
  have hm3 : 1 ≤ u3.length := hl3.minLen
  have hx3 : u3.length ≤ 4 := hl3.maxLen 4 rfl
  have hsplit : X = X.take z2.pos ++ u3 ++ z3.rest := by
    rw [List.append_assoc, ← c3.rest, o2.rest, List.take_append_drop]
  have hinf : ∀ {z z' : St} {u : Text}, OnSubj X z → Consumed z z' u → u <:+: X := fun {z z' u} o c => by
    refine ⟨X.take z.pos, z'.rest, ?_⟩
    rw [List.append_assoc, ← c.rest, o.rest, List.take_append_drop]
  have hprev1 : ∀ c, z1.prev = some c → Blank c ∨ c = 116 := by
    intro c hc
    rcases lead_prev (sp := blankRe) (by decide +kernel) (by decide) h1 c hc with h | h
    · exact .inl h
    · right
      have : c ∈ X := List.mem_of_mem_take (List.mem_of_getLast? (o1.prev ▸ hc))
      rw [← h]
      exact (lower_mem hX this).symm
  have hprev2 : ∀ c, z2.prev = some c → Blank c ∨ c = 116 ∨ c = 109 := by
    intro c hc
    rcases rel_alt.1 h2 with h2' | h2'
    · rw [rel_eps] at h2'
      subst h2'
      exact (hprev1 c hc).imp id .inl
    · obtain ⟨y, k1, k2⟩ := rel_seq.1 h2'
      obtain ⟨v1, d1⟩ := k1.consumed
      obtain ⟨v2, d2⟩ := k2.consumed
      have hv2 : Lang (.star true blankRe) v2 := ⟨_, _, k2, d2⟩
      rw [d2.prev] at hc
      cases hv : v2.getLast? with
      | some y =>
        rw [hv] at hc
        cases hc
        exact .inl (isSpace_blank (hv2.allB isSpaceB (by decide +kernel) _ (List.mem_of_getLast? hv)))
      | none =>
        rw [hv, Option.none_or, d1.prev] at hc
        have hw := (show Lang b v1 from ⟨_, _, k1, d1⟩).words _ hbw
        rw [lower_infix hX (hinf o1 d1)] at hw
        simp only [List.mem_cons, List.not_mem_nil, or_false] at hw
        rcases hw with rfl | rfl <;> cases hc
        · exact .inr (.inl rfl)
        · exact .inr (.inr rfl)
  refine ⟨X.take z2.pos, u3, z3.rest, hsplit, ?_, hd3, hx3, ?_, ?_, ?_, ?_, ?_⟩
  · intro h0; rw [h0] at hm3; cases hm3
  · rw [← o2.prev]; exact hprev2
  · -- what follows the hour
    have hnw : ∀ c, ¬ WordChar c → isDigitB c = false ∧ (WordChar c → c = 97 ∨ c = 112 ∨ c = 111) := by
      intro c hc
      refine ⟨?_, fun h => absurd h hc⟩
      unfold WordChar at hc
      unfold isDigitB
      simp
      omega
    intro c hc
    rcases rel_alt.1 h4 with h4' | h4'
    · obtain ⟨y, k1, k2⟩ := rel_seq.1 h4'
      obtain ⟨v1, d1⟩ := k1.consumed
      have hw := (show Lang sep1 v1 from ⟨_, _, k1, d1⟩).words _ rfl
      rw [lower_infix hX (hinf o3 d1)] at hw
      rw [d1.rest] at hc
      have key : ∀ w ∈ [txt!".", txt!":", [239, 188, 154]], ∀ r : Text, ∀ c, (w ++ r).head? = some c → ¬ WordChar c := by
        intro w hw r c hc
        simp only [List.mem_cons, List.not_mem_nil, or_false] at hw
        unfold WordChar
        rcases hw with rfl | rfl | rfl <;> (simp at hc; omega)
      exact hnw c (key v1 hw _ c hc)
    · rw [rel_eps] at h4'
      subst h4'
      rcases rel_alt.1 h5 with h5' | h5'
      · obtain ⟨y, k1, k2⟩ := rel_seq.1 h5'
        obtain ⟨v1, d1⟩ := k1.consumed
        obtain ⟨v2, d2⟩ := k2.consumed
        rw [d1.rest] at hc
        have hv1 : Lang (.star true blankRe) v1 := ⟨_, _, k1, d1⟩
        cases v1 with
        | cons a v1 =>
          have hc : a = c := by simpa using hc
          exact hnw _ (blank_notWord (isSpace_blank (hv1.allB isSpaceB (by decide +kernel) c (by simp [hc]))))
        | nil =>
          rw [List.nil_append, d2.rest] at hc
          have hv2 := mer_word (lang_cap (show Lang (.cap 6 merRe) v2 from ⟨_, _, k2, d2⟩)) (lower_infix hX (hinf (o4.of_consumed d1).1 d2))
          have hc' : c = 97 ∨ c = 112 ∨ c = 111 := by
            rcases hv2 with hv2 | ⟨x, rfl, -⟩
            · simp only [List.mem_cons, List.not_mem_nil, or_false] at hv2
              rcases hv2 with rfl | rfl | rfl | rfl | rfl | rfl | rfl | rfl <;> (simp at hc; omega)
            · simp at hc; omega
          refine ⟨?_, fun _ => hc'⟩
          unfold isDigitB
          simp
          omega
      · rw [rel_eps] at h5'
        subst h5'
        exact hnw c (ahead_rel h6 c hc)
  · -- the span of the hour
    have hspan : capSpan 2 s'.caps = capSpan 2 z3.caps := by
      rw [h8.span (by
        have := List.all_eq_true.1 hrg 2 (by simp)
        simp [Re.groups] at this ⊢
        exact this), h7.span (by decide), h6.span (by decide), h5.span (by decide +kernel), h4.span (by simp [minsRe, Re.groups, hfg, sep1, sep2, d12, digRe, wideColon])]
    rw [hspan]
    obtain ⟨y, -, rfl⟩ := rel_cap.1 h3
    have hp := c3.pos
    simp only at hp
    simp only [capSpan]
    rw [if_pos (by decide), hp, List.length_take, Nat.min_eq_left o2.le]
  · -- no seconds
    have hspan : capSpan 4 s'.caps = capSpan 4 z4.caps := by
      rw [h8.span (by
        have := List.all_eq_true.1 hrg 4 (by simp)
        simp [Re.groups] at this ⊢
        exact this), h7.span (by decide), h6.span (by decide), h5.span (by decide +kernel)]
    have h0 : capSpan 4 z3.caps = none := by
      rw [h3.span (by decide +kernel), h2.span (by simp [Re.groups, hbg, blankRe]), h1.span (by decide +kernel)]
      rfl
    rw [hspan]
    rcases rel_alt.1 h4 with h4' | h4'
    · obtain ⟨y, k1, k2⟩ := rel_seq.1 h4'
      obtain ⟨y2, k2, k3⟩ := rel_seq.1 k2
      rcases rel_alt.1 k3 with k3 | k3
      · obtain ⟨y3, k3, k4⟩ := rel_seq.1 k3
        obtain ⟨y4, k4, k5⟩ := rel_seq.1 k4
        obtain ⟨v1, d1⟩ := k1.consumed
        obtain ⟨v2, d2⟩ := k2.consumed
        obtain ⟨v3, d3⟩ := k3.consumed
        obtain ⟨v4, d4⟩ := k4.consumed
        have p1 := (o3.of_consumed d1).1
        have p2 := (p1.of_consumed d2).1
        have p3 := (p2.of_consumed d3).1
        have l2 : Lang d12 v2 := lang_cap ⟨_, _, k2, d2⟩
        have l4 : Lang (.seq digRe digRe) v4 := lang_cap ⟨_, _, k4, d4⟩
        have hw := (show Lang sep2 v3 from ⟨_, _, k3, d3⟩).words _ rfl
        rw [lower_infix hX (hinf p2 d3)] at hw
        right
        rcases List.eq_nil_or_concat v2 with e2 | ⟨w2, c, e2⟩
        · have := l2.minLen; rw [e2] at this; cases this
        · cases v4 with
          | nil => have := l4.minLen; cases this
          | cons d w4 =>
            refine ⟨v3, hw, c, d, l2.allB _ (by decide +kernel) c (by rw [e2]; simp), l4.allB _ (by decide +kernel) d (by simp), ?_⟩
            refine List.IsInfix.trans ⟨w2, w4, ?_⟩ (hinf p1 ((d2.trans d3).trans d4))
            rw [e2]; simp
      · rw [rel_eps] at k3
        subst k3
        left
        rw [k2.span (by decide +kernel), k1.span (by decide +kernel), h0]
    · rw [rel_eps] at h4'
      subst h4'
      exact .inl h0
  · -- the end
    rcases rel_alt.1 h8 with h8' | h8'
    · exact apt_of_boundary (h8'.endsWb (by simpa [Re.endsWb] using hrw))
    · rw [rel_eps] at h8'
      subst h8'
      obtain ⟨-, rfl⟩ := rel_look.1 h6
      rcases rel_alt.1 h7 with h7' | h7'
      · intro x c hx hc hw
        obtain ⟨y, u, hr, hd, rfl⟩ := rel_one.1 h7'
        simp only [St.adv, Option.some.injEq] at hx
        subst hx
        unfold Single.test at hd
        simp at hd
        exfalso
        unfold lowerB at hd
        unfold WordChar at hw
        split at hd <;> simp at hd <;> omega
      · rw [rel_eps] at h7'
        subst h7'
        intro x c _ hc _ hw
        exact ahead_rel h6 c hc hw

/-! ## A number that is no hour is not taken -/

theorem digit_iff {c : Nat} : Digit c ↔ isDigitB c = true := by
  unfold Digit isDigitB
  simp

theorem not_digit_iff {c : Nat} : ¬ Digit c ↔ isDigitB c = false := by
  rw [digit_iff]; simp

theorem foldl_digits (D : List Nat) (n : Nat) : digitsVal n D = List.foldl (fun (n c : Nat) => 10 * n + (c - 48)) n D := by
  induction D generalizing n with
  | nil => unfold digitsVal; exact (List.foldl_nil).symm
  | cons c D ih => unfold digitsVal; rw [List.foldl_cons, ih, Nat.mul_comm]

theorem valueOf_eq (D : Text) : valueOf D = digitsVal 0 D := by
  unfold valueOf
  exact (foldl_digits D 0).symm

theorem stoi_short {D : Text} (hne : D ≠ []) (hD : ∀ c ∈ D, isDigitB c = true) (h4 : D.length ≤ 4) : stoi D = .ok (valueOf D : Int) := by
  have h := digitsVal_lt hD 0
  have : 10 ^ D.length ≤ 10 ^ 4 := Nat.pow_le_pow_right (by decide) h4
  rw [stoi_digits hne hD, if_pos (by omega), valueOf_eq]

theorem hourOf_short {D : Text} (hne : D ≠ []) (hD : ∀ c ∈ D, isDigitB c = true) (h4 : D.length ≤ 4) : hourOf D = .ok (valueOf D : Int) := by
  unfold hourOf
  rw [if_neg ?_, if_neg ?_, stoi_short hne hD h4]
  · rintro rfl; exact absurd (hD 109 (by simp)) (by decide)
  · rintro rfl; exact absurd (hD 110 (by simp)) (by decide)

/-- Such a match gives an empty result. -/
theorem no_hour_extract {rt : Rt} {g : Globals} {tx : Text} {mt : Match} {ref : PTime} {idx : Nat} (hok : MatchOk Ast.timeExpr tx mt) (h1 : mt.lengthOf 1 ≤ mt.length)
    (hpos : mt.start ≤ tx.length) (h2 : mt.str 2 ≠ []) (hd : ∀ c ∈ mt.str 2, isDigitB c = true) (hl : (mt.str 2).length ≤ 4) (h4 : mt.str 4 = [])
    (hn : NoHour (valueOf (mt.str 2))) : ∃ res, timeExprExtract rt g tx mt ref idx = .ok res ∧ res.hasPossibleDates = false := by
  have h3 : mt.str 3 = [] ∨ mt.str 3 ≠ [] ∧ (∀ c ∈ mt.str 3, isDigitB c = true) ∧ (mt.str 3).length ≤ 4 := by
    rcases hok.group 3 (by decide) with h | ⟨a, b, -, -, -, -, -, body, hb, hb'⟩
    · exact .inl h.2
    · have key : ((Ast.timeExpr.bodies 3).all fun r => r.allB isDigitB && decide (1 ≤ r.minLen) && r.maxLen.any fun n => decide (n ≤ 4)) = true := by decide +kernel
      have := List.all_eq_true.1 key body hb
      simp only [Bool.and_eq_true, decide_eq_true_eq] at this
      refine .inr ⟨?_, fun c hc => hb'.allB _ this.1.1 c hc, ?_⟩
      · intro h0
        have := hb'.minLen
        rw [h0] at this
        simp at this
        omega
      · cases hx : body.maxLen with
        | none => rw [hx] at this; simp at this
        | some n =>
          rw [hx] at this
          have h5 := hb'.maxLen n hx
          have h6 : n ≤ 4 := by simpa using this.2
          omega
  have hm : ∃ H M : Int, minuteOf (valueOf (mt.str 2) : Int) (mt.str 3) = .ok (H, M) ∧ (60 ≤ M ∨ 24 < H) := by
    unfold minuteOf
    obtain ⟨n1, n2⟩ := hn
    rcases h3 with h | ⟨h, h', h''⟩
    · rw [h]
      simp only [List.isEmpty_nil, Bool.not_true, Bool.false_eq_true, if_false]
      by_cases h100 : (valueOf (mt.str 2) : Int) > 100
      · rw [if_pos h100]
        refine ⟨_, _, rfl, ?_⟩
        rw [Int.tdiv_eq_ediv_of_nonneg (by omega), Int.tmod_eq_emod_of_nonneg (by omega)]
        omega
      · rw [if_neg h100]
        exact ⟨_, _, rfl, .inr (by omega)⟩
    · rw [if_pos (by simpa using h), stoi_short h h' h'']
      exact ⟨_, _, rfl, .inr (by omega)⟩
  obtain ⟨H, M, hm, hb⟩ := hm
  have hp : ∃ b, precededByWord mt tx = .ok b := by
    unfold precededByWord Match.position substr
    by_cases h0 : mt.start > 0
    · rw [if_pos h0, if_pos (by omega)]; exact ⟨_, rfl⟩
    · rw [if_neg h0]; exact ⟨_, rfl⟩
  obtain ⟨b, hp⟩ := hp
  have hbare : (PResult.mk' ref idx ((mt.str 0).drop (mt.lengthOf 1))).hasPossibleDates = false := rfl
  unfold timeExprExtract
  have hsub : substr (mt.str 0) (mt.lengthOf 1) = .ok ((mt.str 0).drop (mt.lengthOf 1)) := by
    unfold substr
    rw [if_pos (by rw [← hok.len]; exact h1)]
  rw [hsub]
  simp only [Out.bind_ok]
  rw [hp]
  simp only [Out.bind_ok]
  cases b with
  | true => exact ⟨_, rfl, hbare⟩
  | false =>
    simp only [Bool.false_eq_true, if_false]
    have hf : fromSecond mt = .ok (some (-1)) := by unfold fromSecond; rw [h4]; rfl
    rw [hf]
    simp only [Out.bind_ok]
    rw [hourOf_short h2 hd hl]
    simp only [Out.bind_ok]
    rw [hm, h4]
    simp only [Out.bind_ok, List.isEmpty_nil, if_true]
    by_cases h60 : M ≥ 60
    · rw [if_pos h60]; exact ⟨_, rfl, hbare⟩
    · rw [if_neg h60, if_pos (by omega)]; exact ⟨_, rfl, hbare⟩

/-- No word goes on over the offset `k`. -/
def Cut (T : Text) (k : Nat) : Prop := ∀ x c, (T.take k).getLast? = some x → (T.drop k).head? = some c → WordChar x → WordChar c → False

theorem occurs_cut {T : Text} {k : Nat} (hk : Cut T k) {a e : Bool} {w : Text} (hw : w.head?.any isWordB = true) (h : Occurs a w e (T.drop k)) : Occurs a w e T := by
  obtain ⟨u, v, hu, h1, h2⟩ := h
  refine ⟨T.take k ++ u, v, ?_, fun ha c hc => ?_, h2⟩
  · rw [List.append_assoc, List.append_assoc, ← List.append_assoc u, ← hu, List.take_append_drop]
  · cases hl : u.getLast? with
    | some y =>
      rw [List.getLast?_append, hl] at hc
      exact h1 ha c (hl.trans (by simpa using hc))
    | none =>
      rw [List.getLast?_append, hl, Option.none_or] at hc
      have hu0 : u = [] := List.getLast?_eq_none_iff.1 hl
      subst hu0
      intro hcw
      cases w with
      | nil => cases hw
      | cons y w => exact hk c y hc (by rw [hu]; rfl) hcw (wordChar_iff.2 (by simpa using hw))

theorem clock_rejects {rt : Rt} {ref : PTime} {T : Text} (hT : toLower T = T)
    (hnum : ∀ A D B, toLower T = A ++ D ++ B → IsNumber A D B → 4 < D.length ∨ (∃ c, A.getLast? = some c ∧ WordChar c ∧ c ≠ 116 ∧ c ≠ 109) ∨
      (∃ c, B.head? = some c ∧ WordChar c ∧ c ≠ 97 ∧ c ≠ 112 ∧ c ≠ 111) ∨ NoHour (valueOf D))
    (hcol : ∀ c d, Digit c → Digit d → ∀ colon ∈ [txt!":", [239, 188, 154]], ¬ [c] ++ colon ++ [d] <:+: toLower T)
    (hclk : ∀ k ∈ clockKeys, ¬ Occurs k.atStart k.word k.atEnd T) {k : Nat} {g : Globals} {o : Out (List PResult × Globals)}
    (h : Scan rt timeExprParser Ast.timeExpr T ref k g o) (hk : Cut T k) : o = .ok ([], g) := by
  have main : ∀ {k : Nat} {g : Globals} {mt : Match}, Cut T k → Ast.timeExpr.search (T.drop k) = some mt →
      Cut T (k + mt.stop) ∧ ∃ res, timeExprParser.extract rt g (T.drop k) mt ref (k + mt.start) = .ok (res, g) ∧ res.hasPossibleDates = false := by
    intro k g mt hk hs
    have hX : toLower (T.drop k) = T.drop k := lower_infix hT (List.drop_suffix k T).isInfix
    obtain ⟨hsub, hle, ⟨s', -, hpos, hcaps, hrel⟩, -⟩ := Re.search_some hs
    have hok := Re.search_ok hs
    have hkw : (clockKeys.all fun k => k.word.head?.any isWordB) = true := by decide
    obtain ⟨A, D, B, e, hD0, hD, hD4, hA, hB, c2, c4, hapt⟩ := clock_match hX hle hrel (fun key hkey hocc =>
      hclk key hkey (occurs_cut hk (List.all_eq_true.1 hkw key hkey) hocc))
    obtain ⟨c, D', rfl⟩ : ∃ c D', D = c :: D' := by cases D with
      | nil => exact absurd rfl hD0
      | cons c D' => exact ⟨c, D', rfl⟩
    have hdc := hD c (by simp)
    have hcw : WordChar c := by rw [← digit_iff] at hdc; unfold Digit at hdc; unfold WordChar; omega
    have eT : T = (T.take k ++ A) ++ (c :: D') ++ B := by
      calc T = T.take k ++ T.drop k := (List.take_append_drop _ _).symm
        _ = _ := by rw [e]; simp
    have hlast : ∀ x, (T.take k ++ A).getLast? = some x → ¬ WordChar x ∨ x = 116 ∨ x = 109 := by
      intro x hx
      cases hl : A.getLast? with
      | some y =>
        rw [List.getLast?_append, hl] at hx
        obtain rfl : y = x := by simpa using hx
        rcases hA y hl with h | h
        · exact .inl (blank_notWord h)
        · exact .inr h
      | none =>
        rw [List.getLast?_append, hl, Option.none_or] at hx
        have hA0 : A = [] := List.getLast?_eq_none_iff.1 hl
        subst hA0
        exact .inl fun hxw => hk x c hx (by rw [e]; rfl) hxw hcw
    have hnd : ∀ x, (T.take k ++ A).getLast? = some x → ¬ Digit x := by
      intro x hx hd
      unfold Digit at hd
      rcases hlast x hx with h | h | h
      · unfold WordChar at h; omega
      · omega
      · omega
    have hno : NoHour (valueOf (c :: D')) := by
      rcases hnum (T.take k ++ A) (c :: D') B (hT.trans eT) ⟨hD0, fun x hx => digit_iff.2 (hD x hx), hnd, fun x hx => not_digit_iff.2 (hB x hx).1⟩ with h | ⟨x, h1, h2, h3, h4⟩ | ⟨x, h1, h2, h3, h4, h5⟩ | h
      · omega
      · rcases hlast x h1 with h | h | h
        · exact absurd h2 h
        · exact absurd h h3
        · exact absurd h h4
      · rcases (hB x h1).2 h2 with h | h | h
        · exact absurd h h3
        · exact absurd h h4
        · exact absurd h h5
      · exact h
    have hstr : ∀ n, n ≠ 0 → mt.str n = (match capSpan n mt.caps with | some (a, b) => slice (T.drop k) a b | none => []) := by
      intro n hn
      unfold Match.str
      rw [if_neg hn, hsub]
      rcases capSpan n mt.caps with _ | ⟨a, b⟩ <;> rfl
    have s2 : mt.str 2 = c :: D' := by
      rw [hstr 2 (by decide), ← hcaps, c2]
      simp only
      unfold slice
      rw [e, List.append_assoc, List.drop_left, Nat.add_sub_cancel_left, List.take_left]
    have s4 : mt.str 4 = [] := by
      rcases c4 with h | ⟨sep, hsep, x, y, hx, hy, hinf⟩
      · rw [hstr 4 (by decide), ← hcaps, h]
      · exact absurd (by rw [hT]; exact hinf.trans (List.drop_suffix k T).isInfix) (hcol x y (digit_iff.2 hx) (digit_iff.2 hy) sep hsep)
    have h1 : mt.lengthOf 1 ≤ mt.length := by
      unfold Match.lengthOf Match.length
      rcases hok.group 1 (by decide) with ⟨-, h⟩ | ⟨a, b, -, h1, h2, h3, h4, -⟩
      · rw [h]; simp
      · rw [h4]; unfold slice; simp; omega
    have hmin : 1 ≤ mt.length := by rw [hok.len]; exact Nat.le_trans timeExpr_min hok.lang.minLen
    unfold Match.length at hmin
    have hstop := hok.stop_le
    refine ⟨?_, ?_⟩
    · obtain ⟨u, hu⟩ := hrel.consumed
      have o := ((startSt_on _ _ hle).of_consumed hu).1
      intro x y hx hy
      have ht : T.take (k + mt.stop) = T.take k ++ (T.drop k).take mt.stop := List.take_add
      rw [ht, List.getLast?_append] at hx
      refine hapt x y ?_ ?_
      · rw [o.prev, hpos]
        cases hl : ((T.drop k).take mt.stop).getLast? with
        | some z => rw [hl] at hx; exact hx
        | none =>
          have := List.getLast?_eq_none_iff.1 hl
          have := congrArg List.length this
          rw [List.length_take] at this
          simp only [List.length_nil] at this
          omega
      · rw [o.rest, hpos, List.drop_drop]; exact hy
    · obtain ⟨res, r1, r2⟩ := no_hour_extract (rt := rt) (g := g) (ref := ref) (idx := k + mt.start) hok h1 hle (by rw [s2]; simp) (by rw [s2]; exact hD)
        (by rw [s2]; exact hD4) s4 (by rw [s2]; exact hno)
      exact ⟨res, pureExtract_ok r1, r2⟩
  induction h with
  | done _ => rfl
  | @step k g mt res g' out hs hx _ ih =>
    obtain ⟨m1, res', m2, m3⟩ := main (g := g) hk hs
    rw [m2] at hx
    cases hx
    rw [ih m1, m3]
    rfl
  | @fail k g mt hs hx =>
    obtain ⟨-, res', m2, -⟩ := main (g := g) hk hs
    exact absurd m2 (hx _)

/-! ## The other patterns -/

theorem middleEndian_numbers {text : Text}
    (h : ∀ w m gap o d, monthWord w m = true → Gap gap → 1 ≤ d → d ≤ 31 → words o = ordinalName d → ¬ w ++ gap ++ o <:+: toLower text)
    (hm : ∀ w m gap c, monthWord w m = true → Gap gap → Digit c → ¬ w ++ gap ++ [c] <:+: toLower text) :
    Ast.middleEndian.search (toLower text) = none := by
  cases hs : Ast.middleEndian.search (toLower text) with
  | none => rfl
  | some mt =>
    exfalso
    obtain ⟨hsub, hle, ⟨s', -, -, -, hrel⟩, -⟩ := Re.search_some hs
    obtain ⟨a, w, m, g, d, r, ws, he, hmw, hws, hg, hord, dx, dy, hdl, hda, hdm⟩ := middleEndian_days
    rw [he] at hrel
    simp only [rel_seq] at hrel
    obtain ⟨s1, h1, s2, h2, s3, h3, s4, h4, s5, h5, h6⟩ := hrel
    obtain ⟨s6, h5', rfl⟩ := rel_cap.1 h5
    obtain ⟨u1, c1⟩ := h1.consumed
    obtain ⟨u2, c2⟩ := h2.consumed
    obtain ⟨u3, c3⟩ := h3.consumed
    obtain ⟨u4, c4⟩ := h4.consumed
    obtain ⟨u5, c5⟩ := h5'.consumed
    have e := ((((c1.trans c2).trans c3).trans c4).trans c5).rest
    have htext : toLower text = (toLower text).take mt.start ++ u1 ++ u2 ++ u3 ++ u4 ++ u5 ++ s6.rest := by
      have e' : (toLower text).drop mt.start = _ := e
      calc toLower text = (toLower text).take mt.start ++ (toLower text).drop mt.start := (List.take_append_drop _ _).symm
        _ = _ := by rw [e']; simp only [List.append_assoc]
    have i3 : u3 <:+: toLower text := ⟨(toLower text).take mt.start ++ u1 ++ u2, u4 ++ u5 ++ s6.rest, by rw [← List.append_assoc, ← List.append_assoc]; exact htext.symm⟩
    have i5 : u5 <:+: toLower text := ⟨_, _, htext.symm⟩
    have i345 : u3 ++ u4 ++ u5 <:+: toLower text := ⟨(toLower text).take mt.start ++ u1 ++ u2, s6.rest, by
      rw [← List.append_assoc, ← List.append_assoc]; exact htext.symm⟩
    have hmem := (lang_cap (show Lang (.cap 3 m) u3 from ⟨_, _, h3, c3⟩)).words _ hmw
    rw [lower_of_infix i3] at hmem
    obtain ⟨n, hnr, hn⟩ := List.any_eq_true.1 (List.all_eq_true.1 hws _ hmem)
    have hgap : Gap u4 := gap_of ⟨_, _, h4, c4⟩ hg
    rcases ordinals_rel hord h5' with hl | hw
    · rw [hdl] at hl
      obtain ⟨s7, h7, h8⟩ := rel_seq.1 hl
      obtain ⟨u7, c7⟩ := h7.consumed
      obtain ⟨u8, c8⟩ := h8.consumed
      obtain ⟨d1, d2⟩ := isDigits_of (show Lang dx u7 from ⟨_, _, h7, c7⟩) hda hdm
      have e5 : u5 = u7 ++ u8 := c5.word_eq (c7.trans c8)
      cases u7 with
      | nil => exact d1 rfl
      | cons c u7 =>
        refine hm u3 n u4 c hn hgap (d2 c (by simp)) (List.IsInfix.trans ⟨[], u7 ++ u8, ?_⟩ i345)
        rw [e5]; simp
    · obtain ⟨k, k1, k2, ho⟩ := hw u5 c5 (lower_of_infix i5)
      exact h u3 n u4 u5 k hn hgap k1 k2 ho i345

theorem monthName_parts : ∃ a m sp y l ws, Ast.monthName = .seq (.cap 1 a) (.seq (.cap 2 m) (.seq sp (.seq (.alt y .eps) l))) ∧ m.words = some ws ∧
    (ws.all fun w => ((List.range 13).any fun n => monthWord w n) || w.contains 92) = true ∧ sp.allB gapB = true ∧
    (∃ p c d r, y = .seq (.alt p .eps) (.seq c (.seq (.cap 3 d) r)) ∧ p.allB gapB = true ∧ c.allB gapB = true ∧ d.allB isDigitB = true ∧ 1 ≤ d.minLen) ∧
    (Re.seq (.cap 1 a) (.seq (.cap 2 m) (.seq sp (.seq .eps l)))).has (hits monthKeys false) (hits monthKeys false) [] = true :=
  ⟨_, _, _, _, _, _, rfl, rfl, by decide +kernel, by decide +kernel, ⟨_, _, _, _, rfl, by decide +kernel, by decide +kernel, by decide +kernel, by decide +kernel⟩, by decide +kernel⟩

theorem monthName_numbers {text : Text} (h92 : 92 ∉ text) (hw : ∀ w ∈ monthForms, ¬ WholeWord w (toLower text))
    (hm : ∀ w m gap c, monthWord w m = true → Gap gap → Digit c → ¬ w ++ gap ++ [c] <:+: toLower text) : Ast.monthName.search (toLower text) = none := by
  cases hs : Ast.monthName.search (toLower text) with
  | none => rfl
  | some mt =>
    exfalso
    obtain ⟨hsub, hle, ⟨s', -, -, -, hrel⟩, -⟩ := Re.search_some hs
    obtain ⟨a, m, sp, y, l, ws, he, hmw, hws, hsp, ⟨p, c, d, r, hy, hp, hc, hd, hd1⟩, hk⟩ := monthName_parts
    rw [he] at hrel
    simp only [rel_seq] at hrel
    obtain ⟨s1, h1, s2, h2, s3, h3, s4, h4, h5⟩ := hrel
    rcases rel_alt.1 h4 with h4 | h4
    · rw [hy] at h4
      simp only [rel_seq] at h4
      obtain ⟨s5, h6, s6, h7, s7, h8, h9⟩ := h4
      obtain ⟨u1, c1⟩ := h1.consumed
      obtain ⟨u2, c2⟩ := h2.consumed
      obtain ⟨u3, c3⟩ := h3.consumed
      obtain ⟨u6, c6⟩ := h6.consumed
      obtain ⟨u7, c7⟩ := h7.consumed
      obtain ⟨u8, c8⟩ := h8.consumed
      have e := (((((c1.trans c2).trans c3).trans c6).trans c7).trans c8).rest
      have htext : toLower text = (toLower text).take mt.start ++ u1 ++ u2 ++ u3 ++ u6 ++ u7 ++ u8 ++ s7.rest := by
        have e' : (toLower text).drop mt.start = _ := e
        calc toLower text = (toLower text).take mt.start ++ (toLower text).drop mt.start := (List.take_append_drop _ _).symm
          _ = _ := by rw [e']; simp only [List.append_assoc]
      have i2 : u2 <:+: toLower text := ⟨(toLower text).take mt.start ++ u1, u3 ++ u6 ++ u7 ++ u8 ++ s7.rest, by
        simp only [← List.append_assoc]; exact htext.symm⟩
      have iall : u2 ++ (u3 ++ u6 ++ u7) ++ u8 <:+: toLower text := ⟨(toLower text).take mt.start ++ u1, s7.rest, by
        simp only [← List.append_assoc]; exact htext.symm⟩
      have hmem := (lang_cap (show Lang (.cap 2 m) u2 from ⟨_, _, h2, c2⟩)).words _ hmw
      rw [lower_of_infix i2] at hmem
      have := List.all_eq_true.1 hws _ hmem
      rw [Bool.or_eq_true] at this
      rcases this with hn | hn
      · obtain ⟨n, -, hn⟩ := List.any_eq_true.1 hn
        obtain ⟨d1, d2⟩ := isDigits_of (lang_cap (show Lang (.cap 3 d) u8 from ⟨_, _, h8, c8⟩)) hd hd1
        have g1 : Gap u3 := gap_of ⟨_, _, h3, c3⟩ hsp
        have g2 : Gap u6 := by
          rcases rel_alt.1 h6 with h6 | h6
          · exact gap_of ⟨_, _, h6, c6⟩ hp
          · rw [rel_eps] at h6
            subst h6
            have := c6.word_eq (.nil _)
            subst this
            intro c hc; cases hc
        have g3 : Gap u7 := gap_of ⟨_, _, h7, c7⟩ hc
        cases u8 with
        | nil => exact d1 rfl
        | cons x u8 =>
          refine hm u2 n (u3 ++ u6 ++ u7) x hn ?_ (d2 x (by simp)) (List.IsInfix.trans ⟨[], u8, ?_⟩ iall)
          · intro z hz
            rcases List.mem_append.1 hz with hz | hz
            · rcases List.mem_append.1 hz with hz | hz
              · exact g1 z hz
              · exact g2 z hz
            · exact g3 z hz
          · simp
      · have h92' : 92 ∈ toLower text := i2.subset (by simpa using hn)
        unfold toLower at h92'
        obtain ⟨z, hz, hz'⟩ := List.mem_map.1 h92'
        unfold lowerB at hz'
        split at hz'
        · omega
        · subst hz'; exact h92 hz
    · have := Re.search_needs hk (by decide +kernel) (text := text) (by
        intro k hk
        rcases List.mem_append.1 hk with hk | hk
        · exact not_whole hw k hk
        · rw [List.mem_singleton] at hk; subst hk; exact no_backslash h92) (by simp)
      exact Re.search_none this _ hle _ (.seq h1 (.seq h2 (.seq h3 (.seq h4 h5))))

theorem iso_month : ∃ a y d m e r, Ast.iso = .seq (.cap 1 a) (.seq (.cap 2 y) (.seq d (.seq (.cap 3 m) (.seq e r)))) ∧ d.words = some [txt!"-"] ∧ e.words = some [txt!"-"] ∧
    m.allB isDigitB = true ∧ 1 ≤ m.minLen ∧ (m.maxLen.any fun n => decide (n ≤ 4)) = true ∧ r.groups.contains 3 = false ∧ e.groups.contains 3 = false :=
  ⟨_, _, _, _, _, _, rfl, by decide +kernel, by decide +kernel, by decide +kernel, by decide +kernel, by decide +kernel, by decide +kernel, by decide +kernel⟩

/-- What stands in the place of the month is a number between hyphens. -/
theorem iso_month_number {X : Text} (hX : toLower X = X) {mt : Match} (hs : Ast.iso.search X = some mt) :
    ∃ A B, X = A ++ [45] ++ mt.str 3 ++ 45 :: B ∧ mt.str 3 ≠ [] ∧ (∀ c ∈ mt.str 3, isDigitB c = true) ∧ (mt.str 3).length ≤ 4 := by
  obtain ⟨cs, hcl, hg⟩ := Re.search_cl hs
  obtain ⟨P, Q, h0⟩ := str_infix hs 0
  obtain ⟨a, y, d, m, e, r, he, h1, h2, h3, h4, h5, h6, h7⟩ := iso_month
  rw [he] at hcl
  obtain ⟨w1, v1, c1, d1, e0, f1, k1, l1⟩ := cl_seq hcl
  obtain ⟨w2, v2, c2, d2, rfl, rfl, k2, l2⟩ := cl_seq l1
  obtain ⟨w3, v3, c3, d3, rfl, rfl, k3, l3⟩ := cl_seq l2
  obtain ⟨w4, v4, c4, d4, rfl, rfl, k4, l4⟩ := cl_seq l3
  obtain ⟨w5, v5, c5, d5, rfl, rfl, k5, l5⟩ := cl_seq l4
  obtain ⟨c4', rfl, k4⟩ := cl_cap k4
  have s3 : mt.str 3 = w4 := by
    rw [hg 3 (by decide), f1, List.append_assoc, List.append_assoc, List.append_assoc, List.append_assoc, groupText_append (l5.lacks h6), groupText_append (k5.lacks h7)]
    rfl
  rw [s3]
  rw [e0] at h0
  have low : ∀ w, w <:+: X → toLower w = w := fun w hw => lower_infix hX hw
  have hw3 := k3.lang.words _ h1
  rw [low w3 ⟨P ++ w1 ++ w2, w4 ++ (w5 ++ v5) ++ Q, by rw [← h0]; simp⟩, List.mem_singleton] at hw3
  have hw5 := k5.lang.words _ h2
  rw [low w5 ⟨P ++ w1 ++ w2 ++ w3 ++ w4, v5 ++ Q, by rw [← h0]; simp⟩, List.mem_singleton] at hw5
  obtain ⟨x1, x2⟩ := isDigits_of k4.lang h3 h4
  refine ⟨P ++ w1 ++ w2, v5 ++ Q, ?_, x1, fun c hc => digit_iff.1 (x2 c hc), ?_⟩
  · rw [← h0, hw3, hw5]; simp
  · cases hm : m.maxLen with
    | none => rw [hm] at h5; cases h5
    | some n =>
      rw [hm] at h5
      have := k4.lang.maxLen n hm
      have : n ≤ 4 := by simpa using h5
      omega

theorem iso_rejects {rt : Rt} {ref : PTime} {T : Text} (hT : toLower T = T) (hn : NoNumberIsATime T) {k : Nat} {g : Globals} {o : Out (List PResult × Globals)}
    (h : Scan rt isoParser Ast.iso T ref k g o) : o = .ok ([], g) := by
  have main : ∀ {k : Nat} {g : Globals} {mt : Match}, Ast.iso.search (T.drop k) = some mt →
      ∃ res, isoParser.extract rt g (T.drop k) mt ref (k + mt.start) = .ok (res, g) ∧ res.hasPossibleDates = false := by
    intro k g mt hs
    have hX : toLower (T.drop k) = T.drop k := lower_infix hT (List.drop_suffix k T).isInfix
    obtain ⟨A, B, e, m1, m2, m3⟩ := iso_month_number hX hs
    obtain ⟨-, -, ⟨d, -, h4⟩, -⟩ := iso_groups hs
    have hno : NoHour (valueOf (mt.str 3)) := by
      have eT : toLower T = (T.take k ++ A ++ [45]) ++ mt.str 3 ++ (45 :: B) := by
        rw [hT]
        calc T = T.take k ++ T.drop k := (List.take_append_drop _ _).symm
          _ = _ := by rw [e]; simp
      rcases hn.numbers _ _ _ eT ⟨m1, fun c hc => digit_iff.2 (m2 c hc), by intro c hc; simp at hc; subst hc; unfold Digit; omega,
        by intro c hc; simp at hc; subst hc; unfold Digit; omega⟩ with h | ⟨c, h, h', -⟩ | ⟨c, h, h', -⟩ | h
      · omega
      · simp at h; subst h; unfold WordChar at h'; omega
      · simp at h; subst h; unfold WordChar at h'; omega
      · exact h
    refine ⟨PResult.mk' ref (k + mt.start) (mt.str 0), pureExtract_ok ?_, rfl⟩
    unfold isoExtract
    unfold NoHour at hno
    rw [stoi_short m1 m2 m3, Out.bind_ok, h4, Out.bind_ok, if_pos (by omega)]
    rfl
  induction h with
  | done _ => rfl
  | @step k g mt res g' out hs hx _ ih =>
    obtain ⟨res', m2, m3⟩ := main (g := g) hs
    rw [m2] at hx
    cases hx
    rw [ih, m3]
    rfl
  | @fail k g mt hs hx =>
    obtain ⟨res', m2, -⟩ := main (g := g) hs
    exact absurd m2 (hx _)

/-! ## The theorem -/

/-- **C86.** A text with none of the program's words for dates and times and in which no number is a time of day or part of a date names no date, whatever else stands in it:
the program says so, for every reference time. -/
theorem c86_numbers_that_are_no_times (rt : Rt) (hrt : Rt.Defined rt) (sort : List PResult → List PResult) (hs : Sorts sort) (text : Text) (hw : FewDateWords [] text)
    (hn : NoNumberIsATime text) (ref : PTime) : mainRun rt sort text ref = .ok txt!"[???] -- Invalid date" := by
  have hclk : ∀ k ∈ clockKeys, ¬ Occurs k.atStart k.word k.atEnd (toLower text) := by
    intro k hk
    obtain ⟨w, hw', hk⟩ : ∃ w ∈ clockWords, k ∈ clockKeysOf w := by
      rcases List.mem_append.1 hk with hk | hk
      · exact ⟨_, by simp [clockWords], hk⟩
      · exact ⟨_, by simp [clockWords], hk⟩
    obtain ⟨c1, c2, c3⟩ := hw.clock w hw'
    simp only [clockKeysOf, List.mem_cons, List.not_mem_nil, or_false] at hk
    rcases hk with rfl | rfl | rfl
    · exact c1
    · exact not_infix c2
    · exact not_infix c3
  have hnl : NoNumberIsATime (toLower text) :=
    ⟨by rw [toLower_toLower]; exact hn.numbers, by rw [toLower_toLower]; exact hn.colons, by rw [toLower_toLower]; exact hn.months⟩
  have hclock : ParserReturns rt ref text timeExprParser [] :=
    ⟨_, clock_rejects (toLower_toLower text) hnl.numbers hnl.colons hclk (execute_scan hrt.stale timeExpr_pattern timeExpr_min integerWords text ref) (by
      intro x c hx; simp at hx)⟩
  have quiet : ∀ {P : Parser} {r : Re}, P.pattern = some r → r.search (toLower text) = none → ParserReturns rt ref text P [] := by
    intro P r hr hn
    refine silent_returns ?_
    unfold silent
    rw [hr]
    simp only [hn, Option.isNone_none]
  have hwd := no_wordy hw (by simp)
  have hall : ∀ P ∈ mainParsers, ParserReturns rt ref text P [] := by
    intro P hPm
    simp only [mainParsers, List.mem_cons, List.not_mem_nil, or_false] at hPm
    rcases hPm with rfl | rfl | rfl | rfl | rfl | rfl | rfl | rfl | rfl | rfl | rfl | rfl
    · exact quiet casualTime_pattern (no_casualTime hw (by simp))
    · exact quiet deadline_pattern (hwd _ (by simp))
    · exact silent_returns (by unfold silent; rw [dayOfWeek_pattern])
    · exact quiet casualDate_pattern (no_casualDate hw (by simp))
    · exact quiet middleEndian_pattern (middleEndian_numbers hw.dates hn.months)
    · exact quiet timeLater_pattern (hwd _ (by simp))
    · exact quiet monthName_pattern (monthName_numbers hw.backslash (fun w hw' => hw.months w hw' (by simp)) hn.months)
    · exact quiet timeAgo_pattern (hwd _ (by simp))
    · exact hclock
    · exact ⟨_, iso_rejects (toLower_toLower text) hnl (execute_scan hrt.stale iso_pattern iso_min integerWords text ref)⟩
    · exact quiet holiday_pattern (hwd _ (by simp))
    · exact quiet week_pattern (hwd _ (by simp))
  obtain ⟨rss, h4⟩ := forall₂_of_forall (l := mainParsers) (R := fun P rs => ParserReturns rt ref text P rs ∧ rs = [])
    (fun P hP => ⟨[], hall P hP, rfl⟩)
  have h0 : ∀ (ps : List Parser) rss, List.Forall₂ (fun P rs => ParserReturns rt ref text P rs ∧ rs = []) ps rss → rss.flatten = [] := by
    intro ps rss hh
    induction hh with
    | nil => rfl
    | cons h1 _ ih => simp [h1.2, ih]
  obtain ⟨g, hg⟩ := runParsers_main.2 ⟨rss, h4.imp fun _ _ h => h.1, rfl⟩
  rw [mainRun_eq hg, h0 _ _ h4]
  have : sort [] = [] := (hs []).1.eq_nil
  rw [this]
  rfl

/-! ## The conditions can be met, and are needed -/

def noHourB (n : Nat) : Bool := decide (24 < n) && (decide (n ≤ 100) || decide (24 < n / 100) || decide (60 ≤ n % 100))

def numberB (A D B : Text) : Bool :=
  decide (4 < D.length) || (A.getLast?.any fun c => isWordB c && c != 116 && c != 109) || (B.head?.any fun c => isWordB c && c != 97 && c != 112 && c != 111) || noHourB (valueOf D)

/-- Decides the three conditions of `NoNumberIsATime`, at every offset of the text (in lower case). -/
def numberChecks (t : Text) : List Bool :=
  let at' (p : Nat → Bool) := (List.range (t.length + 1)).all p
  [at' fun i => let D := (t.drop i).takeWhile isDigitB; D.isEmpty || (t.take i).getLast?.any isDigitB || numberB (t.take i) D ((t.drop i).drop D.length),
   at' fun i => match t.drop i with
     | c :: 58 :: d :: _ => !(isDigitB c && isDigitB d)
     | c :: 239 :: 188 :: 154 :: d :: _ => !(isDigitB c && isDigitB d)
     | _ => true,
   at' fun i => monthWordsList.all fun w => !w.isPrefixOf (t.drop i) || !(((t.drop i).drop w.length).dropWhile gapB).head?.any isDigitB]

theorem month_listed {w : Text} {m : Nat} (hw : monthWord w m = true) : w ∈ monthWordsList := by
  unfold monthWord at hw
  simp only [Bool.and_eq_true, Bool.or_eq_true, beq_iff_eq, decide_eq_true_eq] at hw
  unfold monthWordsList
  refine List.mem_flatMap.2 ⟨m, List.mem_range.2 (by omega), ?_⟩
  simp only [List.mem_cons, List.not_mem_nil, or_false]
  rcases hw.2 with ((h | h) | h) | ⟨-, h | h⟩
  · exact .inl h
  · exact .inr (.inl h)
  · exact .inr (.inr (.inl h))
  · exact .inr (.inr (.inr (.inl h)))
  · exact .inr (.inr (.inr (.inr h)))

theorem numberChecks_sound {text : Text} (h : (numberChecks (toLower text)).all id = true) : NoNumberIsATime text := by
  generalize hT : toLower text = T at h
  unfold numberChecks at h
  simp only [List.all_cons, List.all_nil, Bool.and_true, Bool.and_eq_true, id] at h
  obtain ⟨h1, h2, h4⟩ := h
  have place : ∀ {p : Nat → Bool}, (List.range (T.length + 1)).all p = true → ∀ {A B : Text}, T = A ++ B → p A.length = true := by
    intro p hp A B e
    exact List.all_eq_true.1 hp A.length (List.mem_range.2 (by rw [e]; simp; omega))
  refine ⟨?_, ?_, ?_⟩ <;> rw [hT]
  · rintro A D B e ⟨k1, k2, k3, k4⟩
    have e' : T = A ++ (D ++ B) := by rw [e, List.append_assoc]
    have := place h1 e'
    have htk : (D ++ B).takeWhile isDigitB = D := by
      rw [List.takeWhile_append_of_pos (fun c hc => digit_iff.1 (k2 c hc))]
      cases B with
      | nil => simp
      | cons c B => rw [List.takeWhile_cons_of_neg (by simpa using not_digit_iff.1 (k4 c rfl)), List.append_nil]
    rw [e', List.drop_left, List.take_left] at this
    simp only [htk, List.drop_left] at this
    rw [Bool.or_eq_true, Bool.or_eq_true] at this
    rcases this with (h | h) | h
    · exact absurd (by simpa using h) k1
    · cases hl : A.getLast? with
      | none => rw [hl] at h; cases h
      | some c =>
        rw [hl] at h
        exact absurd (digit_iff.2 (by simpa using h)) (k3 c hl)
    · unfold numberB at h
      simp only [Bool.or_eq_true, decide_eq_true_eq] at h
      rcases h with ((h | h) | h) | h
      · exact .inl h
      · cases hl : A.getLast? with
        | none => rw [hl] at h; cases h
        | some c =>
          rw [hl] at h
          simp only [Option.any_some, Bool.and_eq_true, bne_iff_ne] at h
          exact .inr (.inl ⟨c, rfl, wordChar_iff.2 h.1.1, h.1.2, h.2⟩)
      · cases hl : B.head? with
        | none => rw [hl] at h; cases h
        | some c =>
          rw [hl] at h
          simp only [Option.any_some, Bool.and_eq_true, bne_iff_ne] at h
          exact .inr (.inr (.inl ⟨c, rfl, wordChar_iff.2 h.1.1.1, h.1.1.2, h.1.2, h.2⟩))
      · unfold noHourB at h
        simp only [Bool.and_eq_true, Bool.or_eq_true, decide_eq_true_eq, or_assoc] at h
        exact .inr (.inr (.inr h))
  · rintro c d hc hd colon hco ⟨A, B, e⟩
    have := place h2 (A := A) (B := [c] ++ colon ++ [d] ++ B) (by rw [← e]; simp)
    rw [← e, List.append_assoc A, List.drop_left] at this
    rw [digit_iff] at hc hd
    simp only [List.mem_cons, List.not_mem_nil, or_false] at hco
    rcases hco with rfl | rfl
    · simp [hc, hd] at this
    · simp [hc, hd] at this
  · rintro w m gap c hw hg hc ⟨A, B, e⟩
    have := place h4 (A := A) (B := w ++ gap ++ [c] ++ B) (by rw [← e]; simp)
    have := List.all_eq_true.1 this w (month_listed hw)
    rw [← e, List.append_assoc A, List.drop_left, Bool.or_eq_true] at this
    rcases this with h | h
    · rw [show w.isPrefixOf (w ++ gap ++ [c] ++ B) = true by
        rw [List.isPrefixOf_iff_prefix, List.append_assoc, List.append_assoc]; exact List.prefix_append _ _] at h
      cases h
    · rw [show w ++ gap ++ [c] ++ B = w ++ (gap ++ (c :: B)) by simp, List.drop_left, List.dropWhile_append_of_pos, List.dropWhile_cons_of_neg] at h
      · rw [digit_iff] at hc
        simp [hc] at h
      · unfold Digit at hc
        unfold gapB isSpaceB
        simp
        omega
      · intro z hz
        have := hg z hz
        unfold gapB
        unfold Blank at this
        unfold isSpaceB
        simp
        omega

/-- **C86: the conditions are met** in ordinary texts. -/
theorem c86_conditions_are_met : ∀ x ∈ [txt!"I paid 42 Dollars for 99.50 balloons (and 2500-30-30 more) on the 9th floor.", txt!"Agent 00700 sold 77 B52s to 5551234!"],
    FewDateWords [] x ∧ NoNumberIsATime x := by
  have h : ∀ x ∈ [txt!"I paid 42 Dollars for 99.50 balloons (and 2500-30-30 more) on the 9th floor.", txt!"Agent 00700 sold 77 B52s to 5551234!"],
    ((dateWordChecks x).drop 1).all id = true ∧ (numberChecks (toLower x)).all id = true := by decide +kernel
  exact fun x hx => ⟨fewDateWords_of (h x hx).1, numberChecks_sound (h x hx).2⟩

/-- **C86: each condition is needed.** A text without date words that breaks only one of the conditions on numbers does not get the answer that there is no date: `I paid 24 dollars` is
read as a time, and so on (`77:30:45` even makes the program throw). -/
theorem c86_conditions_are_needed : ∀ p ∈ [(0, txt!"I paid 24 dollars"), (0, txt!"cat9"), (0, txt!"9a"), (1, txt!"77:30:45"), (2, txt!"mar0077")],
    ((dateWordChecks p.2).drop 1).all id = true ∧ numberChecks (toLower p.2) = (List.range 3).map (fun i => decide (i ≠ p.1)) ∧
      mainRun (Rt.usual 0) sortKeep p.2 exampleRef ≠ .ok txt!"[???] -- Invalid date" := by
  have h : ∀ p ∈ [(0, txt!"I paid 24 dollars"), (0, txt!"cat9"), (0, txt!"9a"), (1, txt!"77:30:45"), (2, txt!"mar0077")],
    ((dateWordChecks p.2).drop 1).all id = true ∧ numberChecks (toLower p.2) = (List.range 3).map (fun i => decide (i ≠ p.1)) ∧
      (match mainRun (Rt.usual 0) sortKeep p.2 exampleRef with | .ok l => l != txt!"[???] -- Invalid date" | _ => true) = true := by decide +kernel
  intro p hp
  obtain ⟨h1, h2, h3⟩ := h p hp
  refine ⟨h1, h2, fun h4 => ?_⟩
  rw [h4] at h3
  simp at h3

end Chrono.Props
