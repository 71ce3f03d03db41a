import Mathlib.Data.List.Infix
import Verif.Lemmas.Analysis
import Verif.Lemmas.Template
import Verif.Spec.DateWords
/-!
# Words without which a pattern cannot match

`Re.has` walks through a pattern and keeps what is known about the text just before the current position: bytes, and
whether the position is the edge of a word.  Every way through the pattern has to meet one of the given key words.
-/
namespace Chrono
open Spec

/-- What is known about the text before a position, latest first. -/
inductive Known where
  | ch (c : Nat)     -- a byte that is `c` in lower case
  | nw               -- a byte that does not belong to a word
  | dg               -- a digit
  | any              -- a byte
  | edge             -- the position is not inside a word
  deriving DecidableEq, Repr

/-- Not inside a word. -/
def Edge (back rest : Text) : Prop :=
  ∀ x y, back.head? = some x → rest.head? = some y → isWordB x = true → isWordB y = false

/-- `back` is the text before the position, latest byte first. -/
inductive Desc : List Known → Text → Text → Prop where
  | nil {back rest} : Desc [] back rest
  | ch {T back rest x c} : lowerB x = c → Desc T back (x :: rest) → Desc (.ch c :: T) (x :: back) rest
  | nw {T back rest x} : isWordB x = false → Desc T back (x :: rest) → Desc (.nw :: T) (x :: back) rest
  | dg {T back rest x} : isDigitB x = true → Desc T back (x :: rest) → Desc (.dg :: T) (x :: back) rest
  | any {T back rest x} : Desc T back (x :: rest) → Desc (.any :: T) (x :: back) rest
  | edge {T back rest} : Edge back rest → Desc T back rest → Desc (.edge :: T) back rest

/-- A key word. -/
structure KeyWord where
  atStart : Bool
  word : Text
  atEnd : Bool
  deriving DecidableEq, Repr

def Known.isEdge : Known → Bool
  | .nw => true
  | .edge => true
  | .ch c => !isWordB c
  | _ => false

/-- Strip the bytes of the reversed word. -/
def stripToks : Text → List Known → Option (List Known)
  | [], T => some T
  | c :: w, .ch d :: T => if c = d then stripToks w T else none
  | _, _ => none

def KeyWord.startHere (k : KeyWord) (T : List Known) : Bool :=
  match stripToks k.word.reverse T with
  | none => false
  | some T' => !k.atStart || T'.head?.any Known.isEdge

def KeyWord.here (k : KeyWord) (T : List Known) : Bool :=
  if k.atEnd then
    match T with
    | x :: T' => x.isEdge && k.startHere T'
    | [] => false
  else k.startHere T

/-- A digit. -/
def Known.isDigit : Known → Bool
  | .dg => true
  | .ch c => isDigitB c
  | _ => false

def hits (K : List KeyWord) (dig : Bool) (T : List Known) : Bool :=
  T.tails.any (fun T' => K.any (fun k => k.here T')) || (dig && T.any Known.isDigit)

/-- The token of a byte accepted by `d`. -/
def tokOf : Single → Known
  | .ch _ c => .ch (lowerB c)
  | d => if (List.range 256).all (fun c => !d.test c || !isWordB c) then .nw
         else if (List.range 256).all (fun c => !d.test c || isDigitB c) then .dg else .any

/-- Every way through the pattern meets a hit. -/
def Re.has (H : List Known → Bool) : Re → (List Known → Bool) → List Known → Bool
  | .one d, k, T => k (tokOf d :: T)
  | .seq a b, k, T => a.has H (b.has H k) T
  | .alt a b, k, T => H T || (a.has H k T && b.has H k T)
  | .star _ (.one d), k, T => H T || k [] || (k T && (H (tokOf d :: T) || k [tokOf d]))
  | .star _ _, k, T => H T || k []
  | .cap _ r, k, T => r.has H k T
  | .look false r, k, T => if r.edgeFirst then k (.edge :: T) else k T
  | .wb false, k, T => k (.edge :: T)
  | .bol, k, T => k (.edge :: T)
  | .eol, k, T => k (.edge :: T)
  | _, k, T => k T

/-! ## Soundness -/

def HitIn (H : List Known → Bool) (t : Text) : Prop :=
  ∃ T back rest, back.reverse ++ rest = t ∧ Desc T back rest ∧ H T = true

def St.back (t : Text) (s : St) : Text := (t.take s.pos).reverse

theorem back_rest {t : Text} {s : St} (h : OnSubj t s) : (s.back t).reverse ++ s.rest = t := by
  unfold St.back; rw [List.reverse_reverse, h.rest, List.take_append_drop]

theorem prev_back {t : Text} {s : St} (h : OnSubj t s) : s.prev = (s.back t).head? := by
  unfold St.back; rw [h.prev, List.head?_reverse]

theorem adv_back {t : Text} {s : St} (h : OnSubj t s) {c : Nat} {u : Text} (hr : s.rest = c :: u) :
    (s.adv c u).back t = c :: s.back t ∧ OnSubj t (s.adv c u) := by
  have h1 : t.drop s.pos = c :: u := by rw [← h.rest]; exact hr
  have hlt : s.pos < t.length := by
    have : (t.drop s.pos).length = (c :: u).length := by rw [h1]
    simp only [List.length_drop, List.length_cons] at this
    omega
  have hg : t[s.pos]? = some c := by
    have : (t.drop s.pos)[0]? = some c := by rw [h1]; rfl
    simpa [List.getElem?_drop] using this
  have hb : (s.adv c u).back t = c :: s.back t := by
    unfold St.back St.adv
    simp only
    rw [List.take_add_one, hg]
    simp
  refine ⟨hb, ?_⟩
  refine (h.of_consumed (s' := s.adv c u) (w := [c]) ⟨?_, rfl, rfl⟩).1
  rw [hr]; rfl

theorem tokOf_desc {d : Single} {x : Nat} (hd : d.test x = true) {T : List Known} {back rest : Text} (h : Desc T back (x :: rest)) :
    Desc (tokOf d :: T) (x :: back) rest := by
  have hx := d.test_lt hd
  have gen : ∀ d : Single, d.test x = true → Desc ((if (List.range 256).all (fun c => !d.test c || !isWordB c) then Known.nw
         else if (List.range 256).all (fun c => !d.test c || isDigitB c) then .dg else .any) :: T) (x :: back) rest := by
    intro d hd
    split
    · rename_i ha
      have := List.all_eq_true.1 ha x (by simpa using hx)
      rw [hd] at this
      exact .nw (by simpa using this) h
    split
    · rename_i ha
      have := List.all_eq_true.1 ha x (by simpa using hx)
      rw [hd] at this
      exact .dg (by simpa using this) h
    · exact .any h
  cases d with
  | ch ic c =>
    refine .ch ?_ h
    unfold Single.test at hd
    simp only [Bool.and_eq_true] at hd
    cases ic with
    | true => simpa using hd.2
    | false =>
      have : x = c := by simpa using hd.2
      rw [this]
  | set ic neg items => exact gen _ hd
  | any => exact gen _ hd

theorem edge_of_boundary {t : Text} {s : St} (h : OnSubj t s) (hb : s.atWordBoundary = true) : Edge (s.back t) s.rest := by
  intro x y hx hy hw
  unfold St.atWordBoundary at hb
  rw [prev_back h, hx] at hb
  cases hr : s.rest with
  | nil => rw [hr] at hy; simp at hy
  | cons c u =>
    rw [hr] at hy hb
    simp only [List.head?_cons, Option.some.injEq] at hy
    subst hy
    simp only [hw] at hb
    simpa using hb

theorem Rel.star_last {g : Bool} {d : Single} {s s' : St} (h : Rel (.star g (.one d)) s s') {t : Text} (ht : OnSubj t s) :
    s' = s ∨ (∃ x u, s.rest = x :: u ∧ d.test x = true) ∧ ∃ x b, s'.back t = x :: b ∧ d.test x = true := by
  generalize hR : Re.star g (.one d) = R at h
  induction h with
  | star0 => exact .inl rfl
  | @starS g' r s s1 s2 h1 _ _ _ ih =>
    cases hR
    obtain ⟨c, u, hr, hd, rfl⟩ := rel_one.1 h1
    obtain ⟨e1, e2⟩ := adv_back ht hr
    rcases ih e2 rfl with h | h
    · right; rw [h]; exact ⟨⟨c, u, hr, hd⟩, c, _, e1, hd⟩
    · exact .inr ⟨⟨c, u, hr, hd⟩, h.2⟩
  | _ => cases hR

theorem Re.has_sound {H : List Known → Bool} {t : Text} (r : Re) : ∀ (k : List Known → Bool) (T : List Known) (s s' : St),
    r.has H k T = true → Rel r s s' → OnSubj t s → Desc T (s.back t) s.rest →
    HitIn H t ∨ ∃ T', Desc T' (s'.back t) s'.rest ∧ k T' = true := by
  have found : ∀ {T : List Known} {s : St}, OnSubj t s → Desc T (s.back t) s.rest → H T = true → HitIn H t :=
    fun hs hd hh => ⟨_, _, _, back_rest hs, hd, hh⟩
  induction r with
  | eps => intro k T s s' h hr hs hd; cases hr; exact .inr ⟨T, hd, h⟩
  | one d =>
    intro k T s s' h hr hs hd
    obtain ⟨c, u, hc, hdt, rfl⟩ := rel_one.1 hr
    obtain ⟨e1, e2⟩ := adv_back hs hc
    rw [hc] at hd
    refine .inr ⟨_, ?_, h⟩
    rw [e1]
    exact tokOf_desc hdt hd
  | seq a b iha ihb =>
    intro k T s s' h hr hs hd
    cases hr with
    | seq h1 h2 =>
      rcases iha _ _ _ _ h h1 hs hd with h' | ⟨T1, d1, k1⟩
      · exact .inl h'
      · obtain ⟨w, hw⟩ := h1.consumed
        exact ihb _ _ _ _ k1 h2 (hs.of_consumed hw).1 d1
  | alt a b iha ihb =>
    intro k T s s' h hr hs hd
    unfold Re.has at h
    rcases Bool.or_eq_true_iff.1 h with h | h
    · exact .inl (found hs hd h)
    · rw [Bool.and_eq_true] at h
      cases hr with
      | altL hr => exact iha _ _ _ _ h.1 hr hs hd
      | altR hr => exact ihb _ _ _ _ h.2 hr hs hd
  | star g r ih =>
    intro k T s s' h hr hs hd
    have gen : (H T || k []) = true → HitIn H t ∨ ∃ T', Desc T' (s'.back t) s'.rest ∧ k T' = true := by
      intro h
      rcases Bool.or_eq_true_iff.1 h with h | h
      · exact .inl (found hs hd h)
      · exact .inr ⟨[], .nil, h⟩
    cases r with
    | one d =>
      unfold Re.has at h
      rcases Bool.or_eq_true_iff.1 h with h | h
      · exact gen h
      · rw [Bool.and_eq_true] at h
        rcases hr.star_last hs with rfl | ⟨⟨y, u, hy, hyd⟩, x, b, e, hx⟩
        · exact .inr ⟨T, hd, h.1⟩
        rcases Bool.or_eq_true_iff.1 h.2 with h2 | h2
        · obtain ⟨e1, e2⟩ := adv_back hs hy
          refine .inl (found e2 (T := tokOf d :: T) ?_ h2)
          rw [e1]
          rw [hy] at hd
          exact tokOf_desc hyd hd
        · refine .inr ⟨_, ?_, h2⟩
          rw [e]; exact tokOf_desc hx .nil
    | _ => exact gen h
  | cap n r ih =>
    intro k T s s' h hr hs hd
    cases hr with
    | @cap _ _ _ s1 hr =>
      have := ih _ _ _ s1 h hr hs hd
      exact this
  | bol =>
    intro k T s s' h hr hs hd
    cases hr with
    | bol hp =>
      refine .inr ⟨_, .edge ?_ hd, h⟩
      intro x y hx
      rw [← prev_back hs, hp] at hx; cases hx
  | eol =>
    intro k T s s' h hr hs hd
    cases hr with
    | eol hp =>
      refine .inr ⟨_, .edge ?_ hd, h⟩
      intro x y _ hy
      rw [hp] at hy; cases hy
  | wb neg =>
    intro k T s s' h hr hs hd
    cases hr with
    | wb hb =>
      cases neg with
      | true => exact .inr ⟨T, hd, h⟩
      | false => exact .inr ⟨_, .edge (edge_of_boundary hs (by simpa using hb)) hd, h⟩
  | look neg r _ =>
    intro k T s s' h hr hs hd
    cases hr with
    | look hb =>
      cases neg with
      | true => exact .inr ⟨T, hd, h⟩
      | false =>
        unfold Re.has at h
        split at h
        · rename_i he
          refine .inr ⟨_, .edge ?_ hd, h⟩
          simp only [bne_iff_ne, ne_eq, Bool.not_eq_false] at hb
          obtain ⟨_, hm⟩ := Option.isSome_iff_exists.1 hb
          obtain ⟨s'', hrel, -⟩ := Re.m_sound _ _ _ _ hm
          intro x y _ hy _
          exact hrel.edgeFirst he y hy
        · exact .inr ⟨T, hd, h⟩

/-! ## What a hit means -/

theorem wordChar_iff {c : Nat} : WordChar c ↔ isWordB c = true := by
  unfold WordChar isWordB isAlphaB isDigitB
  simp only [Bool.or_eq_true, Bool.and_eq_true, decide_eq_true_eq, beq_iff_eq]
  omega

/-- The reversed word `w`, in a text of lower-case bytes. -/
theorem Desc.strip : ∀ {w : Text} {T T' : List Known} {back rest : Text}, Desc T back rest → stripToks w T = some T' →
    (∀ c ∈ back, lowerB c = c) → ∃ back', back = w ++ back' ∧ Desc T' back' (w.reverse ++ rest) := by
  intro w
  induction w with
  | nil => intro T T' back rest h hs _; simp only [stripToks, Option.some.injEq] at hs; subst hs; exact ⟨back, rfl, h⟩
  | cons c w ih =>
    intro T T' back rest h hs hl
    unfold stripToks at hs
    split at hs
    · contradiction
    · rename_i heq
      cases heq
      split at hs
      · rename_i hcd
        subst hcd
        cases h with
        | @ch _ b _ x _ hx h =>
          rw [hl x (by simp)] at hx
          subst hx
          obtain ⟨b', e, d'⟩ := ih h hs (fun c hc => hl c (by simp [hc]))
          exact ⟨b', by rw [e]; rfl, by simpa using d'⟩
      · cases hs
    · cases hs

theorem Desc.head_edge {T : List Known} {back rest : Text} (h : Desc T back rest) (he : T.head?.any Known.isEdge = true)
    (hl : ∀ c ∈ back, lowerB c = c) {y : Nat} (hy : rest.head? = some y) (hyw : isWordB y = true) :
    ∀ x, back.head? = some x → isWordB x = false := by
  intro x hx
  cases h with
  | nil => simp at he
  | @ch T b r z c hc h =>
    simp only [List.head?_cons, Option.some.injEq] at hx
    subst hx
    rw [hl z (by simp)] at hc
    subst hc
    simpa [Known.isEdge] using he
  | nw hn h => simp only [List.head?_cons, Option.some.injEq] at hx; subst hx; exact hn
  | dg => simp [Known.isEdge] at he
  | any => simp [Known.isEdge] at he
  | edge hE h =>
    by_contra hw
    have := hE x y hx hy (by simpa using hw)
    rw [hyw] at this; cases this

/-- Keys whose word begins and ends with a word character, where that matters. -/
def KeyWord.sane (k : KeyWord) : Bool := (!k.atStart || k.word.head?.any isWordB) && (!k.atEnd || k.word.getLast?.any isWordB)

theorem KeyWord.startHere_sound {k : KeyWord} (hk : k.sane = true) {T : List Known} {back rest : Text} (h : Desc T back rest)
    (hh : k.startHere T = true) (hl : ∀ c ∈ back, lowerB c = c) :
    ∃ a, back.reverse = a ++ k.word ∧ (k.atStart = true → ∀ c, a.getLast? = some c → ¬ WordChar c) := by
  unfold KeyWord.startHere at hh
  split at hh
  · cases hh
  · rename_i T' hs
    obtain ⟨b, e, d⟩ := h.strip hs hl
    refine ⟨b.reverse, by rw [e]; simp, fun hst c hc => ?_⟩
    rw [hst] at hh
    simp only [Bool.not_true, Bool.false_or] at hh
    unfold KeyWord.sane at hk
    rw [hst, Bool.not_true, Bool.false_or, Bool.and_eq_true, Option.any_eq_true] at hk
    obtain ⟨⟨y, hy, hyw⟩, -⟩ := hk
    rw [wordChar_iff, Bool.not_eq_true]
    refine d.head_edge hh (fun c hc => hl c (by rw [e]; simp [hc])) (y := y) ?_ hyw c (by rwa [List.getLast?_reverse] at hc)
    rw [List.reverse_reverse, List.head?_append, hy]; rfl

theorem Desc.behind {x : Known} {T : List Known} {back rest : Text} (h : Desc (x :: T) back rest) (he : x.isEdge = true)
    (hl : ∀ c ∈ back, lowerB c = c) :
    (∃ c b, back = c :: b ∧ isWordB c = false ∧ Desc T b (c :: rest)) ∨ (Edge back rest ∧ Desc T back rest) := by
  cases h with
  | @ch T b r z c hc h =>
    rw [hl z (by simp)] at hc
    subst hc
    exact .inl ⟨z, b, rfl, by simpa [Known.isEdge] using he, h⟩
  | nw hn h => exact .inl ⟨_, _, rfl, hn, h⟩
  | dg => simp [Known.isEdge] at he
  | any => simp [Known.isEdge] at he
  | edge hE h => exact .inr ⟨hE, h⟩

theorem KeyWord.here_sound {k : KeyWord} (hk : k.sane = true) {T : List Known} {back rest : Text} (h : Desc T back rest)
    (hh : k.here T = true) (hl : ∀ c ∈ back, lowerB c = c) : Occurs k.atStart k.word k.atEnd (back.reverse ++ rest) := by
  unfold KeyWord.here at hh
  split at hh
  · rename_i hend
    split at hh
    · rename_i x T'
      rw [Bool.and_eq_true] at hh
      rcases h.behind hh.1 hl with ⟨c, b, rfl, hc, hd⟩ | ⟨hE, hd⟩
      · obtain ⟨a, e, ha⟩ := KeyWord.startHere_sound hk hd hh.2 (fun c hc => hl c (by simp [hc]))
        refine ⟨a, c :: rest, by simp [e], ha, fun _ y hy => ?_⟩
        simp only [List.head?_cons, Option.some.injEq] at hy
        rw [wordChar_iff, ← hy, hc]; simp
      · obtain ⟨a, e, ha⟩ := KeyWord.startHere_sound hk hd hh.2 hl
        refine ⟨a, rest, by simp [e], ha, fun _ y hy => ?_⟩
        unfold KeyWord.sane at hk
        rw [hend, Bool.not_true, Bool.false_or, Bool.and_eq_true, Option.any_eq_true] at hk
        obtain ⟨-, x, hx, hxw⟩ := hk
        have hb : back.head? = some x := by
          rw [← List.getLast?_reverse, e, List.getLast?_append, hx]; rfl
        rw [wordChar_iff, hE x y hb hy hxw]; simp
    · cases hh
  · rename_i hend
    obtain ⟨a, e, ha⟩ := KeyWord.startHere_sound hk h hh hl
    exact ⟨a, rest, by rw [e], ha, fun h => absurd h hend⟩

theorem Desc.tail {x : Known} {T : List Known} {back rest : Text} (h : Desc (x :: T) back rest) :
    ∃ back' rest', back'.reverse ++ rest' = back.reverse ++ rest ∧ Desc T back' rest' ∧ ∀ c ∈ back', c ∈ back := by
  cases h with
  | ch _ h => exact ⟨_, _, by simp, h, fun c hc => by simp [hc]⟩
  | nw _ h => exact ⟨_, _, by simp, h, fun c hc => by simp [hc]⟩
  | dg _ h => exact ⟨_, _, by simp, h, fun c hc => by simp [hc]⟩
  | any h => exact ⟨_, _, by simp, h, fun c hc => by simp [hc]⟩
  | edge _ h => exact ⟨_, _, rfl, h, fun c hc => hc⟩

theorem Desc.suffix : ∀ {T U : List Known} {back rest : Text}, Desc T back rest → U <:+ T →
    ∃ back' rest', back'.reverse ++ rest' = back.reverse ++ rest ∧ Desc U back' rest' ∧ ∀ c ∈ back', c ∈ back := by
  intro T
  induction T with
  | nil => intro U back rest h hu; rw [List.suffix_nil] at hu; subst hu; exact ⟨_, _, rfl, h, fun _ h => h⟩
  | cons x T ih =>
    intro U back rest h hu
    rcases List.suffix_cons_iff.1 hu with rfl | hu
    · exact ⟨_, _, rfl, h, fun _ h => h⟩
    · obtain ⟨b1, r1, e1, d1, m1⟩ := h.tail
      obtain ⟨b2, r2, e2, d2, m2⟩ := ih d1 hu
      exact ⟨b2, r2, by rw [e2, e1], d2, fun c hc => m1 c (m2 c hc)⟩

theorem Desc.digit {T : List Known} {back rest : Text} (h : Desc T back rest) (hd : T.any Known.isDigit = true)
    (hl : ∀ c ∈ back, lowerB c = c) : ∃ c ∈ back, isDigitB c = true := by
  rw [List.any_eq_true] at hd
  obtain ⟨x, hx, hxd⟩ := hd
  obtain ⟨A, B, rfl⟩ := List.append_of_mem hx
  obtain ⟨b, r, -, d, m⟩ := h.suffix (U := x :: B) ⟨A, rfl⟩
  cases d with
  | @ch T b r z c hc h =>
    rw [hl z (m z (by simp))] at hc
    subst hc
    exact ⟨z, m z (by simp), hxd⟩
  | dg hd _ => exact ⟨_, m _ (by simp), hd⟩
  | _ => cases hxd

/-- What a hit means for the text. -/
theorem HitIn.occurs {K : List KeyWord} {dig : Bool} {t : Text} (h : HitIn (hits K dig) t) (hK : K.all KeyWord.sane = true) (hl : ∀ c ∈ t, lowerB c = c) :
    (∃ k ∈ K, Occurs k.atStart k.word k.atEnd t) ∨ (dig = true ∧ ∃ c ∈ t, isDigitB c = true) := by
  obtain ⟨T, back, rest, e, hd, hh⟩ := h
  have hlb : ∀ c ∈ back, lowerB c = c := fun c hc => hl c (by rw [← e]; simp [hc])
  unfold hits at hh
  rcases Bool.or_eq_true_iff.1 hh with hh | hh
  · rw [List.any_eq_true] at hh
    obtain ⟨U, hU, hh⟩ := hh
    rw [List.any_eq_true] at hh
    obtain ⟨k, hk, hh⟩ := hh
    obtain ⟨b, r, e', d, m⟩ := hd.suffix ((List.mem_tails _ _).1 hU)
    left
    refine ⟨k, hk, ?_⟩
    rw [← e, ← e']
    exact KeyWord.here_sound (List.all_eq_true.1 hK k hk) d hh (fun c hc => hlb c (m c hc))
  · rw [Bool.and_eq_true] at hh
    right
    obtain ⟨c, hc, h⟩ := hd.digit hh.2 hlb
    exact ⟨hh.1, c, by rw [← e]; simp [hc], h⟩

theorem lowerB_idem (c : Nat) : lowerB (lowerB c) = lowerB c := by
  unfold lowerB; split <;> (try split) <;> omega

/-- A pattern that needs one of the key words finds nothing in a text without them. -/
theorem Re.search_needs {K : List KeyWord} {dig : Bool} {r : Re} (h : r.has (hits K dig) (hits K dig) [] = true) (hK : K.all KeyWord.sane = true)
    {text : Text} (hno : ∀ k ∈ K, ¬ Occurs k.atStart k.word k.atEnd (toLower text)) (hd : dig = true → NoDigits text) :
    r.search (toLower text) = none := by
  cases hs : r.search (toLower text) with
  | none => rfl
  | some mt =>
    exfalso
    obtain ⟨-, hle, ⟨s', -, -, -, hrel⟩, -⟩ := Re.search_some hs
    have on := startSt_on (toLower text) _ hle
    have hit : HitIn (hits K dig) (toLower text) := by
      rcases Re.has_sound r _ _ _ _ h hrel on .nil with h | ⟨T, d, h⟩
      · exact h
      · obtain ⟨w, hw⟩ := hrel.consumed
        exact ⟨_, _, _, back_rest (on.of_consumed hw).1, d, h⟩
    rcases hit.occurs hK (fun c hc => by
      unfold toLower at hc; rw [List.mem_map] at hc; obtain ⟨x, -, rfl⟩ := hc; exact lowerB_idem x) with ⟨k, hk, ho⟩ | ⟨hdig, c, hc, hcd⟩
    · exact hno k hk ho
    · unfold toLower at hc
      rw [List.mem_map] at hc
      obtain ⟨x, hx, rfl⟩ := hc
      refine hd hdig x hx ?_
      unfold isDigitB lowerB at hcd
      simp only [Bool.and_eq_true, decide_eq_true_eq] at hcd
      split at hcd <;> omega

/-- A digit directly after a byte of a word that is not a digit. -/
def gluedHere : List Known → Bool
  | .dg :: .ch c :: _ => isWordB c && !isDigitB c
  | _ => false

/-- A key word, or a digit directly after a letter. -/
def hitsGlued (K : List KeyWord) (T : List Known) : Bool := hits K false T || T.tails.any gluedHere

theorem HitIn.glued {K : List KeyWord} {t : Text} (h : HitIn (hitsGlued K) t) (hK : K.all KeyWord.sane = true) (hl : ∀ c ∈ t, lowerB c = c) :
    (∃ k ∈ K, Occurs k.atStart k.word k.atEnd t) ∨ ∃ a x d b, t = a ++ x :: d :: b ∧ isWordB x = true ∧ isDigitB x = false ∧ isDigitB d = true := by
  obtain ⟨T, back, rest, e, hd, hh⟩ := h
  unfold hitsGlued at hh
  rcases Bool.or_eq_true_iff.1 hh with hh | hh
  · rcases HitIn.occurs ⟨T, back, rest, e, hd, hh⟩ hK hl with h | ⟨h, -⟩
    · exact .inl h
    · cases h
  · right
    have hlb : ∀ c ∈ back, lowerB c = c := fun c hc => hl c (by rw [← e]; simp [hc])
    rw [List.any_eq_true] at hh
    obtain ⟨U, hU, hh⟩ := hh
    obtain ⟨b, r, e', d, m⟩ := hd.suffix ((List.mem_tails _ _).1 hU)
    unfold gluedHere at hh
    split at hh
    · rename_i c U
      cases d with
      | @dg _ b1 _ x hx d =>
        cases d with
        | @ch _ b2 _ z _ hz d =>
          rw [hlb z (m z (by simp))] at hz
          subst hz
          simp only [Bool.and_eq_true, Bool.not_eq_true'] at hh
          exact ⟨b2.reverse, z, x, r, by rw [← e, ← e']; simp, hh.1, hh.2, hx⟩
    · cases hh

/-- A pattern that needs one of the key words or a digit after a letter finds nothing in a text without them. -/
theorem Re.search_needs_glued {K : List KeyWord} {r : Re} (h : r.has (hitsGlued K) (hitsGlued K) [] = true) (hK : K.all KeyWord.sane = true)
    {text : Text} (hno : ∀ k ∈ K, ¬ Occurs k.atStart k.word k.atEnd (toLower text))
    (hg : ∀ a x d b, toLower text = a ++ x :: d :: b → isWordB x = true → isDigitB x = false → isDigitB d = false) :
    r.search (toLower text) = none := by
  cases hs : r.search (toLower text) with
  | none => rfl
  | some mt =>
    exfalso
    obtain ⟨-, hle, ⟨s', -, -, -, hrel⟩, -⟩ := Re.search_some hs
    have on := startSt_on (toLower text) _ hle
    have hit : HitIn (hitsGlued K) (toLower text) := by
      rcases Re.has_sound r _ _ _ _ h hrel on .nil with h | ⟨T, d, h⟩
      · exact h
      · obtain ⟨w, hw⟩ := hrel.consumed
        exact ⟨_, _, _, back_rest (on.of_consumed hw).1, d, h⟩
    rcases hit.glued hK (fun c hc => by
      unfold toLower at hc; rw [List.mem_map] at hc; obtain ⟨x, -, rfl⟩ := hc; exact lowerB_idem x) with ⟨k, hk, ho⟩ | ⟨a, x, d, b, e, h1, h2, h3⟩
    · exact hno k hk ho
    · rw [hg a x d b e h1 h2] at h3; cases h3

end Chrono
