import Verif.Lemmas.RelSimp
/-!
# Where can a match lead to, in a text of a given shape?

A template is a list of slots: one byte out of a set, or any number of bytes out of a set.  `Re.reach` computes, for a
set of positions of the template, a superset of the positions to which a match can lead, for every text of that shape;
the sizes of the runs are not bounded.  Used to show that patterns find nothing.
-/
namespace Chrono

structure Slot where
  chars : List Nat
  loop : Bool
  deriving DecidableEq, Repr

/-- The text has the shape of the template. -/
inductive Inst : List Slot → Text → Prop where
  | nil : Inst [] []
  | one {cs sl c t} : c ∈ cs → Inst sl t → Inst (⟨cs, false⟩ :: sl) (c :: t)
  | skip {cs sl t} : Inst sl t → Inst (⟨cs, true⟩ :: sl) t
  | more {cs sl c t} : c ∈ cs → Inst (⟨cs, true⟩ :: sl) t → Inst (⟨cs, true⟩ :: sl) (c :: t)

theorem Inst.append {a b : List Slot} {t u : Text} (h : Inst a t) (h' : Inst b u) : Inst (a ++ b) (t ++ u) := by
  induction h with
  | nil => exact h'
  | one hc _ ih => exact .one hc ih
  | skip _ ih => exact .skip ih
  | more hc _ ih => exact .more hc ih

/-- A fixed text. -/
def fixed (t : Text) : List Slot := t.map fun c => ⟨[c], false⟩

theorem Inst.fixed (t : Text) : Inst (Chrono.fixed t) t := by
  induction t with
  | nil => exact .nil
  | cons c t ih => exact .one (by simp) ih

theorem Inst.run {cs : List Nat} {t : Text} (h : ∀ c ∈ t, c ∈ cs) : Inst [⟨cs, true⟩] t := by
  induction t with
  | nil => exact .skip .nil
  | cons c t ih => exact .more (h c (by simp)) (ih fun x hx => h x (by simp [hx]))

/-- Positions reachable by skipping runs. -/
def closure : List Slot → Nat → List Nat
  | ⟨_, true⟩ :: sl, j => j :: closure sl (j + 1)
  | _, j => [j]

/-- Bytes that can stand before position `j` (`none`: the beginning); the argument is the reversed list of the slots
before `j`. -/
def backChars : List Slot → List (Option Nat)
  | [] => [none]
  | ⟨cs, true⟩ :: sl => cs.map some ++ backChars sl
  | ⟨cs, false⟩ :: _ => cs.map some

def prevChars (sl : List Slot) (j : Nat) : List (Option Nat) :=
  (match sl[j]? with
    | some ⟨cs, true⟩ => cs.map some
    | _ => []) ++ backChars (sl.take j).reverse

/-- Bytes that can come next (`none`: the end). -/
def nextChars : List Slot → List (Option Nat)
  | [] => [none]
  | ⟨cs, true⟩ :: sl => cs.map some ++ nextChars sl
  | ⟨cs, false⟩ :: _ => cs.map some

def isW : Option Nat → Bool
  | some c => isWordB c
  | none => false

/-- The state is at position `j` of the template. -/
structure At (sl : List Slot) (s : St) (j : Nat) : Prop where
  le : j ≤ sl.length
  rest : Inst (sl.drop j) s.rest
  prev : s.prev ∈ prevChars sl j

/-- Step over one byte accepted by `d`. -/
def stepOne (sl : List Slot) (d : Single) (k : Nat) : List Nat :=
  match sl[k]? with
  | some ⟨cs, lp⟩ => if cs.any d.test then [if lp then k else k + 1] else []
  | none => []

def growN (f : List Nat → List Nat) : Nat → List Nat → List Nat
  | 0, S => S
  | n + 1, S =>
    let T := f S
    if T.all S.contains then S else growN f n (S ++ T).eraseDups

/-- Does every match begin with a byte outside words, or stand at the end? -/
def Re.edgeFirst : Re → Bool
  | .one d => (List.range 256).all (fun c => !d.test c || !isWordB c)
  | .seq a _ => a.edgeFirst
  | .alt a b => a.edgeFirst && b.edgeFirst
  | .cap _ r => r.edgeFirst
  | .eol => true
  | _ => false

theorem Rel.edgeFirst {r : Re} {s s' : St} (h : Rel r s s') (he : r.edgeFirst = true) : ∀ y, s.rest.head? = some y → isWordB y = false := by
  induction h with
  | @one d s c t hr hd =>
    intro y hy
    unfold Re.edgeFirst at he
    have := List.all_eq_true.1 he c (by simpa using d.test_lt hd)
    rw [hd] at this
    rw [hr] at hy
    simp only [List.head?_cons, Option.some.injEq] at hy
    subst hy
    simpa using this
  | seq _ _ ih1 _ => exact ih1 he
  | altL _ ih => simp only [Re.edgeFirst, Bool.and_eq_true] at he; exact ih he.1
  | altR _ ih => simp only [Re.edgeFirst, Bool.and_eq_true] at he; exact ih he.2
  | cap _ ih => exact ih he
  | eol hr => intro y hy; rw [hr] at hy; simp at hy
  | _ => simp [Re.edgeFirst] at he

/-- Superset of the positions a match begun at a position of `S` can lead to. -/
def Re.reach (sl : List Slot) : Re → List Nat → List Nat
  | .one d, S => ((S.flatMap fun j => closure (sl.drop j) j).flatMap (stepOne sl d)).eraseDups
  | .seq a b, S => if S.isEmpty then [] else b.reach sl (a.reach sl S)
  | .alt a b, S => if S.isEmpty then [] else (a.reach sl S ++ b.reach sl S).eraseDups
  | .star _ r, S =>
    if S.isEmpty then [] else
    let T := growN (r.reach sl) (sl.length + 1) S
    if S.all T.contains && (r.reach sl T).all T.contains then T else List.range (sl.length + 1)
  | .cap _ r, S => r.reach sl S
  | .bol, S => S.filter fun j => (prevChars sl j).contains none
  | .eol, S => S.filter fun j => (nextChars (sl.drop j)).contains none
  | .wb neg, S => S.filter fun j => (prevChars sl j).any fun p => (nextChars (sl.drop j)).any fun n => (isW p != isW n) != neg
  | .eps, S => S
  | .look false r, S => if r.edgeFirst then S.filter fun j => (nextChars (sl.drop j)).any fun n => !isW n else S
  | .look true _, S => S

theorem At.mem_range {sl : List Slot} {s : St} {j : Nat} (h : At sl s j) : j ∈ List.range (sl.length + 1) := by
  have := h.le; simp; omega

theorem nextChars_of {sl : List Slot} {t : Text} (h : Inst sl t) : t.head? ∈ nextChars sl := by
  induction h with
  | nil => simp [nextChars]
  | one hc _ _ => simp [nextChars, hc]
  | skip _ ih => simp only [nextChars, List.mem_append]; exact .inr ih
  | more hc _ _ => simp [nextChars, hc]

/-- The slot that produced the next byte. -/
theorem Inst.uncons {sl : List Slot} {c : Nat} {t : Text} (h : Inst sl (c :: t)) : ∀ j : Nat,
    ∃ i, j + i ∈ closure sl j ∧ ∃ cs lp, sl[i]? = some ⟨cs, lp⟩ ∧ c ∈ cs ∧ Inst (sl.drop (if lp then i else i + 1)) t ∧
      i < sl.length := by
  generalize hu : c :: t = u at h
  induction h with
  | nil => cases hu
  | @one cs sl c' t' hc hi _ =>
    cases hu
    intro j
    exact ⟨0, by simp [closure], cs, false, by simp, hc, by simpa using hi, by simp⟩
  | @skip cs sl t' _ ih =>
    intro j
    obtain ⟨i, h1, cs', lp, h2, h3, h4, h5⟩ := ih hu (j + 1)
    refine ⟨i + 1, ?_, cs', lp, by simpa using h2, h3, ?_, by simp; omega⟩
    · simp only [closure, List.mem_cons]
      exact .inr (by rw [show j + (i + 1) = j + 1 + i by omega]; exact h1)
    · cases lp
      · simpa using h4
      · simpa using h4
  | @more cs sl c' t' hc hi _ =>
    cases hu
    intro j
    exact ⟨0, by simp [closure], cs, true, by simp, hc, by simpa using hi, by simp⟩

theorem At.step {sl : List Slot} {s : St} {j c : Nat} {t : Text} (h : At sl s j) (hr : s.rest = c :: t) {d : Single}
    (hd : d.test c = true) : ∃ k ∈ closure (sl.drop j) j, ∃ k' ∈ stepOne sl d k, At sl (s.adv c t) k' := by
  have hi := h.rest
  rw [hr] at hi
  obtain ⟨i, h1, cs, lp, h2, h3, h4, h5⟩ := hi.uncons j
  rw [List.getElem?_drop] at h2
  rw [List.length_drop] at h5
  refine ⟨j + i, h1, if lp then j + i else j + i + 1, ?_, ?_, ?_, ?_⟩
  · unfold stepOne
    rw [h2]
    simp only
    rw [if_pos (List.any_eq_true.2 ⟨c, h3, hd⟩)]
    simp
  · split <;> omega
  · rw [List.drop_drop] at h4
    simp only [St.adv]
    cases lp
    · simpa [Nat.add_assoc] using h4
    · simpa using h4
  · simp only [St.adv]
    unfold prevChars
    cases lp
    · refine List.mem_append_right _ ?_
      simp only [Bool.false_eq_true, if_false]
      rw [List.take_add_one, h2]
      simp only [Option.toList_some, List.reverse_append, List.reverse_cons, List.reverse_nil, List.nil_append, List.singleton_append]
      simp [backChars, h3]
    · refine List.mem_append_left _ ?_
      simp only [if_true]
      rw [h2]
      simp [h3]

theorem mem_growN {f : List Nat → List Nat} (n : Nat) : ∀ {S : List Nat} {x : Nat}, x ∈ S → x ∈ growN f n S := by
  induction n with
  | zero => intro S x h; exact h
  | succ n ih =>
    intro S x h
    unfold growN
    simp only
    split
    · exact h
    · exact ih (by rw [List.mem_eraseDups]; exact List.mem_append_left _ h)

theorem Rel.star_reach {sl : List Slot} {g : Bool} {r : Re} {s s' : St} (h : Rel (.star g r) s s') {T : List Nat}
    (hT : ∀ s s' j, Rel r s s' → j ∈ T → At sl s j → ∃ j' ∈ T, At sl s' j') :
    ∀ j ∈ T, At sl s j → ∃ j' ∈ T, At sl s' j' := by
  generalize hR : Re.star g r = R at h
  induction h with
  | star0 => intro j hj ha; exact ⟨j, hj, ha⟩
  | starS h1 _ _ _ ih =>
    injection hR with _ h2
    subst h2
    intro j hj ha
    obtain ⟨j', hj', ha'⟩ := hT _ _ j h1 hj ha
    exact ih (by simp_all) j' hj' ha'
  | _ => simp at hR

theorem Rel.reach {sl : List Slot} (r : Re) : ∀ {s s' : St}, Rel r s s' → ∀ S j, j ∈ S → At sl s j →
    ∃ j' ∈ r.reach sl S, At sl s' j' := by
  induction r with
  | eps => intro s s' h S j hj ha; rw [rel_eps] at h; subst h; exact ⟨j, hj, ha⟩
  | one d =>
    intro s s' h S j hj ha
    obtain ⟨c, t, hr, hd, rfl⟩ := rel_one.1 h
    obtain ⟨k, hk, k', hk', ha'⟩ := ha.step hr hd
    refine ⟨k', ?_, ha'⟩
    unfold Re.reach
    rw [List.mem_eraseDups, List.mem_flatMap]
    exact ⟨k, List.mem_flatMap.2 ⟨j, hj, hk⟩, hk'⟩
  | seq a b ih1 ih2 =>
    intro s s' h S j hj ha
    obtain ⟨s1, h1, h2⟩ := rel_seq.1 h
    obtain ⟨j1, hj1, ha1⟩ := ih1 h1 S j hj ha
    obtain ⟨j2, hj2, ha2⟩ := ih2 h2 _ j1 hj1 ha1
    refine ⟨j2, ?_, ha2⟩
    unfold Re.reach
    rw [if_neg (by simp; exact List.ne_nil_of_mem hj)]
    exact hj2
  | alt a b ih1 ih2 =>
    intro s s' h S j hj ha
    have hne : ¬ S.isEmpty = true := by simp; exact List.ne_nil_of_mem hj
    unfold Re.reach
    rw [if_neg hne]
    rcases rel_alt.1 h with h | h
    · obtain ⟨j1, hj1, ha1⟩ := ih1 h S j hj ha
      exact ⟨j1, by rw [List.mem_eraseDups]; exact List.mem_append_left _ hj1, ha1⟩
    · obtain ⟨j1, hj1, ha1⟩ := ih2 h S j hj ha
      exact ⟨j1, by rw [List.mem_eraseDups]; exact List.mem_append_right _ hj1, ha1⟩
  | star g r ih =>
    intro s s' h S j hj ha
    unfold Re.reach
    rw [if_neg (by simp; exact List.ne_nil_of_mem hj)]
    simp only
    split
    · rename_i hc
      simp only [Bool.and_eq_true, List.all_eq_true, List.contains_iff_mem] at hc
      exact h.star_reach (fun s s' j h hj ha => by
        obtain ⟨j', h1, h2⟩ := ih h _ j hj ha
        exact ⟨j', hc.2 _ h1, h2⟩) j (hc.1 _ hj) ha
    · obtain ⟨j', -, h2⟩ := h.star_reach (T := List.range (sl.length + 1)) (fun s s' j h hj ha => by
        obtain ⟨j', h1, h2⟩ := ih h _ j hj ha
        exact ⟨j', h2.mem_range, h2⟩) j ha.mem_range ha
      exact ⟨j', h2.mem_range, h2⟩
  | cap n r ih =>
    intro s s' h S j hj ha
    obtain ⟨s1, h1, rfl⟩ := rel_cap.1 h
    obtain ⟨j1, hj1, ha1⟩ := ih h1 S j hj ha
    exact ⟨j1, hj1, ⟨ha1.le, ha1.rest, ha1.prev⟩⟩
  | bol =>
    intro s s' h S j hj ha
    obtain ⟨h1, rfl⟩ := rel_bol.1 h
    exact ⟨j, List.mem_filter.2 ⟨hj, by have := ha.prev; rw [h1] at this; simpa using this⟩, ha⟩
  | eol =>
    intro s s' h S j hj ha
    obtain ⟨h1, rfl⟩ := rel_eol.1 h
    exact ⟨j, List.mem_filter.2 ⟨hj, by have := nextChars_of ha.rest; rw [h1] at this; simpa using this⟩, ha⟩
  | wb neg =>
    intro s s' h S j hj ha
    obtain ⟨h1, rfl⟩ := rel_wb.1 h
    refine ⟨j, List.mem_filter.2 ⟨hj, ?_⟩, ha⟩
    rw [List.any_eq_true]
    refine ⟨_, ha.prev, List.any_eq_true.2 ⟨_, nextChars_of ha.rest, ?_⟩⟩
    rw [← h1]
    unfold St.atWordBoundary isW
    cases s'.prev <;> cases s'.rest <;> rfl
  | look neg r _ =>
    intro s s' h S j hj ha
    obtain ⟨hb, rfl⟩ := rel_look.1 h
    cases neg with
    | true => exact ⟨j, hj, ha⟩
    | false =>
      unfold Re.reach
      split
      · rename_i he
        refine ⟨j, List.mem_filter.2 ⟨hj, ?_⟩, ha⟩
        rw [List.any_eq_true]
        refine ⟨_, nextChars_of ha.rest, ?_⟩
        simp only [bne_iff_ne, ne_eq, Bool.not_eq_false] at hb
        obtain ⟨_, hm⟩ := Option.isSome_iff_exists.1 hb
        obtain ⟨s'', hrel, -⟩ := Re.m_sound _ _ _ _ hm
        cases hr : s'.rest with
        | nil => rfl
        | cons y u => have := hrel.edgeFirst he y (by rw [hr]; rfl); simp [isW, this]
      · exact ⟨j, hj, ha⟩

/-- Every position of the text is a position of the template. -/
theorem At.start {sl : List Slot} {t : Text} (h : Inst sl t) : ∀ p ≤ t.length, ∃ j, At sl (startSt t p) j := by
  intro p
  induction p with
  | zero =>
    intro _
    refine ⟨0, Nat.zero_le _, by simpa [startSt] using h, ?_⟩
    unfold prevChars
    refine List.mem_append_right _ ?_
    simp [startSt, backChars]
  | succ p ih =>
    intro hp
    obtain ⟨j, hj⟩ := ih (by omega)
    have hr : (startSt t p).rest = t[p] :: t.drop (p + 1) := List.drop_eq_getElem_cons (by omega)
    have hi := hj.rest
    rw [hr] at hi
    have hlt : t[p] < 256 ∨ 256 ≤ t[p] := by omega
    obtain ⟨i, h1, cs, lp, h2, h3, h4, h5⟩ := hi.uncons j
    rw [List.getElem?_drop] at h2
    rw [List.length_drop] at h5
    refine ⟨if lp then j + i else j + i + 1, ?_, ?_, ?_⟩
    · split <;> omega
    · rw [List.drop_drop] at h4
      simp only [startSt]
      cases lp
      · simpa [Nat.add_assoc] using h4
      · simpa using h4
    · have hpv : (startSt t (p + 1)).prev = some t[p] := by
        simp only [startSt]
        rw [List.getLast?_take]; simp [List.getElem?_eq_getElem (show p < t.length by omega)]
      rw [hpv]
      unfold prevChars
      cases lp
      · refine List.mem_append_right _ ?_
        simp only [Bool.false_eq_true, if_false]
        rw [List.take_add_one, h2]
        simp only [Option.toList_some, List.reverse_append, List.reverse_cons, List.reverse_nil, List.nil_append, List.singleton_append]
        simp [backChars, h3]
      · refine List.mem_append_left _ ?_
        simp only [if_true]
        rw [h2]
        simp [h3]

/-- The pattern finds nothing in any text of this shape. -/
def Re.nowhere (r : Re) (sl : List Slot) : Bool := (r.reach sl (List.range (sl.length + 1))).isEmpty

theorem Re.nowhere_sound {r : Re} {sl : List Slot} {t : Text} (h : r.nowhere sl = true) (hi : Inst sl t) : r.search t = none := by
  cases hs : r.search t with
  | none => rfl
  | some mt =>
    obtain ⟨-, hle, ⟨s', -, -, -, hr⟩, -⟩ := Re.search_some hs
    obtain ⟨j, hj⟩ := At.start hi mt.start hle
    obtain ⟨j', hj', -⟩ := hr.reach r _ j hj.mem_range hj
    unfold Re.nowhere at h
    rw [List.isEmpty_iff] at h
    rw [h] at hj'
    cases hj'

/-- No match of the pattern covers a whole text of this shape. -/
def Re.notWhole (r : Re) (sl : List Slot) : Bool := (r.reach sl [0]).all fun j => !(nextChars (sl.drop j)).contains none

theorem Re.notWhole_sound {r : Re} {sl : List Slot} {t : Text} (h : r.notWhole sl = true) (hi : Inst sl t) {mt : Match}
    (hs : r.search t = some mt) : mt.stop - mt.start < t.length ∨ t = [] := by
  obtain ⟨-, hle, ⟨s', -, h1, -, hr⟩, -⟩ := Re.search_some hs
  have hon := startSt_on t mt.start hle
  obtain ⟨w, hw⟩ := hr.consumed
  obtain ⟨hon', -⟩ := hon.of_consumed hw
  have hle' := hon'.le
  rw [h1] at hle'
  by_cases h0 : mt.start = 0 ∧ mt.stop = t.length
  · exfalso
    have ha : At sl (startSt t mt.start) 0 := by
      rw [h0.1]
      refine ⟨Nat.zero_le _, by simpa [startSt] using hi, ?_⟩
      unfold prevChars
      refine List.mem_append_right _ ?_
      simp [startSt, backChars]
    obtain ⟨j', hj', ha'⟩ := hr.reach r [0] 0 (by simp) ha
    have := List.all_eq_true.1 h j' hj'
    have h2 : s'.rest = [] := by rw [hon'.rest, h1, h0.2, List.drop_length]
    have h3 := nextChars_of ha'.rest
    rw [h2] at h3
    simp only [List.head?_nil] at h3
    rw [List.contains_iff_mem.2 h3] at this
    cases this
  · by_cases ht : t = []
    · exact .inr ht
    · have : 0 < t.length := List.length_pos_iff.2 ht
      left; omega

end Chrono
