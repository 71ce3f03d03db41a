import Verif.Lemmas.RegexRel
/-!
# Rewriting rules for `Rel`
-/
namespace Chrono

/-- Consume the word `w`, leaving `t`. -/
def St.advs (s : St) (w t : Text) : St := ⟨s.pos + w.length, w.getLast?.or s.prev, t, s.caps⟩

theorem rel_eps {s s' : St} : Rel .eps s s' ↔ s' = s :=
  ⟨fun h => by cases h; rfl, fun h => by subst h; exact .eps _⟩

theorem rel_one {d : Single} {s s' : St} :
    Rel (.one d) s s' ↔ ∃ c t, s.rest = c :: t ∧ d.test c = true ∧ s' = s.adv c t :=
  ⟨fun h => by cases h with | one h1 h2 => exact ⟨_, _, h1, h2, rfl⟩,
   fun ⟨c, t, h1, h2, h3⟩ => h3 ▸ .one h1 h2⟩

theorem rel_seq {a b : Re} {s s' : St} : Rel (.seq a b) s s' ↔ ∃ s1, Rel a s s1 ∧ Rel b s1 s' :=
  ⟨fun h => by cases h with | seq h1 h2 => exact ⟨_, h1, h2⟩, fun ⟨_, h1, h2⟩ => .seq h1 h2⟩

theorem rel_alt {a b : Re} {s s' : St} : Rel (.alt a b) s s' ↔ Rel a s s' ∨ Rel b s s' :=
  ⟨fun h => by cases h with | altL h => exact .inl h | altR h => exact .inr h,
   fun h => h.elim .altL .altR⟩

theorem rel_cap {n : Nat} {r : Re} {s s' : St} :
    Rel (.cap n r) s s' ↔ ∃ s1, Rel r s s1 ∧ s' = { s1 with caps := (n, s.pos, s1.pos) :: s1.caps } :=
  ⟨fun h => by cases h with | cap h => exact ⟨_, h, rfl⟩, fun ⟨_, h1, h2⟩ => h2 ▸ .cap h1⟩

theorem rel_bol {s s' : St} : Rel .bol s s' ↔ s.prev = none ∧ s' = s :=
  ⟨fun h => by cases h with | bol h => exact ⟨h, rfl⟩, fun ⟨h1, h2⟩ => by subst h2; exact .bol h1⟩

theorem rel_eol {s s' : St} : Rel .eol s s' ↔ s.rest = [] ∧ s' = s :=
  ⟨fun h => by cases h with | eol h => exact ⟨h, rfl⟩, fun ⟨h1, h2⟩ => by subst h2; exact .eol h1⟩

theorem rel_wb {neg : Bool} {s s' : St} :
    Rel (.wb neg) s s' ↔ (s.atWordBoundary != neg) = true ∧ s' = s :=
  ⟨fun h => by cases h with | wb h => exact ⟨h, rfl⟩, fun ⟨h1, h2⟩ => by subst h2; exact .wb h1⟩

theorem rel_look {neg : Bool} {r : Re} {s s' : St} :
    Rel (.look neg r) s s' ↔
      ((Re.m (α := Unit) r s (fun _ => some ())).isSome != neg) = true ∧ s' = s :=
  ⟨fun h => by cases h with | look h => exact ⟨h, rfl⟩, fun ⟨h1, h2⟩ => by subst h2; exact .look h1⟩

theorem rel_star_one {g : Bool} {d : Single} {s s' : St} :
    Rel (.star g (.one d)) s s' ↔
      ∃ w t, s.rest = w ++ t ∧ (∀ c ∈ w, d.test c = true) ∧ s' = s.advs w t := by
  constructor
  · intro h
    have key : ∀ (R : Re) (s s' : St), Rel R s s' → R = .star g (.one d) →
        ∃ w t, s.rest = w ++ t ∧ (∀ c ∈ w, d.test c = true) ∧ s' = s.advs w t := by
      intro R s s' h
      induction h with
      | @star0 g' r' s =>
        intro _; exact ⟨[], s.rest, rfl, by simp, by simp [St.advs]⟩
      | @starS g' r' s s1 s2 h1 hp h2 _ ih2 =>
        intro hR
        have e : r' = .one d := by cases hR; rfl
        subst e
        obtain ⟨c, t, hr, ht, rfl⟩ := rel_one.1 h1
        obtain ⟨w, t', hr', hw, rfl⟩ := ih2 hR
        simp only [St.adv] at hr'
        refine ⟨c :: w, t', by rw [hr, hr']; rfl, ?_, ?_⟩
        · intro x hx
          rcases List.mem_cons.1 hx with rfl | hx
          · exact ht
          · exact hw x hx
        · simp only [St.advs, St.adv, List.length_cons]
          congr 1
          · omega
          · cases w with
            | nil => simp
            | cons a w =>
              rw [List.getLast?_cons_cons]
              rcases hl : (a :: w).getLast? with _ | x
              · simp at hl
              · simp
      | _ => intro hR; cases hR
    exact key _ _ _ h rfl
  · rintro ⟨w, t, hr, hw, rfl⟩
    induction w generalizing s with
    | nil =>
      have : s.advs [] t = s := by simp only [List.nil_append] at hr; rw [← hr]; simp [St.advs]
      rw [this]; exact .star0
    | cons c w ih =>
      have h1 : Rel (.one d) s (s.adv c (w ++ t)) := .one (by simpa using hr) (hw c (by simp))
      refine .starS h1 (by simp [St.adv]) ?_
      have := ih (s := s.adv c (w ++ t)) (by simp [St.adv]) (fun x hx => hw x (by simp [hx]))
      have e : (s.adv c (w ++ t)).advs w t = s.advs (c :: w) t := by
        simp only [St.advs, St.adv, List.length_cons]
        congr 1
        · omega
        · cases w with
          | nil => simp
          | cons a w =>
            rw [List.getLast?_cons_cons]
            rcases hl : (a :: w).getLast? with _ | x
            · simp at hl
            · simp
      rwa [e] at this

end Chrono

namespace Chrono

theorem Single.test_lt {d : Single} {c : Nat} (h : d.test c = true) : c < 256 := by
  cases d <;> simp [Single.test] at h <;> exact h.1

/-- A matcher is determined by its behaviour on the 256 bytes. -/
theorem Single.test_iff (d : Single) (P : Nat → Prop) (h1 : ∀ c < 256, (d.test c = true ↔ P c))
    (h2 : ∀ c, P c → c < 256) (c : Nat) : d.test c = true ↔ P c :=
  ⟨fun h => (h1 c (d.test_lt h)).1 h, fun h => (h1 c (h2 c h)).2 h⟩

end Chrono
