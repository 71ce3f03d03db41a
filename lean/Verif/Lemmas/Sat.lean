import Verif.Model.Main
import Verif.Lemmas.Tac
/-!
# A Hoare-style judgement for outcomes, and what every `extract` guarantees
-/
namespace Chrono
open Boost

/-- The ways a run can fail to return. -/
inductive Fail where
  | exn (e : Exc) | ub | unspec | diverge
  deriving DecidableEq

/-- A returned value satisfies `P`; a failure satisfies `F`. -/
def Sat {α : Type} (P : α → Prop) (F : Fail → Prop) : Out α → Prop
  | .ok a => P a
  | .exn e => F (.exn e)
  | .ub => F .ub
  | .unspec => F .unspec
  | .diverge => F .diverge

theorem Sat.bind {α β : Type} {P : β → Prop} {Q : α → Prop} {F : Fail → Prop} {x : Out α} {f : α → Out β}
    (hx : Sat Q F x) (hf : ∀ a, Q a → Sat P F (f a)) : Sat P F (x >>= f) := by
  cases x with
  | ok a => exact hf a hx
  | _ => exact hx

theorem Sat.bind' {α β : Type} {P : β → Prop} {Q : α → Prop} {F : Fail → Prop} {x : Out α} {f : α → Out β}
    (hx : Sat Q F x) (hf : ∀ a, x = .ok a → Q a → Sat P F (f a)) : Sat P F (x >>= f) := by
  cases x with
  | ok a => exact hf a rfl hx
  | _ => exact hx

theorem Sat.mono {α : Type} {P Q : α → Prop} {F G : Fail → Prop} {x : Out α} (h : Sat P F x)
    (hP : ∀ a, P a → Q a) (hF : ∀ f, F f → G f) : Sat Q G x := by
  cases x <;> first | exact hP _ h | exact hF _ h

theorem Sat.of_ok {α : Type} {P : α → Prop} {F : Fail → Prop} {x : Out α} {a : α} (h : Sat P F x)
    (hx : x = .ok a) : P a := by rw [hx] at h; exact h

theorem Sat.ite {α : Type} {P : α → Prop} {F : Fail → Prop} {c : Prop} [Decidable c] {x y : Out α}
    (hx : c → Sat P F x) (hy : ¬ c → Sat P F y) : Sat P F (if c then x else y) := by
  split
  · exact hx ‹_›
  · exact hy ‹_›

/-- Anything but non-termination. -/
def Fail.Stops (f : Fail) : Prop := f ≠ .diverge

/-- What must hold of the intermediate values of an extraction at `i` with text `t` by a parser whose tag is `G`. -/
class HasInv (i : Nat) (t : Text) (G : Tag) (α : Type) where
  inv : α → Prop

instance (priority := low) {i t G α} : HasInv i t G α := ⟨fun _ => True⟩
instance {i t G} : HasInv i t G PResult :=
  ⟨fun r => r.index = i ∧ r.text = t ∧ ∀ g, r.tags g = none ∨ (g = G ∧ r.tags g = some true)⟩
instance {i t G α β} [HasInv i t G α] [HasInv i t G β] : HasInv i t G (α × β) :=
  ⟨fun x => HasInv.inv i t G x.1 ∧ HasInv.inv i t G x.2⟩

/-- The computation stops, and a returned result has index `i`, text `t` and no tag but possibly `G`. -/
def Keeps (i : Nat) (t : Text) (G : Tag) {α : Type} [HasInv i t G α] (x : Out α) : Prop :=
  Sat (HasInv.inv i t G) Fail.Stops x

section
variable {i : Nat} {t : Text} {G : Tag}

theorem Keeps.bind {α β : Type} [HasInv i t G α] [HasInv i t G β] {x : Out α} {f : α → Out β}
    (hx : Keeps i t G x) (hf : ∀ a, (HasInv.inv i t G a) → Keeps i t G (f a)) : Keeps i t G (x >>= f) := Sat.bind hx hf

theorem Keeps.ite {α : Type} [HasInv i t G α] {c : Prop} [Decidable c] {x y : Out α}
    (hx : c → Keeps i t G x) (hy : ¬ c → Keeps i t G y) : Keeps i t G (if c then x else y) := Sat.ite hx hy

theorem Keeps.ok {α : Type} [HasInv i t G α] {a : α} (h : HasInv.inv i t G a) : Keeps i t G (Out.ok a) := h
theorem Keeps.pure {α : Type} [HasInv i t G α] {a : α} (h : HasInv.inv i t G a) : Keeps i t G (pure a : Out α) := h
theorem Keeps.exn {α : Type} [HasInv i t G α] {e : Exc} : Keeps i t G (Out.exn e : Out α) := by
  simp [Keeps, Sat, Fail.Stops]
theorem Keeps.ub {α : Type} [HasInv i t G α] : Keeps i t G (Out.ub : Out α) := by simp [Keeps, Sat, Fail.Stops]
theorem Keeps.unspec {α : Type} [HasInv i t G α] : Keeps i t G (Out.unspec : Out α) := by
  simp [Keeps, Sat, Fail.Stops]

@[simp] theorem inv_onStart {r : PResult} {f} : HasInv.inv i t G (r.onStart f) ↔ HasInv.inv i t G r := Iff.rfl
@[simp] theorem inv_onEnd {r : PResult} {f} : HasInv.inv i t G (r.onEnd f) ↔ HasInv.inv i t G r := Iff.rfl
@[simp] theorem inv_makeEndValid {r : PResult} : HasInv.inv i t G r.makeEndValid ↔ HasInv.inv i t G r := Iff.rfl
@[simp] theorem inv_withEnd {r : PResult} {e b} :
    HasInv.inv i t G ({ r with endDate := e, hasEnd := b } : PResult) ↔ HasInv.inv i t G r := Iff.rfl
@[simp] theorem inv_setTag {r : PResult} : HasInv.inv i t G (r.setTag G) ↔ HasInv.inv i t G r := by
  unfold PResult.setTag
  split
  · exact Iff.rfl
  · rename_i h
    refine and_congr Iff.rfl (and_congr Iff.rfl ⟨fun h' g => ?_, fun h' g => ?_⟩)
    · have := h' g
      by_cases hg : g = G
      · subst hg; exact .inl h
      · simpa [hg] using this
    · by_cases hg : g = G
      · subst hg; exact .inr ⟨rfl, by simp⟩
      · have := h' g; simpa [hg] using this
@[simp] theorem inv_setFixed {r : PResult} {a b c} : HasInv.inv i t G (setFixed r a b c) ↔ HasInv.inv i t G r := Iff.rfl
@[simp] theorem inv_prod {α β : Type} [HasInv i t G α] [HasInv i t G β] {x : α} {y : β} :
    HasInv.inv i t G (x, y) ↔ HasInv.inv i t G x ∧ HasInv.inv i t G y := Iff.rfl
@[simp] theorem inv_ite {c : Prop} [Decidable c] {x y : PResult} : HasInv.inv i t G (if c then x else y) ↔
    if c then HasInv.inv i t G x else HasInv.inv i t G y := by split <;> rfl
theorem inv_mk {anchor : PTime} {idx : Nat} {tx : Text} :
    HasInv.inv (PResult.toU32 idx) tx G (PResult.mk' anchor idx tx) := ⟨rfl, rfl, fun _ => .inl rfl⟩

theorem keeps_stoi (s : Text) : Keeps i t G (stoi s) := by
  unfold stoi; simp only; split
  · exact .exn
  · split
    · split
      · exact .exn
      · exact .ok trivial
    · split
      · exact .exn
      · exact .ok trivial

theorem keeps_ymd (d : Date) : Keeps i t G d.ymd := by
  unfold Date.ymd; split
  · exact .ok trivial
  · split
    · exact .exn
    · exact .unspec

theorem keeps_year (d : Date) : Keeps i t G d.year := (keeps_ymd d).bind fun _ _ => .pure trivial
theorem keeps_month (d : Date) : Keeps i t G d.month := (keeps_ymd d).bind fun _ _ => .pure trivial
theorem keeps_day (d : Date) : Keeps i t G d.day := (keeps_ymd d).bind fun _ _ => .pure trivial
theorem keeps_dow (d : Date) : Keeps i t G d.dayOfWeek := (keeps_ymd d).bind fun _ _ => .pure trivial

theorem keeps_mkDate (y m d : Int) : Keeps i t G (mkDate y m d) := by
  unfold mkDate
  split; · exact .exn
  split; · exact .exn
  split; · exact .exn
  split; · exact .exn
  exact .ok trivial

theorem keeps_addDays (d : Date) (n : Int) : Keeps i t G (d.addDays n) := by
  unfold Date.addDays; split
  · exact .ok trivial
  · exact .unspec

theorem keeps_addMonths (d : Date) (n : Int) : Keeps i t G (d.addMonths n) := by
  unfold Date.addMonths
  refine (keeps_ymd d).bind fun _ _ => ?_
  simp only
  split; · exact .unspec
  split; · exact .exn
  exact keeps_mkDate _ _ _

theorem keeps_toInt (v : FNum) : Keeps i t G v.toInt := by
  unfold FNum.toInt; split
  · split
    · exact .ok trivial
    · exact .ub
  · exact .ok trivial
theorem keeps_ceilInt (v : FNum) : Keeps i t G v.ceilInt := by
  unfold FNum.ceilInt; split
  · split
    · exact .ok trivial
    · exact .ub
  · exact .ok trivial
theorem keeps_toLong (v : FNum) : Keeps i t G v.toLong := by
  unfold FNum.toLong; split
  · split
    · exact .ok trivial
    · exact .ub
  · exact .ok trivial

theorem keeps_substr (s : Text) (n : Nat) : Keeps i t G (substr s n) := by
  unfold substr; split
  · exact .ok trivial
  · exact .exn

theorem keeps_searches (ic : Bool) (p s : Text) : Keeps i t G (searches ic p s) := by
  unfold searches; split
  · exact .exn
  · exact .ok trivial

theorem keeps_stepForward (w n : Nat) : ∀ d : Date, Keeps i t G (stepForward w n d) := by
  induction n with
  | zero => intro d; exact .ok trivial
  | succ n ih =>
    intro d; unfold stepForward
    refine (keeps_dow d).bind fun x _ => ?_
    split
    · exact .pure trivial
    · exact (keeps_addDays _ _).bind fun e _ => ih e

theorem keeps_stepBack (w n : Nat) : ∀ d : Date, Keeps i t G (stepBack w n d) := by
  induction n with
  | zero => intro d; exact .ok trivial
  | succ n ih =>
    intro d; unfold stepBack
    refine (keeps_dow d).bind fun x _ => ?_
    split
    · exact .pure trivial
    · exact (keeps_addDays _ _).bind fun e _ => ih e

theorem keeps_firstAfter (w : Nat) (d : Date) : Keeps i t G (firstAfter w d) :=
  (keeps_addDays _ _).bind fun e _ => keeps_stepForward _ _ e
theorem keeps_firstBefore (w : Nat) (d : Date) : Keeps i t G (firstBefore w d) :=
  (keeps_addDays _ _).bind fun e _ => keeps_stepBack _ _ e

theorem keeps_nthKday (n w m : Nat) (y : Int) : Keeps i t G (nthKday n w m y) := by
  unfold nthKday
  refine (keeps_mkDate _ _ _).bind fun _ _ => (keeps_stepForward _ _ _).bind fun _ _ =>
    (keeps_addDays _ _).bind fun _ _ => (keeps_month _).bind fun _ _ => ?_
  split
  · exact .pure trivial
  · exact keeps_addDays _ _

theorem keeps_lastKday (w m : Nat) (y : Int) : Keeps i t G (lastKday w m y) :=
  (keeps_mkDate _ _ _).bind fun _ _ => keeps_stepBack _ _ _

/-- Try the obvious next step of a `Keeps` proof. -/
macro "keeps_leaf" : tactic => `(tactic| first
  | exact Keeps.exn | exact Keeps.ub | exact Keeps.unspec
  | exact keeps_stoi _ | exact keeps_ymd _ | exact keeps_year _ | exact keeps_month _ | exact keeps_day _
  | exact keeps_dow _ | exact keeps_mkDate _ _ _ | exact keeps_addDays _ _ | exact keeps_addMonths _ _
  | exact keeps_toInt _ | exact keeps_ceilInt _ | exact keeps_toLong _ | exact keeps_substr _ _
  | exact keeps_searches _ _ _ | exact keeps_nthKday _ _ _ _ | exact keeps_lastKday _ _ _
  | exact keeps_firstAfter _ _ | exact keeps_firstBefore _ _)

macro "keeps_val" : tactic => `(tactic| first
  | exact trivial
  | assumption
  | (simp only [inv_onStart, inv_onEnd, inv_makeEndValid, inv_withEnd, inv_setTag, inv_setFixed, inv_prod, inv_ite]; first
      | done
      | assumption
      | exact ⟨trivial, trivial⟩
      | exact ⟨‹_›, trivial⟩
      | exact ⟨trivial, ‹_›⟩
      | exact ⟨trivial, ‹_›, trivial⟩
      | (split <;> first | assumption | (exact ⟨‹_›, trivial⟩) | (split <;> assumption))
      | (repeat' constructor) <;> first | trivial | assumption))

macro "keeps_step" : tactic => `(tactic| first
  | keeps_leaf
  | (refine Keeps.pure ?_; keeps_val)
  | (refine Keeps.ok ?_; keeps_val)
  | (refine Keeps.bind ?_ ?_)
  | (refine Keeps.ite (fun _ => ?_) (fun _ => ?_))
  | (intro _ _)
  | split)

/-- Prove a `Keeps` goal by following the structure of the program. -/
macro "keeps" : tactic => `(tactic| ((try simp only); repeat' (keeps_step)))

theorem keeps_implyDate {r : PResult} (h : HasInv.inv i t G r) (d : Date) : Keeps i t G (implyDate r d) := by
  unfold implyDate; keeps

theorem keeps_deadlineNumber (g : Globals) (s : Text) : Keeps i t G (deadlineNumber g s) := by
  unfold deadlineNumber
  split
  · exact .ok trivial
  · split
    · exact .ok trivial
    · split
      · exact .ok trivial
      · split
        · exact .ok trivial
        · have := keeps_stoi (i := i) (t := t) (G := G) s
          split
          · exact .ok trivial
          · split
            · exact .ok trivial
            · exact .exn
          · exact .ub
          · exact .unspec
          · rename_i h; rw [h] at this; simp [Keeps, Sat, Fail.Stops] at this

theorem keeps_deadlineDate {r : PResult} (h : HasInv.inv i t G r) (ref : PTime) (u : Text) (n : FNum) :
    Keeps i t G (deadlineDate r ref u n) := by
  unfold deadlineDate
  (try simp only); repeat' (first | (refine keeps_implyDate h _) | keeps_step)

theorem keeps_deadlineTime (ref : PTime) (u : Text) (n : FNum) : Keeps i t G (deadlineTime ref u n) := by
  unfold deadlineTime; keeps

end
end Chrono
