import Verif.Lemmas.Patterns
import Verif.Lemmas.DateOps
/-!
# Evaluating a parser on a fixed phrase
-/
namespace Chrono
open Boost Spec

@[simp] theorem get_set (c : Comps) (k k' : Key) (v : Int) :
    (c.set k v).get k' = if k' = k then v else c.get k' := by
  unfold Comps.get Comps.set Comps.upd
  by_cases h : k' = k <;> simp [h]

@[simp] theorem get_empty (k : Key) : Comps.empty.get k = 0 := rfl

theorem get_imply (c : Comps) (k k' : Key) (v : Int) :
    (c.imply k v).get k' = if k' = k ∧ (c.known k).1 = false then v else c.get k' := by
  unfold Comps.get Comps.imply Comps.upd
  by_cases h : k' = k
  · subst h; cases hb : (c.known k').1 <;> simp [hb]
  · cases hb : (c.known k).1 <;> simp [h]

@[simp] theorem known_set (c : Comps) (k k' : Key) (v : Int) :
    ((c.set k v).known k').1 = (decide (k' = k) || (c.known k').1) := by
  unfold Comps.set Comps.upd
  by_cases h : k' = k <;> simp [h]

@[simp] theorem known_imply (c : Comps) (k k' : Key) (v : Int) : ((c.imply k v).known k').1 = (c.known k').1 := by
  unfold Comps.imply; split <;> rfl

@[simp] theorem known_empty (k : Key) : (Comps.empty.known k).1 = false := rfl

@[simp] theorem setTag_startDate (r : PResult) (t : Tag) : (r.setTag t).startDate = r.startDate := by
  unfold PResult.setTag; split <;> rfl
@[simp] theorem setTag_endDate (r : PResult) (t : Tag) : (r.setTag t).endDate = r.endDate := by
  unfold PResult.setTag; split <;> rfl
@[simp] theorem setTag_hasEnd (r : PResult) (t : Tag) : (r.setTag t).hasEnd = r.hasEnd := by
  unfold PResult.setTag; split <;> rfl
@[simp] theorem setTag_text (r : PResult) (t : Tag) : (r.setTag t).text = r.text := by
  unfold PResult.setTag; split <;> rfl
@[simp] theorem setTag_index (r : PResult) (t : Tag) : (r.setTag t).index = r.index := by
  unfold PResult.setTag; split <;> rfl
@[simp] theorem copy_startDate (r : PResult) : r.copy.startDate = r.startDate := rfl
@[simp] theorem copy_hasEnd (r : PResult) : r.copy.hasEnd = r.hasEnd := rfl
@[simp] theorem copy_text (r : PResult) : r.copy.text = r.text := rfl
@[simp] theorem copy_index (r : PResult) : r.copy.index = r.index := rfl
@[simp] theorem copy_tags (r : PResult) : r.copy.tags = r.tags := rfl
theorem copy_endDate {r : PResult} (h : r.hasEnd = true) : r.copy.endDate = r.endDate := by
  unfold PResult.copy; simp [h]
@[simp] theorem onStart_startDate (r : PResult) (f) : (r.onStart f).startDate = f r.startDate := rfl
@[simp] theorem onStart_hasEnd (r : PResult) (f) : (r.onStart f).hasEnd = r.hasEnd := rfl
@[simp] theorem onStart_text (r : PResult) (f) : (r.onStart f).text = r.text := rfl
@[simp] theorem onStart_index (r : PResult) (f) : (r.onStart f).index = r.index := rfl
@[simp] theorem onStart_tags (r : PResult) (f) : (r.onStart f).tags = r.tags := rfl
@[simp] theorem onStart_endDate (r : PResult) (f) : (r.onStart f).endDate = r.endDate := rfl
@[simp] theorem mk'_startDate (a i t) : (PResult.mk' a i t).startDate = Comps.empty := rfl
@[simp] theorem mk'_endDate (a i t) : (PResult.mk' a i t).endDate = Comps.empty := rfl
@[simp] theorem mk'_hasEnd (a i t) : (PResult.mk' a i t).hasEnd = false := rfl
@[simp] theorem mk'_text (a i t) : (PResult.mk' a i t).text = t := rfl
@[simp] theorem mk'_index0 (a t) : (PResult.mk' a 0 t).index = 0 := rfl
@[simp] theorem mk'_tags (a i t) : (PResult.mk' a i t).tags = fun _ => none := rfl

theorem hasPossibleDates_of_year {r : PResult} (h : r.startDate.get .year ≠ 0) : r.hasPossibleDates = true := by
  unfold PResult.hasPossibleDates; simp [h]

/-- The match found at the beginning of a phrase, nothing further. -/
structure FoundAt0 (r : Re) (phrase : Text) (mt : Match) : Prop where
  first : r.search phrase = some mt
  start : mt.start = 0
  again : r.search (phrase.drop mt.stop) = none

/-- Executable form, with the contents of some groups. -/
def checkAt0 (r : Re) (phrase : Text) (gs : List (Nat × Text)) : Bool :=
  match r.search phrase with
  | some mt => mt.start == 0 && (r.search (phrase.drop mt.stop)).isNone && gs.all (fun x => mt.str x.1 == x.2)
  | none => false

theorem foundAt0 {r : Re} {phrase : Text} (gs : List (Nat × Text)) (h : checkAt0 r phrase gs = true) :
    ∃ mt, FoundAt0 r phrase mt ∧ ∀ x ∈ gs, mt.str x.1 = x.2 := by
  unfold checkAt0 at h
  cases hs : r.search phrase with
  | none => rw [hs] at h; simp at h
  | some mt =>
    rw [hs] at h
    simp only [Bool.and_eq_true, List.all_eq_true, beq_iff_eq, Option.isNone_iff_eq_none] at h
    exact ⟨mt, ⟨hs, h.1.1, h.1.2⟩, h.2⟩

theorem yields_of {rt : Rt} {P : Parser} {r : Re} (hrt : rt.Benign) (hr : P.pattern = some r)
    (hmin : 1 ≤ r.minLen) {g g' : Globals} {phrase : Text} {ref : PTime} {mt : Match} {res : PResult}
    (hl : toLower phrase = phrase) (hf : FoundAt0 r phrase mt)
    (hx : P.extract rt g phrase mt ref 0 = .ok (res, g')) {text : Text} {Q : PResult → Prop}
    (hd : res.hasPossibleDates = true) (hi : res.index = 0) (ht : res.text = text) (hQ : Q res.copy) :
    Yields (execute rt P g phrase ref) text Q := by
  refine ⟨res.copy, g', execute_one hrt hr hmin (by rw [hl]; exact hf.first) ?_ hd (by rw [hl]; exact hf.again), hi, ht, hQ⟩
  rw [hl, hf.start]; exact hx

theorem yields_both {o : Out (List PResult × WordMap)} {a b : Text} {P Q : PResult → Prop} (h : Yields o a P)
    (h' : Yields o b Q) : ∃ r, P r ∧ Q r := by
  obtain ⟨r, g, ho, -, -, hp⟩ := h
  obtain ⟨r', g', ho', -, -, hq⟩ := h'
  rw [ho] at ho'
  injection ho' with h
  have e := (Prod.mk.inj h).1
  injection e with e
  subst e
  exact ⟨r, hp, hq⟩

theorem yields_mono {o : Out (List PResult × WordMap)} {text : Text} {P Q : PResult → Prop}
    (hpq : ∀ r, P r → Q r) (h : Yields o text P) : Yields o text Q := by
  obtain ⟨r, g, h1, h2, h3, h4⟩ := h
  exact ⟨r, g, h1, h2, h3, hpq r h4⟩

theorem pureExtract_ok {f : Rt → Globals → Text → Match → PTime → Nat → Out PResult} {rt g tx mt ref idx} {r : PResult}
    (h : f rt g tx mt ref idx = .ok r) : pureExtract f rt g tx mt ref idx = .ok (r, g) := by
  unfold pureExtract; rw [h]; rfl

end Chrono
