import Verif.Spec.History
import Verif.Lemmas.Tac
/-!
# C01-C04: `ParsedComponents`
-/
namespace Chrono.Props
open Chrono Chrono.Spec

theorem keyOfName_name (c : Component) : keyOfName c.name = some c.key := by
  cases c <;> decide

theorem keyOfName_eq_key {n : Text} {c : Component} (h : keyOfName n = some c.key) : n = c.name := by
  unfold keyOfName at h
  split at h
  · cases c <;> simp_all [Component.key, Component.name]
  split at h
  · cases c <;> simp_all [Component.key, Component.name]
  split at h
  · cases c <;> simp_all [Component.key, Component.name]
  split at h
  · cases c <;> simp_all [Component.key, Component.name]
  split at h
  · cases c <;> simp_all [Component.key, Component.name]
  split at h
  · cases c <;> simp_all [Component.key, Component.name]
  split at h
  · cases c <;> simp_all [Component.key, Component.name]
  split at h
  · cases c <;> simp_all [Component.key, Component.name]
  · simp at h

theorem key_inj {c c' : Component} (h : c.key = c'.key) : c = c' := by
  cases c <;> cases c' <;> simp_all [Component.key]

theorem afterCalls_snoc (h : List CompCall) (x : CompCall) :
    afterCalls (h ++ [x]) = x.run (afterCalls h) := by
  simp [afterCalls, List.foldl_append]

theorem setArgs_snoc (c : Component) (h : List CompCall) (x : CompCall) :
    setArgs c (h ++ [x]) = setArgs c h ++ setArgs c [x] := by simp [setArgs, List.filterMap_append]
theorem implyArgs_snoc (c : Component) (h : List CompCall) (x : CompCall) :
    implyArgs c (h ++ [x]) = implyArgs c h ++ implyArgs c [x] := by
  simp [implyArgs, List.filterMap_append]

/-- Invariant: the stored entries are determined by the history. -/
theorem stored (h : List CompCall) (c : Component) :
    (afterCalls h).known c.key =
      (match (setArgs c h).getLast? with | some v => (true, v) | none => (false, 0)) ∧
    ((setArgs c h) = [] → (afterCalls h).implied c.key =
      (match (implyArgs c h).getLast? with | some v => (true, v) | none => (false, 0))) := by
  induction h using List.reverseRecOn with
  | nil => simp [afterCalls, setArgs, implyArgs, Comps.empty]
  | append_singleton h x ih =>
    rw [afterCalls_snoc, setArgs_snoc, implyArgs_snoc]
    cases x with
    | set c' v =>
      by_cases hc : c' = c
      · subst hc
        simp [CompCall.run, Comps.set, Comps.upd, setArgs, implyArgs]
      · have hk : c.key ≠ c'.key := fun e => hc (key_inj e.symm)
        simp only [CompCall.run, Comps.set, Comps.upd, hk, if_false]
        simpa [setArgs, implyArgs, hc] using ih
    | imply n v =>
      have hs : setArgs c [CompCall.imply n v] = [] := by simp [setArgs]
      rw [hs, List.append_nil]
      simp only [CompCall.run, Comps.implyName]
      by_cases hn : n = c.name
      · subst hn
        rw [keyOfName_name]
        simp only [Comps.imply]
        have hi : implyArgs c [CompCall.imply c.name v] = [v] := by simp [implyArgs]
        rw [hi]
        split
        · rename_i hk
          refine ⟨ih.1, fun h0 => ?_⟩
          rw [ih.1, h0] at hk
          simp at hk
        · refine ⟨ih.1, fun _ => ?_⟩
          simp [Comps.upd]
      · have hi : implyArgs c [CompCall.imply n v] = [] := by simp [implyArgs, hn]
        rw [hi, List.append_nil]
        cases hk : keyOfName n with
        | none => exact ih
        | some k =>
          have hne : c.key ≠ k := by
            intro e; subst e; exact hn (keyOfName_eq_key hk)
          simp only [Comps.imply]
          split
          · exact ih
          · refine ⟨ih.1, fun h0 => ?_⟩
            simp only [Comps.upd, hne, if_false]
            exact ih.2 h0

/-- **C01.** After any history of `setX` / `implyComponent` calls every getter returns the last assigned
value, else the last implied value, else 0. -/
theorem c01_getter_is_last_set_else_last_implied (h : List CompCall) (c : Component) :
    (afterCalls h).get c.key = expectedValue c h := by
  have := stored h c
  unfold Comps.get expectedValue
  rw [this.1]
  cases hl : (setArgs c h).getLast? with
  | some v => simp
  | none =>
    simp only
    rw [List.getLast?_eq_none_iff] at hl
    rw [if_neg (by simp), this.2 hl]
    cases (implyArgs c h).getLast? <;> rfl

/-- Non-trivial instance: two sets, an ignored imply, and another component untouched. -/
example : (afterCalls [.imply txt!"hour" 3, .set .hour 7, .imply txt!"hour" 9, .set .hour 8,
    .imply txt!"min" 5]).get Key.hour = 8 ∧
    expectedValue .hour [.imply txt!"hour" 3, .set .hour 7, .imply txt!"hour" 9, .set .hour 8,
    .imply txt!"min" 5] = 8 := by decide

theorem setArgs_eq_nil (c : Component) (h : List CompCall) :
    setArgs c h = [] ↔ ¬ ∃ v, CompCall.set c v ∈ h := by
  induction h with
  | nil => simp [setArgs]
  | cons x h ih =>
    cases x with
    | set c' v =>
      by_cases hc : c' = c
      · subst hc; simp [setArgs]
      · have : setArgs c (CompCall.set c' v :: h) = setArgs c h := by simp [setArgs, hc]
        rw [this, ih]
        simp [Ne.symm hc]
    | imply n v =>
      have : setArgs c (CompCall.imply n v :: h) = setArgs c h := by simp [setArgs]
      rw [this, ih]; simp

/-- **C02.** `isCertain(name)` is true iff the setter of that component was called, for all names but
"min". -/
theorem c02_isCertain_iff_was_set (h : List CompCall) (c : Component) (hc : c ≠ .min) :
    (afterCalls h).isCertainName c.name = true ↔ ∃ v, CompCall.set c v ∈ h := by
  have hk : Comps.certainKey c.key = c.key := by cases c <;> simp_all [Component.key, Comps.certainKey]
  unfold Comps.isCertainName
  rw [keyOfName_name]
  simp only [Comps.certain, hk]
  rw [(stored h c).1]
  constructor
  · intro ht
    by_contra hno
    rw [← setArgs_eq_nil] at hno
    simp [hno] at ht
  · intro hex
    have hne : setArgs c h ≠ [] := fun e => (setArgs_eq_nil c h).1 e hex
    cases hl : (setArgs c h).getLast? with
    | none => rw [List.getLast?_eq_none_iff] at hl; exact absurd hl hne
    | some v => rfl

example : (afterCalls [.set .sec 3, .imply txt!"hour" 1]).isCertainName txt!"sec" = true ∧
    (afterCalls [.set .sec 3, .imply txt!"hour" 1]).isCertainName txt!"hour" = false := by decide

theorem minute_never_written (h : List CompCall) : (afterCalls h).known .minute = (false, 0) := by
  induction h using List.reverseRecOn with
  | nil => rfl
  | append_singleton h x ih =>
    rw [afterCalls_snoc]
    cases x with
    | set c v =>
      have : Key.minute ≠ c.key := by cases c <;> simp [Component.key]
      simp [CompCall.run, Comps.set, Comps.upd, this, ih]
    | imply n v =>
      simp only [CompCall.run, Comps.implyName]
      cases keyOfName n with
      | none => exact ih
      | some k => simp only [Comps.imply]; split <;> exact ih

/-- **C03 (partial).** The wanted equivalence "isCertain("min") iff the minute was assigned" is false of the
code (next theorem); what holds is that `isCertain("min")` is false after every history. -/
theorem c03_isCertain_min_always_false_partial (h : List CompCall) :
    (afterCalls h).isCertainName Component.min.name = false := by
  unfold Comps.isCertainName
  rw [keyOfName_name]
  show (((afterCalls h).known .minute).1) = false
  rw [minute_never_written]

/-- **C03 (refutation).** The equivalence itself fails. -/
theorem c03_isCertain_min_refuted :
    ¬ ∀ h : List CompCall, (afterCalls h).isCertainName Component.min.name = true ↔
      ∃ v, CompCall.set .min v ∈ h := by
  intro H
  have := (H [.set .min 30]).2 ⟨30, by simp⟩
  rw [c03_isCertain_min_always_false_partial] at this
  exact absurd this (by decide)

/-- The eight documented names. -/
def knownNames : List Text :=
  [txt!"year", txt!"month", txt!"mday", txt!"wday", txt!"hour", txt!"min", txt!"sec", txt!"tzoffset"]

theorem keyOfName_unknown {n : Text} (hn : n ∉ knownNames) : keyOfName n = none := by
  simp only [knownNames, List.mem_cons, List.not_mem_nil, not_or, or_false] at hn
  obtain ⟨h1, h2, h3, h4, h5, h6, h7, h8⟩ := hn
  unfold keyOfName
  rw [if_neg h1, if_neg h2, if_neg h3, if_neg h4, if_neg h5, if_neg h6, if_neg h7, if_neg h8]

/-- **C04.** A name that is not one of the eight is inert: implying it changes no getter and no `isCertain`
answer, and it is never certain. -/
theorem c04_unknown_name_inert (h : List CompCall) (n : Text) (v : Int) (hn : n ∉ knownNames) :
    (∀ c : Component, (afterCalls (h ++ [.imply n v])).get c.key = (afterCalls h).get c.key) ∧
    (∀ m : Text, (afterCalls (h ++ [.imply n v])).isCertainName m = (afterCalls h).isCertainName m) ∧
    (afterCalls h).isCertainName n = false := by
  rw [afterCalls_snoc]
  simp [CompCall.run, Comps.implyName, Comps.isCertainName, keyOfName_unknown hn]

example : txt!"minute" ∉ knownNames := by decide

/-- **C01 (corollary).** Once a component was assigned, implying it never changes what its getter returns, and
no call for another component changes it. -/
theorem c01_imply_never_overrides (h : List CompCall) (c : Component) (v w : Int)
    (hs : CompCall.set c w ∈ h) :
    (afterCalls (h ++ [.imply c.name v])).get c.key = (afterCalls h).get c.key := by
  simp only [c01_getter_is_last_set_else_last_implied, expectedValue, setArgs_snoc]
  have : setArgs c [CompCall.imply c.name v] = [] := by simp [setArgs]
  rw [this, List.append_nil]
  cases hl : (setArgs c h).getLast? with
  | some v => rfl
  | none =>
    rw [List.getLast?_eq_none_iff, setArgs_eq_nil] at hl
    exact absurd ⟨w, hs⟩ hl

theorem c01_components_independent (h : List CompCall) (c c' : Component) (v : Int) (hc : c' ≠ c) :
    (afterCalls (h ++ [.set c' v])).get c.key = (afterCalls h).get c.key ∧
    (afterCalls (h ++ [.imply c'.name v])).get c.key = (afterCalls h).get c.key := by
  have hn : c'.name ≠ c.name := by
    intro e
    have : some c'.key = some c.key := by rw [← keyOfName_name, ← keyOfName_name, e]
    exact hc (key_inj (by simpa using this))
  simp [c01_getter_is_last_set_else_last_implied, expectedValue, setArgs_snoc, implyArgs_snoc,
    setArgs, implyArgs, hc, hn]

end Chrono.Props
