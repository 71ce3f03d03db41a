import Verif.Props.P10_Holidays
/-!
# C71: New Year's Eve
-/
namespace Chrono.Props
open Chrono Chrono.Spec Chrono.Boost

/-- **C71.** For every reference time `new year's eve` followed by something (`new year's eve day`, `new year's eve
party`) yields one result, which is 31 December of the reference year. -/
theorem c71_new_years_eve (rt : Rt) (hrt : rt.Benign) (g : Globals) (ref : PTime) (t : DateTime) (ht : RefReads ref t) :
    Yields (execute rt holidayParser g txt!"new year's eve day" ref) txt!"new year's eve day" (WholeDay t.year 12 31) ∧
    Yields (execute rt holidayParser g txt!"new year's eve party" ref) txt!"new year's eve " (WholeDay t.year 12 31) := by
  have hc := ht.valid.1
  have hy := (Date.year_of_ymd ht.date).1
  have hy0 : (t.year : Int) ≠ 0 := by have := hc.1; omega
  constructor
  · obtain ⟨mt, hf, hg⟩ := foundAt0 (r := Ast.holiday) (phrase := txt!"new year's eve day")
      [(0, txt!"new year's eve day")] (by decide +kernel)
    refine holiday_fixed hrt g (y := t.year) hy0 (by decide) hf (hg _ List.mem_cons_self) ?_ (fixed_whole (m := 12) (d := 31))
    unfold holidayDate
    rw [hy]
    simp only [Out.bind_ok]
    rw [if_neg (by decide), if_pos (by decide), if_pos (by decide)]
    rfl
  · obtain ⟨mt, hf, hg⟩ := foundAt0 (r := Ast.holiday) (phrase := txt!"new year's eve party")
      [(0, txt!"new year's eve ")] (by decide +kernel)
    refine holiday_fixed hrt g (y := t.year) hy0 (by decide) hf (hg _ List.mem_cons_self) ?_ (fixed_whole (m := 12) (d := 31))
    unfold holidayDate
    rw [hy]
    simp only [Out.bind_ok]
    rw [if_neg (by decide), if_pos (by decide), if_pos (by decide)]
    rfl

/-- **C71 (refuted part).** With nothing after it, `new year's eve` is read as `new year's`: 1 January, for every reference time. -/
theorem c71_new_years_eve_refuted (rt : Rt) (hrt : rt.Benign) (g : Globals) (ref : PTime) (t : DateTime) (ht : RefReads ref t) :
    Yields (execute rt holidayParser g txt!"new year's eve" ref) txt!"new year's " (WholeDay t.year 1 1) := by
  have hc := ht.valid.1
  have hy := (Date.year_of_ymd ht.date).1
  have hy0 : (t.year : Int) ≠ 0 := by have := hc.1; omega
  obtain ⟨mt, hf, hg⟩ := foundAt0 (r := Ast.holiday) (phrase := txt!"new year's eve") [(0, txt!"new year's ")] (by decide +kernel)
  refine holiday_fixed hrt g (y := t.year) hy0 (by decide) hf (hg _ List.mem_cons_self) ?_ (fixed_whole (m := 1) (d := 1))
  unfold holidayDate
  rw [hy]
  simp only [Out.bind_ok]
  rw [if_neg (by decide), if_pos (by decide), if_neg (by decide)]
  rfl

end Chrono.Props
