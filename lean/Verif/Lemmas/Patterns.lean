import Verif.Lemmas.Exec
import Verif.Model.Main
/-!
# The compiled pattern of every parser
-/
namespace Chrono

theorem casualTime_pattern : casualTimeParser.pattern = some Ast.casualTime := by
  unfold casualTimeParser; simp only; exact Ast.compile_casualTime
theorem deadline_pattern : deadlineParser.pattern = some Ast.deadline := by
  unfold deadlineParser; simp only; exact Ast.compile_deadline
theorem dayOfWeek_pattern : dayOfWeekParser.pattern = none := by
  unfold dayOfWeekParser; simp only; exact Ast.compile_dayOfWeek
theorem casualDate_pattern : casualDateParser.pattern = some Ast.casualDate := by
  unfold casualDateParser; simp only; exact Ast.compile_casualDate
theorem middleEndian_pattern : middleEndianParser.pattern = some Ast.middleEndian := by
  unfold middleEndianParser; simp only; exact Ast.compile_middleEndian
theorem timeLater_pattern : timeLaterParser.pattern = some Ast.timeLater := by
  unfold timeLaterParser; simp only; exact Ast.compile_timeLater
theorem monthName_pattern : monthNameParser.pattern = some Ast.monthName := by
  unfold monthNameParser; simp only; exact Ast.compile_monthName
theorem timeAgo_pattern : timeAgoParser.pattern = some Ast.timeAgo := by
  unfold timeAgoParser; simp only; exact Ast.compile_timeAgo
theorem timeExpr_pattern : timeExprParser.pattern = some Ast.timeExpr := by
  unfold timeExprParser; simp only; exact Ast.compile_timeExpr
theorem iso_pattern : isoParser.pattern = some Ast.iso := by
  unfold isoParser; simp only; exact Ast.compile_iso
theorem holiday_pattern : holidayParser.pattern = some Ast.holiday := by
  unfold holidayParser; simp only; exact Ast.compile_holiday
theorem week_pattern : weekParser.pattern = some Ast.week := by
  unfold weekParser; simp only; exact Ast.compile_week
theorem relative_pattern : relativeParser.pattern = some Ast.relative := by
  unfold relativeParser; simp only; exact Ast.compile_relative

theorem casualTime_min : 1 ≤ Ast.casualTime.minLen := by decide +kernel
theorem deadline_min : 1 ≤ Ast.deadline.minLen := by decide +kernel
theorem casualDate_min : 1 ≤ Ast.casualDate.minLen := by decide +kernel
theorem middleEndian_min : 1 ≤ Ast.middleEndian.minLen := by decide +kernel
theorem timeLater_min : 1 ≤ Ast.timeLater.minLen := by decide +kernel
theorem monthName_min : 1 ≤ Ast.monthName.minLen := by decide +kernel
theorem timeAgo_min : 1 ≤ Ast.timeAgo.minLen := by decide +kernel
theorem timeExpr_min : 1 ≤ Ast.timeExpr.minLen := by decide +kernel
theorem iso_min : 1 ≤ Ast.iso.minLen := by decide +kernel
theorem holiday_min : 1 ≤ Ast.holiday.minLen := by decide +kernel
theorem week_min : 1 ≤ Ast.week.minLen := by decide +kernel
theorem relative_min : 1 ≤ Ast.relative.minLen := by decide +kernel

end Chrono
