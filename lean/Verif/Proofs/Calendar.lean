import Verif.Spec.Date

/-!
# `time.Date` against naive day counting
-/

namespace Rfc5322

open Spec

theorem daysToYear_closed (y : Nat) :
    (daysToYear y : Int) = 365 * y + (y + 3) / 4 - (y + 99) / 100 + (y + 399) / 400 := by
  induction y with
  | zero => rfl
  | succ y ih =>
    simp only [daysToYear, yearLength]
    cases h : leap y <;> rw [leap] at h <;>
      simp only [Bool.or_eq_true, Bool.and_eq_true, beq_iff_eq, bne_iff_ne, ne_eq, Bool.or_eq_false_iff,
        Bool.and_eq_false_iff, beq_eq_false_iff_ne, bne_eq_false_iff_eq] at h <;>
      simp <;> omega

theorem daysSinceEpoch_eq (y : Nat) :
    daysSinceEpoch y = (daysToYear y : Int) + (730692556 * 146097 - 366) := by
  rw [daysToYear_closed]
  simp only [daysSinceEpoch, absoluteZeroYear]
  omega

theorem isLeap_eq (y : Nat) : isLeap (y : Int) = leap y := by
  rw [Bool.eq_iff_iff]
  simp only [isLeap, leap, Bool.or_eq_true, Bool.and_eq_true, beq_iff_eq, bne_iff_ne, ne_eq]
  omega

theorem timeNorm_sum (hi lo base : Int) : (timeNorm hi lo base).1 * base + (timeNorm hi lo base).2 = hi * base + lo := by
  simp only [timeNorm]
  split <;> split <;> simp only [Int.add_mul, Int.sub_mul] <;> omega

theorem timeNorm_month {y m : Int} (h0 : 0 ≤ m) (h1 : m < 12) : timeNorm y m 12 = (y, m) := by
  have e : ¬ m < 0 := by omega
  have e' : ¬ m ≥ 12 := by omega
  simp [timeNorm, e, e']

theorem monthDays (y m : Nat) (h0 : 1 ≤ m) (h1 : m ≤ 12) :
    (daysToMonthEnd y (m - 1) : Int) = daysBefore m + if (leap y && decide ((m : Int) ≥ 3)) = true then 1 else 0 := by
  have : m = 1 ∨ m = 2 ∨ m = 3 ∨ m = 4 ∨ m = 5 ∨ m = 6 ∨ m = 7 ∨ m = 8 ∨ m = 9 ∨ m = 10 ∨ m = 11 ∨ m = 12 := by omega
  cases hl : leap y <;>
    rcases this with rfl | rfl | rfl | rfl | rfl | rfl | rfl | rfl | rfl | rfl | rfl | rfl <;>
    simp [daysToMonthEnd, monthLength, daysBefore, hl]

/-- `time.Date` is the naive calendar. -/
theorem goDate_eq (f : Fields) (h0 : 1 ≤ f.month) (h1 : f.month ≤ 12) :
    goDate f.year f.month f.day f.hour f.min f.sec f.zone = f.time := by
  obtain ⟨d, m, y, h, mi, s, z⟩ := f
  simp only at h0 h1
  simp only [goDate, timeNorm_month (y := (y : Int)) (m := (m : Int) - 1) (by omega) (by omega), Fields.time, monthStart]
  have e1 := timeNorm_sum mi s 60
  have e2 := timeNorm_sum h (timeNorm mi s 60).1 60
  have e3 := timeNorm_sum d (timeNorm h (timeNorm mi s 60).1 60).1 24
  have e4 := monthDays y m h0 h1
  have e5 : (daysToYear 1970 : Int) = 719528 := by rw [daysToYear_closed]; decide
  rw [daysSinceEpoch_eq, isLeap_eq, show (m : Int) - 1 + 1 = m by omega]
  simp only [absoluteToUnix]
  rw [GoTime.mk.injEq]
  refine ⟨?_, rfl⟩
  rw [e5, e4]
  split <;> omega

end Rfc5322
