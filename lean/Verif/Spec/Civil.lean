import Verif.Spec.DateText

/-!
# Specification: dates that exist
-/

namespace Rfc5322.Spec

/-- A date and a time of day of the Gregorian calendar, in the years 0 to 9999. -/
structure Proper (f : Fields) : Prop where
  year : f.year < 10000
  month : 1 ≤ f.month ∧ f.month ≤ 12
  day : 1 ≤ f.day ∧ f.day ≤ monthLength f.year f.month
  hour : f.hour < 24
  min : f.min < 60
  sec : f.sec < 60

/-- The day of the week; 0 is Monday.  January 1, 1970 was a Thursday. -/
def weekday (f : Fields) : Nat := ((monthStart f.year f.month + f.day - 1 + 3) % 7).toNat

/-- One comes before the other in the calendar. -/
def Earlier (f g : Fields) : Prop :=
  f.year < g.year ∨ f.year = g.year ∧ (f.month < g.month ∨ f.month = g.month ∧ (f.day < g.day ∨ f.day = g.day ∧
    (f.hour < g.hour ∨ f.hour = g.hour ∧ (f.min < g.min ∨ f.min = g.min ∧ f.sec < g.sec))))

/-- In the years 0 to 9999, in the zone of the time. -/
def InRange (t : GoTime) : Prop := -62167219200 ≤ t.unix + t.loc.offset ∧ t.unix + t.loc.offset < 253402300800

/-- What `-0700` shows of an offset in seconds: whole minutes, cut off towards zero. -/
def shownOffset (seconds : Int) : Offset := ⟨decide (seconds ≤ -60), seconds.natAbs / 3600, seconds.natAbs / 60 % 60⟩

end Rfc5322.Spec
