import Verif.Model.GoStd

/-!
# `time.Time.Format`

Not part of /repo: the function of Go's package time (the version of Go 1.16, /repo/go.mod:3) with which programs write the dates that `ParseDateTime` (/repo/parser.go:42) reads.

Simplified: nanoseconds are left out (the layouts below do not show them); absolute times are unbounded integers (Go: uint64), so only times from the absolute epoch on are meant;
layouts are given as the chunks into which `nextStdChunk` cuts them.
-/

namespace Rfc5322.GoFormat

/-- `t.abs()`: seconds since January 1 of the absolute year zero, in the zone of the time. -/
def absolute (t : GoTime) : Int := t.unix + t.loc.offset - absoluteToUnix

/-- `daysBefore` of package time, for the months 0 (January) to 12. -/
def daysBefore12 (m : Int) : Int := if m ≥ 12 then 365 else daysBefore (m + 1)

/-- The month (0 is January) and the day of the month for a day of a year without February 29, counted from 0: the last part of `absDate`. -/
def monthDay (day : Int) : Int × Int :=
  let month := day / 31
  let «end» := daysBefore12 (month + 1)
  if day ≥ «end» then (month + 1, day - «end» + 1) else (month, day - daysBefore12 month + 1)

/-- `absDate(abs, true)`: year, month (1 is January) and day. -/
def absDate (abs : Int) : Int × Int × Int :=
  let d := abs / 86400
  let n := d / 146097
  let y := 400 * n
  let d := d - 146097 * n
  let n := d / 36524
  let n := n - n / 4
  let y := y + 100 * n
  let d := d - 36524 * n
  let n := d / 1461
  let y := y + 4 * n
  let d := d - 1461 * n
  let n := d / 365
  let n := n - n / 4
  let y := y + n
  let d := d - 365 * n
  let year := y + absoluteZeroYear
  let day := d
  if isLeap year then
    if day > 31 + 29 - 1 then
      let (m, d) := monthDay (day - 1)
      (year, m + 1, d)
    else if day = 31 + 29 - 1 then (year, 2, 29)
    else
      let (m, d) := monthDay day
      (year, m + 1, d)
  else
    let (m, d) := monthDay day
    (year, m + 1, d)

/-- `absClock(abs)`: hour, minute, second. -/
def absClock (abs : Int) : Int × Int × Int :=
  let sec := abs % 86400
  let hour := sec / 3600
  let sec := sec - hour * 3600
  let min := sec / 60
  let sec := sec - min * 60
  (hour, min, sec)

/-- `absWeekday(abs)`: 0 is Sunday.  January 1 of the absolute year was a Monday. -/
def absWeekday (abs : Int) : Int := (abs + 1 * 86400) % (7 * 86400) / 86400

/-- The digits of a number, in front of those already there: the loops of `appendInt`, with a buffer of `n` characters. -/
def digits : Nat → Nat → List Char → List Char
  | 0, _, acc => acc
  | n + 1, u, acc => if u ≥ 10 then digits n (u / 10) (Char.ofNat (48 + (u - u / 10 * 10)) :: acc) else Char.ofNat (48 + u) :: acc

/-- `appendInt(b, x, width)`, what is appended. -/
def appendInt (x : Int) (width : Nat) : List Char :=
  let ds := digits 20 x.natAbs []
  let ds := List.replicate (width - ds.length) '0' ++ ds
  if x < 0 then '-' :: ds else ds

/-- The chunks of layouts. -/
inductive Chunk where
  | lit (s : List Char)
  /-- `Mon` -/
  | weekDay
  /-- `2` -/
  | day
  /-- `02` -/
  | zeroDay
  /-- `Jan` -/
  | month
  /-- `2006` -/
  | longYear
  /-- `06` -/
  | year
  /-- `15` -/
  | hour
  /-- `04` -/
  | zeroMinute
  /-- `05` -/
  | zeroSecond
  /-- `-0700` -/
  | numTZ
  /-- `MST` -/
  | tz

/-- `shortDayNames`. -/
def shortDayNames : List (List Char) := ["Sun".toList, "Mon".toList, "Tue".toList, "Wed".toList, "Thu".toList, "Fri".toList, "Sat".toList]

/-- `longMonthNames`, the first three letters. -/
def shortMonthNames : List (List Char) :=
  ["Jan".toList, "Feb".toList, "Mar".toList, "Apr".toList, "May".toList, "Jun".toList, "Jul".toList, "Aug".toList, "Sep".toList, "Oct".toList, "Nov".toList, "Dec".toList]

/-- `-0700`, in `Format`. -/
def numericZone (offset : Int) : List Char :=
  let zone := offset.tdiv 60
  if zone < 0 then '-' :: (appendInt ((-zone).tdiv 60) 2 ++ appendInt ((-zone).tmod 60) 2) else '+' :: (appendInt (zone.tdiv 60) 2 ++ appendInt (zone.tmod 60) 2)

/-- One chunk.  Simplified: the names of zones are given as texts, and not empty. -/
def chunk (t : GoTime) (zone : List Char) : Chunk → List Char
  | .lit s => s
  | .weekDay => shortDayNames.getD (absWeekday (absolute t)).toNat []
  | .day => appendInt (absDate (absolute t)).2.2 0
  | .zeroDay => appendInt (absDate (absolute t)).2.2 2
  | .month => shortMonthNames.getD ((absDate (absolute t)).2.1 - 1).toNat []
  | .longYear => appendInt (absDate (absolute t)).1 4
  | .year => let y := (absDate (absolute t)).1; appendInt ((if y < 0 then 0 else y).tmod 100) 2
  | .hour => appendInt (absClock (absolute t)).1 2
  | .zeroMinute => appendInt (absClock (absolute t)).2.1 2
  | .zeroSecond => appendInt (absClock (absolute t)).2.2 2
  | .numTZ => numericZone t.loc.offset
  | .tz => zone

/-- `t.Format(layout)`; `zone` is the name of the zone of `t`. -/
def format (layout : List Chunk) (t : GoTime) (zone : List Char) : List Char := layout.flatMap (chunk t zone)

/-- `time.RFC1123Z`, `Mon, 02 Jan 2006 15:04:05 -0700`. -/
def RFC1123Z : List Chunk :=
  [.weekDay, .lit [',', ' '], .zeroDay, .lit [' '], .month, .lit [' '], .longYear, .lit [' '], .hour, .lit [':'], .zeroMinute, .lit [':'], .zeroSecond, .lit [' '], .numTZ]

/-- `time.RFC1123`, `Mon, 02 Jan 2006 15:04:05 MST`. -/
def RFC1123 : List Chunk :=
  [.weekDay, .lit [',', ' '], .zeroDay, .lit [' '], .month, .lit [' '], .longYear, .lit [' '], .hour, .lit [':'], .zeroMinute, .lit [':'], .zeroSecond, .lit [' '], .tz]

/-- `time.RFC822Z`, `02 Jan 06 15:04 -0700`. -/
def RFC822Z : List Chunk := [.zeroDay, .lit [' '], .month, .lit [' '], .year, .lit [' '], .hour, .lit [':'], .zeroMinute, .lit [' '], .numTZ]

/-- `time.RFC822`, `02 Jan 06 15:04 MST`. -/
def RFC822 : List Chunk := [.zeroDay, .lit [' '], .month, .lit [' '], .year, .lit [' '], .hour, .lit [':'], .zeroMinute, .lit [' '], .tz]

/-- `Mon, 2 Jan 2006 15:04:05 -0700`, as many programs write the `Date` field of a message. -/
def mailDate : List Chunk :=
  [.weekDay, .lit [',', ' '], .day, .lit [' '], .month, .lit [' '], .longYear, .lit [' '], .hour, .lit [':'], .zeroMinute, .lit [':'], .zeroSecond, .lit [' '], .numTZ]

end Rfc5322.GoFormat
