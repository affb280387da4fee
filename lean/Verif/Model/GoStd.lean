import Verif.Model.Utf8

/-!
# Standard-library functions called by the walker

These are not part of /repo; each is modelled on the behaviour the walker needs (Go 1.16, the version in
/repo/go.mod), with the simplifications stated.
-/

namespace Rfc5322

open Lean in
/-- `b!"text"`: a Go string literal (ASCII) as an explicit list of bytes. -/
macro:max "b!" s:str : term => do
  let es ← s.getString.toList.toArray.mapM fun c => `(($(quote c.toNat) : UInt8))
  `(([$es,*] : List UInt8))

open Lean in
/-- `c!"text"`: a text as an explicit list of characters. -/
macro:max "c!" s:str : term => do
  let es := s.getString.toList.toArray.map fun c => Syntax.mkCharLit c
  `(([$es,*] : List Char))

/-- Run-time panics that the code could raise. -/
inductive Panic where
  /-- index out of range on `w.nodes[len(w.nodes)-1]` (/repo/walker.go:34, :40) -/
  | emptyStack
  /-- failed type assertion (`w.exit().(*T)` in every `ExitX`; `w.res.(T)` at /repo/parser.go:38, :61) -/
  | typeAssertion
  /-- slice bounds out of range (/repo/offset.go:26-28) -/
  | sliceBounds
  deriving DecidableEq, Repr

/-- Errors: only their kind is modelled, not the message. -/
inductive Err where
  /-- `SyntaxError` (/repo/walker.go:43-45) -/
  | syntaxError
  /-- from `strconv.Atoi` -/
  | atoi
  /-- `errors.New("no such month")` (/repo/month.go:44) -/
  | noSuchMonth
  /-- `errors.New("bad timezone")` (/repo/obs_zone.go:42) -/
  | badTimezone
  /-- from `time.ParseDuration` -/
  | duration
  deriving DecidableEq, Repr

/-- ASCII digit test. -/
def isDigitByte (b : UInt8) : Bool := inRange b 0x30 0x39

/-- Decimal value of a string of ASCII digits. -/
def digitsVal (s : Bytes) : Nat := s.foldl (fun n b => 10 * n + (b.toNat - 0x30)) 0

/-- `strconv.Atoi` (called at /repo/day.go:20, hour.go:20, minute.go:20, second.go:20, year.go:21): optional sign, at least
one digit, nothing else.  Returns the value (0 on a syntax error) and the error.
Simplification: the int64 range check is `|v| < 2^63`, a range error keeps the clamped value. -/
def atoi (s : Bytes) : Int × Option Err :=
  let (neg, ds) := match s with
    | 0x2D :: r => (true, r)
    | 0x2B :: r => (false, r)
    | r => (false, r)
  if ds.isEmpty || !ds.all isDigitByte then (0, some .atoi)
  else
    let v : Int := digitsVal ds
    if v < 9223372036854775808 then (if neg then -v else v, none)
    else (if neg then -9223372036854775808 else 9223372036854775807, some .atoi)

/-- `strings.ToLower` (called at /repo/month.go:18 and /repo/obs_zone.go:18).  Simplification: only ASCII letters are mapped;
its argument is always ASCII here. -/
def toLower (s : Bytes) : Bytes := s.map fun b => if inRange b 0x41 0x5A then b + 0x20 else b

/-- `strings.Join(parts, sep)` (called at /repo/domain.go:22 and /repo/local_part.go:22). -/
def joinBytes (sep : Bytes) : List Bytes → Bytes
  | [] => []
  | [a] => a
  | a :: b :: r => a ++ sep ++ joinBytes sep (b :: r)

/-- Slice expression `s[lo:hi]`; panics when out of range. -/
def sliceBytes (s : Bytes) (lo hi : Nat) : Except Panic Bytes :=
  if lo ≤ hi ∧ hi ≤ s.length then .ok ((s.drop lo).take (hi - lo)) else .error .sliceBounds

/-! ## package time -/

/-- `*time.Location` as far as it is observable here: `time.UTC` or `time.FixedZone(name, offset)`. -/
structure Location where
  name : Bytes
  offset : Int
  deriving DecidableEq, Repr

/-- `time.UTC`. -/
def utcLoc : Location := ⟨b!"UTC", 0⟩

/-- `time.FixedZone(name, offset)` (called at /repo/zone.go:14 and /repo/obs_zone.go:20-40). -/
def fixedZone (name : Bytes) (offset : Int) : Location := ⟨name, offset⟩

/-- A `time.Time` with zero nanoseconds and no monotonic clock: the instant in Unix seconds and the location. -/
structure GoTime where
  unix : Int
  loc : Location
  deriving DecidableEq, Repr

/-- `time.Time{}`: January 1, year 1, 00:00:00 UTC. -/
def zeroTime : GoTime := ⟨-62135596800, utcLoc⟩

/-- Units known to `time.ParseDuration`, in nanoseconds.  Simplification: the sub-second units are omitted. -/
def durationUnit (u : Bytes) : Option Int :=
  if u = b!"h" then some 3600000000000
  else if u = b!"m" then some 60000000000
  else if u = b!"s" then some 1000000000
  else none

/-- Loop of `time.ParseDuration`: a number and a unit, repeatedly.  `n` bounds the iterations (each consumes a byte).
Simplifications: no fractions, no overflow check (the caller passes two two-digit numbers). -/
def durationLoop : Nat → Bytes → Int → Option Int
  | 0, s, acc => if s.isEmpty then some acc else none
  | n + 1, s, acc =>
    if s.isEmpty then some acc
    else
      let ds := s.takeWhile isDigitByte
      let rest := s.dropWhile isDigitByte
      if ds.isEmpty then none
      else
        let u := rest.takeWhile fun b => !(isDigitByte b || b == 0x2E)
        match durationUnit u with
        | none => none
        | some ns => durationLoop n (rest.drop u.length) (acc + digitsVal ds * ns)

/-- `time.ParseDuration` (called at /repo/offset.go:30), in nanoseconds; 0 and an error when malformed. -/
def parseDuration (s : Bytes) : Int × Option Err :=
  let (neg, r) := match s with
    | 0x2D :: r => (true, r)
    | 0x2B :: r => (false, r)
    | r => (false, r)
  if r = b!"0" then (0, none)
  else if r.isEmpty then (0, some .duration)
  else match durationLoop r.length r 0 with
    | none => (0, some .duration)
    | some d => (if neg then -d else d, none)

/-- `int(dur.Seconds())` (/repo/offset.go:37): whole seconds, truncated toward zero.  The float64 detour is exact for the
values that occur (multiples of a minute below 10^6 seconds). -/
def durationSeconds (ns : Int) : Int := ns.tdiv 1000000000

/-- `norm` of package time (time.go): carry `lo` into `hi` so that `0 ≤ lo < base`. -/
def timeNorm (hi lo base : Int) : Int × Int :=
  let (hi, lo) := if lo < 0 then
      let n := (-lo - 1).tdiv base + 1
      (hi - n, lo + n * base)
    else (hi, lo)
  if lo ≥ base then
    let n := lo.tdiv base
    (hi + n, lo - n * base)
  else (hi, lo)

/-- `isLeap` of package time. -/
def isLeap (year : Int) : Bool := year % 4 == 0 && (year % 100 != 0 || year % 400 == 0)

/-- `daysBefore` table of package time, months 1..12. -/
def daysBefore (month : Int) : Int :=
  if month = 1 then 0 else if month = 2 then 31 else if month = 3 then 59 else if month = 4 then 90
  else if month = 5 then 120 else if month = 6 then 151 else if month = 7 then 181
  else if month = 8 then 212 else if month = 9 then 243 else if month = 10 then 273
  else if month = 11 then 304 else 334

/-- `absoluteZeroYear` of package time. -/
def absoluteZeroYear : Int := -292277022399

/-- `daysSinceEpoch` of package time: days from the absolute epoch to January 1 of `year`. -/
def daysSinceEpoch (year : Int) : Int :=
  let y := year - absoluteZeroYear
  let n := y / 400
  let y := y - 400 * n
  let d := 146097 * n
  let n := y / 100
  let y := y - 100 * n
  let d := d + 36524 * n
  let n := y / 4
  let y := y - 4 * n
  let d := d + 1461 * n
  d + 365 * y

/-- `absoluteToInternal + internalToUnix` of package time, in seconds. -/
def absoluteToUnix : Int := -(730692556 * 146097) * 86400 - (1969 * 365 + 1969 / 4 - 1969 / 100 + 1969 / 400) * 86400

/-- `time.Date(year, month, day, hour, min, sec, 0, loc)` (called at /repo/date_time.go:56) for a fixed-offset location.
Simplification: unbounded integers (the fields have at most four digits). -/
def goDate (year month day hour min sec : Int) (loc : Location) : GoTime :=
  let (year, m) := timeNorm year (month - 1) 12
  let month := m + 1
  let (min, sec) := timeNorm min sec 60
  let (hour, min) := timeNorm hour min 60
  let (day, hour) := timeNorm day hour 24
  let d := daysSinceEpoch year
  let d := d + daysBefore month
  let d := if isLeap year && month ≥ 3 then d + 1 else d
  let d := d + (day - 1)
  let abs := d * 86400 + (hour * 3600 + min * 60 + sec)
  let unix := abs + absoluteToUnix
  ⟨unix - loc.offset, loc⟩

end Rfc5322
