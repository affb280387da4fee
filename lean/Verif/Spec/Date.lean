import Verif.Spec.Address

/-!
# Specification: the date-time language and the value each text denotes

Written from RFC 5322 §3.3 and §4.3 (with the relaxations documented in RFC5322Parser.g4: one-digit hours, unsigned
offsets, zone name `UTC`).  Only CFWS is shared with the address specification, and `GoTime`/`Location` with the model.
-/

namespace Rfc5322.Spec

/-! ## Calendar, by naive counting -/

/-- Gregorian leap years. -/
def leap (y : Nat) : Bool := (y % 4 == 0 && y % 100 != 0) || y % 400 == 0

/-- Number of days of a year. -/
def yearLength (y : Nat) : Nat := if leap y then 366 else 365

/-- Number of days of a month (1 = January). -/
def monthLength (y m : Nat) : Nat :=
  if m = 2 then (if leap y then 29 else 28)
  else if m = 4 ∨ m = 6 ∨ m = 9 ∨ m = 11 then 30 else 31

/-- Days from January 1 of year 0 to January 1 of year `y`, counted year by year. -/
def daysToYear : Nat → Nat
  | 0 => 0
  | y + 1 => daysToYear y + yearLength y

/-- Days from January 1 to the end of month `m`, counted month by month. -/
def daysToMonthEnd (y : Nat) : Nat → Nat
  | 0 => 0
  | m + 1 => daysToMonthEnd y m + monthLength y (m + 1)

/-- Days from 1970-01-01 to the first day of a month. -/
def monthStart (y m : Nat) : Int := (daysToYear y : Int) + daysToMonthEnd y (m - 1) - daysToYear 1970

/-- The fields written in a date-time. -/
structure Fields where
  day : Nat
  month : Nat
  year : Nat
  hour : Nat
  min : Nat
  sec : Nat
  zone : Location
  deriving DecidableEq, Repr

/-- The instant meant by the fields, in seconds since 1970-01-01 00:00:00 UTC, and the zone.  Fields beyond their usual
range simply count on (the 31st of April is the day after the 30th, 25:00 is one hour after 24:00). -/
def Fields.time (f : Fields) : GoTime :=
  ⟨86400 * (monthStart f.year f.month + ((f.day : Int) - 1)) + 3600 * f.hour + 60 * f.min + f.sec - f.zone.offset, f.zone⟩

/-! ## Numbers and names -/

/-- Decimal value of a list of digits. -/
def num (x : List Char) : Nat := x.foldl (fun n c => 10 * n + (c.toNat - 48)) 0

/-- `n` decimal digits. -/
def Digits (n : Nat) (x : List Char) : Prop := x.length = n ∧ ∀ c ∈ x, isDigit c

/-- One or two decimal digits. -/
def Digits12 (x : List Char) : Prop := Digits 1 x ∨ Digits 2 x

/-- A number surrounded by optional CFWS. -/
def Padded (D : List Char → Prop) (t : List Char) (v : Nat) : Prop :=
  ∃ a x b, OptCfws a ∧ D x ∧ OptCfws b ∧ t = a ++ (x ++ b) ∧ v = num x

/-- Month names. -/
def monthNames : List (List Char) :=
  [c!"jan", c!"feb", c!"mar", c!"apr", c!"may", c!"jun", c!"jul", c!"aug", c!"sep", c!"oct", c!"nov", c!"dec"]

/-- Day names. -/
def dayNames : List (List Char) := [c!"mon", c!"tue", c!"wed", c!"thu", c!"fri", c!"sat", c!"sun"]

/-- Zone names and their offsets in hours. -/
def zoneNames : List (List Char × Int) :=
  [(c!"ut", 0), (c!"utc", 0), (c!"gmt", 0), (c!"est", -5), (c!"edt", -4), (c!"cst", -6), (c!"cdt", -5),
   (c!"mst", -7), (c!"mdt", -6), (c!"pst", -8), (c!"pdt", -7)]

/-- ASCII lower case. -/
def lower (t : List Char) : List Char := t.map Char.toLower

/-- Month `m` (1 = January), in any letter case. -/
def Month (t : List Char) (m : Nat) : Prop := 1 ≤ m ∧ monthNames[m - 1]? = some (lower t)

/-- Optional day of the week and comma; the day is not checked. -/
def DayOfWeek (t : List Char) : Prop :=
  t = [] ∨ ∃ a n b, OptCfws a ∧ lower n ∈ dayNames ∧ OptCfws b ∧ t = a ++ (n ++ (b ++ [',']))

/-- Year: four digits within white space, or two digits interpreted relative to the current year `now`. -/
inductive Year (now : Int) : List Char → Nat → Prop where
  | four {a x b} : Fws a → Digits 4 x → Fws b → Year now (a ++ (x ++ b)) (num x)
  | two {a x b} : OptCfws a → Digits 2 x → OptCfws b →
      Year now (a ++ (x ++ b)) (if (num x : Int) > now.tmod 100 then 1900 + num x else 2000 + num x)

/-- Optional seconds, 0 when missing. -/
inductive Seconds : List Char → Nat → Prop where
  | none : Seconds [] 0
  | some {t v} : Padded (Digits 2) t v → Seconds (':' :: t) v

/-- Numeric zone `[+-]hhmm`: the name is the text with a sign. -/
inductive NumericZone : List Char → Location → Prop where
  | plus {h m} : Digits 2 h → Digits 2 m →
      NumericZone ('+' :: (h ++ m)) ⟨utf8 ('+' :: (h ++ m)), 3600 * num h + 60 * num m⟩
  | minus {h m} : Digits 2 h → Digits 2 m →
      NumericZone ('-' :: (h ++ m)) ⟨utf8 ('-' :: (h ++ m)), -(3600 * num h + 60 * num m)⟩
  | unsigned {h m} : Digits 2 h → Digits 2 m →
      NumericZone (h ++ m) ⟨utf8 ('+' :: (h ++ m)), 3600 * num h + 60 * num m⟩

/-- Optional zone, UTC when missing. -/
inductive Zone : List Char → Location → Prop where
  | none : Zone [] ⟨b!"UTC", 0⟩
  | numeric {f z l} : Fws f → NumericZone z l → Zone (f ++ z) l
  | named {t h} : (lower t, h) ∈ zoneNames → Zone t ⟨utf8 t, 3600 * h⟩

/-- date-time and the fields written in it. -/
def DateTime (now : Int) (t : List Char) (f : Fields) : Prop :=
  ∃ dw d mo y h mi s z c, DayOfWeek dw ∧ Padded Digits12 d f.day ∧ Month mo f.month ∧ Year now y f.year ∧
    Padded Digits12 h f.hour ∧ Padded (Digits 2) mi f.min ∧ Seconds s f.sec ∧ Zone z f.zone ∧ OptCfws c ∧
    t = dw ++ (d ++ (mo ++ (y ++ (h ++ ':' :: (mi ++ (s ++ (z ++ c)))))))

end Rfc5322.Spec
