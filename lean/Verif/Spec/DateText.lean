import Verif.Spec.Date

/-!
# Specification: canonical date-time texts
-/

namespace Rfc5322.Spec

/-- The beginning of a date-time, up to the minutes (seconds and zone of `f` are not looked at). -/
def UpToMinutes (now : Int) (t : List Char) (f : Fields) : Prop :=
  ∃ dw d mo y h mi, DayOfWeek dw ∧ Padded Digits12 d f.day ∧ Month mo f.month ∧ Year now y f.year ∧
    Padded Digits12 h f.hour ∧ Padded (Digits 2) mi f.min ∧ t = dw ++ (d ++ (mo ++ (y ++ (h ++ ':' :: mi))))

/-- The beginning of a date-time, up to the seconds if they are there (the zone of `f` is not looked at). -/
def UpToSeconds (now : Int) (t : List Char) (f : Fields) : Prop :=
  ∃ p s, UpToMinutes now p f ∧ Seconds s f.sec ∧ t = p ++ s

/-- The last decimal digit of a number. -/
def digit (n : Nat) : Char := Char.ofNat (48 + n % 10)

/-- Two decimal digits. -/
def two (n : Nat) : List Char := [digit (n / 10), digit n]

/-- Four decimal digits. -/
def four (n : Nat) : List Char := two (n / 100) ++ two n

/-- Month names as usually written. -/
def monthText : List (List Char) :=
  [c!"Jan", c!"Feb", c!"Mar", c!"Apr", c!"May", c!"Jun", c!"Jul", c!"Aug", c!"Sep", c!"Oct", c!"Nov", c!"Dec"]

/-- Day names as usually written. -/
def dayText : List (List Char) := [c!"Mon", c!"Tue", c!"Wed", c!"Thu", c!"Fri", c!"Sat", c!"Sun"]

/-- A zone: an offset of `hh` hours and `mm` minutes, west or east of Greenwich. -/
structure Offset where
  west : Bool
  hh : Nat
  mm : Nat

/-- `+hhmm` or `-hhmm`. -/
def Offset.text (o : Offset) : List Char := (if o.west then '-' else '+') :: (two o.hh ++ two o.mm)

/-- The zone: the text is its name. -/
def Offset.location (o : Offset) : Location :=
  ⟨utf8 o.text, if o.west then -(3600 * o.hh + 60 * o.mm) else 3600 * o.hh + 60 * o.mm⟩

/-- `Mon, `, or nothing. -/
def dowText : Option Nat → List Char
  | some k => dayText.getD k [] ++ c!", "
  | none => []

/-- `:05`, or nothing. -/
def secText : Option Nat → List Char
  | some k => ':' :: two k
  | none => []

/-- ` -0700`, or nothing. -/
def zoneText : Option Offset → List Char
  | some o => ' ' :: o.text
  | none => []

/-- `Mon, 02 Jan 2006 15:04:05 -0700`; day name, seconds and zone may be missing. -/
def canonical (dow : Option Nat) (d m y h mi : Nat) (s : Option Nat) (z : Option Offset) : List Char :=
  dowText dow ++ two d ++ c!" " ++ monthText.getD (m - 1) [] ++ c!" " ++ four y ++ c!" " ++ two h ++ c!":" ++ two mi ++
  secText s ++ zoneText z

end Rfc5322.Spec
