import Verif.Spec.Rfc5322
import Verif.Spec.Date

/-!
# Specification: what RFC 5322 says that dates mean

The dates that RFC 5322 allows to generate, each with the moment it denotes (section 3.3).  The pieces are those derived from the rules of the
RFC without its obsolete syntax; the calendar is that of `Verif/Spec/Date.lean`.
-/

namespace Rfc5322.Rfc

open Name Abnf

/-- What is written in a date; the zone is in minutes east of Greenwich. -/
structure Moment where
  day : Nat
  month : Nat
  year : Nat
  hour : Nat
  minute : Nat
  second : Nat
  zone : Int
  deriving DecidableEq

/-- Seconds since 1970-01-01 00:00:00 UTC. -/
def Moment.instant (m : Moment) : Int :=
  86400 * (Spec.monthStart m.year m.month + ((m.day : Int) - 1)) + 3600 * m.hour + 60 * m.minute + m.second - 60 * m.zone

/-- A decimal number. -/
def decimal (x : List Char) : Nat := x.foldl (fun n c => 10 * n + (c.toNat - 48)) 0

/-- The months in the order of the RFC. -/
def months : List (List Char) :=
  [c!"Jan", c!"Feb", c!"Mar", c!"Apr", c!"May", c!"Jun", c!"Jul", c!"Aug", c!"Sep", c!"Oct", c!"Nov", c!"Dec"]

/-- The seconds, which may be left out. -/
inductive Seconds : List Char → Nat → Prop where
  | none : Seconds [] 0
  | some {x} : Derivable current (times 2 DIGIT) x → Seconds (':' :: x) (decimal x)

/-- The zone: `+` is east of Greenwich, `-` is west. -/
inductive Zone : List Char → Int → Prop where
  | east {h m} : Derivable current (times 2 DIGIT) h → Derivable current (times 2 DIGIT) m → Zone ('+' :: (h ++ m)) (60 * decimal h + decimal m)
  | west {h m} : Derivable current (times 2 DIGIT) h → Derivable current (times 2 DIGIT) m → Zone ('-' :: (h ++ m)) (-(60 * decimal h + decimal m))

/-- A date-time (3.3). -/
inductive DateTime : List Char → Moment → Prop where
  | mk {w f₁ d f₂ name mo k f₃ y f₄ h mi s sec f₅ z zone c} :
      Derivable current (opt («day-of-week» ⬝ text c!",")) w →
      Derivable current (opt FWS) f₁ → Derivable current (.rep 1 (some 2) DIGIT) d → Derivable current FWS f₂ →
      months[k]? = some name → Derivable current (text name) mo →
      Derivable current FWS f₃ → Derivable current (times 4 DIGIT) y → Derivable current FWS f₄ →
      Derivable current (times 2 DIGIT) h → Derivable current (times 2 DIGIT) mi → Seconds s sec →
      Derivable current FWS f₅ → Zone z zone → Derivable current (opt CFWS) c →
      DateTime (w ++ (f₁ ++ (d ++ (f₂ ++ (mo ++ (f₃ ++ (y ++ (f₄ ++ (h ++ ':' :: (mi ++ (s ++ (f₅ ++ (z ++ c)))))))))))))
        ⟨decimal d, k + 1, decimal y, decimal h, decimal mi, sec, zone⟩

end Rfc5322.Rfc
