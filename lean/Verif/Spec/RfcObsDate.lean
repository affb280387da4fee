import Verif.Spec.RfcDate

/-!
# Specification: what RFC 5322 says that dates in the obsolete syntax mean

Dates with or without the obsolete syntax of section 4.3, each with the moment it denotes.  The pieces are those derived from the rules of the RFC with the
restrictions of this package (`restricted`, in `Verif/Spec/Rfc5322.lean`): comments and white space nearly everywhere, years of two digits, names of zones.
-/

namespace Rfc5322.Rfc

open Name Abnf

/-- The year, in full, that two digits stand for. -/
abbrev Century := Nat → Nat → Prop

/-- RFC 5322, 4.3: "If a two digit year is encountered whose value is between 00 and 49, the year is interpreted by adding 2000 [...]  If a two digit year is
encountered with a value between 50 and 99 [...] the year is interpreted by adding 1900." -/
def rfcCentury : Century := fun n y => n ≤ 49 ∧ y = 2000 + n ∨ 50 ≤ n ∧ y = 1900 + n

/-- This package: the last such year that is not after `now` (from 2000 to 2099). -/
def goCentury (now : Int) : Century := fun n y => n ≤ now.tmod 100 ∧ y = 2000 + n ∨ now.tmod 100 < n ∧ y = 1900 + n

/-- Both. -/
def agreedCentury (now : Int) : Century := fun n y => rfcCentury n y ∧ goCentury now n y

/-- The names of zones (4.3), with their offsets in hours. -/
def oldZones : List (List Char × Int) :=
  [(c!"UT", 0), (c!"GMT", 0), (c!"EDT", -4), (c!"EST", -5), (c!"CDT", -5), (c!"CST", -6), (c!"MDT", -6), (c!"MST", -7), (c!"PDT", -7), (c!"PST", -8)]

/-- A number with comments and white space around it. -/
inductive Spaced (e : Abnf) : List Char → Nat → Prop where
  | mk {a x b} : Derivable restricted (opt CFWS) a → Derivable restricted e x → Derivable restricted (opt CFWS) b → Spaced e (a ++ (x ++ b)) (decimal x)

/-- The year. -/
inductive OldYear (C : Century) : List Char → Nat → Prop where
  | four {a x b} : Derivable restricted FWS a → Derivable restricted (times 4 DIGIT) x → Derivable restricted FWS b → OldYear C (a ++ (x ++ b)) (decimal x)
  | two {t n y} : Spaced (times 2 DIGIT) t n → C n y → OldYear C t y

/-- The seconds, which may be left out. -/
inductive OldSeconds : List Char → Nat → Prop where
  | none : OldSeconds [] 0
  | some {t n} : Spaced (times 2 DIGIT) t n → OldSeconds (':' :: t) n

/-- The zone, in minutes east of Greenwich. -/
inductive OldZone : List Char → Int → Prop where
  | east {f h m} : Derivable restricted FWS f → Derivable restricted (times 2 DIGIT) h → Derivable restricted (times 2 DIGIT) m →
      OldZone (f ++ '+' :: (h ++ m)) (60 * decimal h + decimal m)
  | west {f h m} : Derivable restricted FWS f → Derivable restricted (times 2 DIGIT) h → Derivable restricted (times 2 DIGIT) m →
      OldZone (f ++ '-' :: (h ++ m)) (-(60 * decimal h + decimal m))
  | name {t name h} : (name, h) ∈ oldZones → Derivable restricted (text name) t → OldZone t (60 * h)

/-- A date-time. -/
inductive OldDateTime (C : Century) : List Char → Moment → Prop where
  | mk {w d day name mo k y year h hour mi min s sec z zone c} :
      Derivable restricted (opt («day-of-week» ⬝ text c!",")) w → Spaced (.rep 1 (some 2) DIGIT) d day →
      months[k]? = some name → Derivable restricted (text name) mo → OldYear C y year →
      Spaced (times 2 DIGIT) h hour → Spaced (times 2 DIGIT) mi min → OldSeconds s sec → OldZone z zone → Derivable restricted (opt CFWS) c →
      OldDateTime C (w ++ (d ++ (mo ++ (y ++ (h ++ ':' :: (mi ++ (s ++ (z ++ c)))))))) ⟨day, k + 1, year, hour, min, sec, zone⟩

end Rfc5322.Rfc
