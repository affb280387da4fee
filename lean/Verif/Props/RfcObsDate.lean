import Verif.Proofs.RfcObsDate
import Verif.Props.RfcMeaning

/-!
# C71: what RFC 5322 says that obsolete dates mean
-/

namespace Rfc5322.Props

open Rfc Abnf
open Spec (encode)

theorem rfcCentury_total : ∀ n < 100, ∃ y, rfcCentury n y := fun n _ => by
  by_cases h : n ≤ 49
  · exact ⟨_, .inl ⟨h, rfl⟩⟩
  · exact ⟨_, .inr ⟨by omega, rfl⟩⟩

theorem goCentury_total (now : Int) : ∀ n < 100, ∃ y, goCentury now n y := fun n _ => by
  by_cases h : (n : Int) ≤ now.tmod 100
  · exact ⟨_, .inl ⟨h, rfl⟩⟩
  · exact ⟨_, .inr ⟨by omega, rfl⟩⟩

/-- The dates of the RFC with its obsolete syntax, apart from the restrictions of C64, are exactly the texts that have a meaning. -/
theorem C71_every_date (text : List Char) : Derivable restricted Name.«date-time» text ↔ ∃ m, OldDateTime rfcCentury text m := oldDateTime_iff rfcCentury_total

/-- The same with the years of this package. -/
theorem C71_every_date_here (now : Int) (text : List Char) : Derivable restricted Name.«date-time» text ↔ ∃ m, OldDateTime (goCentury now) text m :=
  oldDateTime_iff (goCentury_total now)

/-- The meaning is unique, for this package … -/
theorem C71_one_meaning_here {now : Int} {text : List Char} {m m' : Moment} (h : OldDateTime (goCentury now) text m) (h' : OldDateTime (goCentury now) text m') : m = m' := by
  obtain ⟨l, h1, h2⟩ := oldDateTime_spec h
  obtain ⟨l', h1', h2'⟩ := oldDateTime_spec h'
  have e := dateTime_unique h1 h1'
  simp only [Spec.Fields.mk.injEq] at e
  obtain ⟨e1, e2, e3, e4, e5, e6, rfl⟩ := e
  have e7 : m.zone = m'.zone := by omega
  cases m
  cases m'
  simp_all

/-- … and for the RFC. -/
theorem C71_one_meaning {text : List Char} {m m' : Moment} (h : OldDateTime rfcCentury text m) (h' : OldDateTime rfcCentury text m') : m = m' := by
  have key : ∀ n y, rfcCentury n y → goCentury 2049 n y := by
    intro n y h
    have e : (2049 : Int).tmod 100 = 49 := by decide
    rcases h with ⟨h, rfl⟩ | ⟨h, rfl⟩
    · exact .inl ⟨by omega, rfl⟩
    · exact .inr ⟨by omega, rfl⟩
  exact C71_one_meaning_here (h.mono key) (h'.mono key)

/-- A date of the RFC, in the current or in the obsolete syntax, is read as the moment it denotes, in the zone written there, where two digits stand for the last such year
that is not in the future. -/
theorem C71_dates (P : Predictor) (env : Env) {text : List Char} {m : Moment} (h : OldDateTime (goCentury env.nowYear) text m) :
    ∃ t, parseDateTime P env (encode text) = .ok (t, none) ∧ t.unix = m.instant ∧ t.loc.offset = 60 * m.zone := by
  obtain ⟨l, h1, h2⟩ := oldDateTime_spec h
  refine ⟨_, parseDateTime_encode h1, ?_, h2⟩
  simp only [Spec.Fields.time, Moment.instant, h2]

/-- If the two rules for years of two digits agree, the result is what the RFC says. -/
theorem C71_rfc_dates (P : Predictor) (env : Env) {text : List Char} {m : Moment} (h : OldDateTime (agreedCentury env.nowYear) text m) :
    OldDateTime rfcCentury text m ∧ ∃ t, parseDateTime P env (encode text) = .ok (t, none) ∧ t.unix = m.instant ∧ t.loc.offset = 60 * m.zone :=
  ⟨h.mono fun _ _ h => h.1, C71_dates P env (h.mono fun _ _ h => h.2)⟩

/-- The rules agree on the years up to the current one and up to 49, and on the years after the current one and after 49. -/
theorem C71_years_that_agree (now : Int) (n : Nat) : (∃ y, agreedCentury now n y) ↔ (n ≤ now.tmod 100 ↔ n ≤ 49) := by
  constructor
  · rintro ⟨y, h | h, h' | h'⟩ <;> omega
  · intro h
    by_cases hn : n ≤ 49
    · exact ⟨2000 + n, .inl ⟨hn, rfl⟩, .inl ⟨h.mpr hn, rfl⟩⟩
    · exact ⟨1900 + n, .inr ⟨by omega, rfl⟩, .inr ⟨by have := mt h.mp hn; omega, rfl⟩⟩

/-- Everything but the year is the same under both rules, and the year is the same or a century off. -/
theorem C71_nothing_but_the_century {now : Int} {text : List Char} {m m' : Moment} (h : OldDateTime rfcCentury text m) (h' : OldDateTime (goCentury now) text m') :
    m' = { m with year := m'.year } ∧ (m'.year = m.year ∨ m'.year + 100 = m.year ∨ m'.year = m.year + 100) := by
  cases h with
  | @mk w d day name mo k y year h hour mi min s sec z zone c hw hd hk hmo hy hh hmi hs hz hc =>
    obtain ⟨y', hy', hyy⟩ : ∃ y', OldYear (goCentury now) y y' ∧ (y' = year ∨ y' + 100 = year ∨ y' = year + 100) := by
      cases hy with
      | four ha hx hb => exact ⟨_, .four ha hx hb, .inl rfl⟩
      | @two _ n _ ht hc =>
        by_cases hn : (n : Int) ≤ now.tmod 100
        · refine ⟨_, .two ht (.inl ⟨hn, rfl⟩), ?_⟩
          rcases hc with ⟨_, rfl⟩ | ⟨_, rfl⟩ <;> omega
        · refine ⟨_, .two ht (.inr ⟨by omega, rfl⟩), ?_⟩
          rcases hc with ⟨_, rfl⟩ | ⟨_, rfl⟩ <;> omega
    have := C71_one_meaning_here (.mk hw hd hk hmo hy' hh hmi hs hz hc) h'
    subst this
    exact ⟨rfl, hyy⟩

/-! ## Examples -/

/-- Appendix A.6.2 of the RFC: year of two digits, name of a zone, comments and white space. -/
theorem fridayOld {C : Century} {y : Nat} (hC : C 97 y) : OldDateTime C c!"Fri, 21 Nov 97 09(comment):   55  :  06 GMT" ⟨21, 11, y, 9, 55, 6, 0⟩ := by
  refine .mk (w := c!"Fri,") (d := c!" 21 ") (day := 21) (name := c!"Nov") (mo := c!"Nov") (k := 10) (y := c!" 97 ") (year := y) (h := c!"09(comment)") (hour := 9) (mi := c!"   55  ") (min := 55)
    (s := c!":  06 ") (sec := 6) (z := c!"GMT") (zone := 0) (c := []) (by derive) ?_ rfl (by derive) (.two (n := 97) ?_ hC) ?_ ?_ (.some ?_) (.name (name := c!"GMT") (h := 0) (by decide) (by derive))
    (by derive)
  · exact .mk (a := c!" ") (x := c!"21") (b := c!" ") (by derive) (by derive) (by derive)
  · exact .mk (a := c!" ") (x := c!"97") (b := c!" ") (by derive) (by derive) (by derive)
  · exact .mk (a := []) (x := c!"09") (b := c!"(comment)") (by derive) (by derive) (by derive)
  · exact .mk (a := c!"   ") (x := c!"55") (b := c!"  ") (by derive) (by derive) (by derive)
  · exact .mk (a := c!"  ") (x := c!"06") (b := c!" ") (by derive) (by derive) (by derive)

example (P : Predictor) (env : Env) (hy : env.nowYear = 2026) :
    OldDateTime rfcCentury c!"Fri, 21 Nov 97 09(comment):   55  :  06 GMT" ⟨21, 11, 1997, 9, 55, 6, 0⟩ ∧
    ∃ t, parseDateTime P env (encode c!"Fri, 21 Nov 97 09(comment):   55  :  06 GMT") = .ok (t, none) ∧ t.unix = 880106106 ∧ t.loc.offset = 0 := by
  obtain ⟨h, t, h1, h2, h3⟩ := C71_rfc_dates P env (fridayOld (C := agreedCentury env.nowYear) (y := 1997) ⟨.inr ⟨by omega, rfl⟩, .inr ⟨by rw [hy]; decide, rfl⟩⟩)
  exact ⟨h, t, h1, by rw [h2]; decide +kernel, h3⟩

/-- In 2026, the year 30 is 2030 for the RFC and 1930 for this package. -/
theorem C71_a_century_off (P : Predictor) (env : Env) (hy : env.nowYear = 2026) :
    OldDateTime rfcCentury c!"1 Jan 30 00:00 GMT" ⟨1, 1, 2030, 0, 0, 0, 0⟩ ∧
    ∃ t, parseDateTime P env (encode c!"1 Jan 30 00:00 GMT") = .ok (t, none) ∧ t.unix = -1262304000 := by
  have key : ∀ {C : Century} {y : Nat}, C 30 y → OldDateTime C c!"1 Jan 30 00:00 GMT" ⟨1, 1, y, 0, 0, 0, 0⟩ := by
    intro C y hC
    refine .mk (w := []) (d := c!"1 ") (day := 1) (name := c!"Jan") (mo := c!"Jan") (k := 0) (y := c!" 30 ") (year := y) (h := c!"00") (hour := 0) (mi := c!"00 ") (min := 0)
      (s := []) (sec := 0) (z := c!"GMT") (zone := 0) (c := []) (by derive) ?_ rfl (by derive) (.two (n := 30) ?_ hC) ?_ ?_ .none (.name (name := c!"GMT") (h := 0) (by decide) (by derive))
      (by derive)
    · exact .mk (a := []) (x := c!"1") (b := c!" ") (by derive) (by derive) (by derive)
    · exact .mk (a := c!" ") (x := c!"30") (b := c!" ") (by derive) (by derive) (by derive)
    · exact .mk (a := []) (x := c!"00") (b := []) (by derive) (by derive) (by derive)
    · exact .mk (a := []) (x := c!"00") (b := c!" ") (by derive) (by derive) (by derive)
  refine ⟨key (.inl ⟨by omega, rfl⟩), ?_⟩
  obtain ⟨t, h1, h2, -⟩ := C71_dates P env (key (C := goCentury env.nowYear) (y := 1930) (.inr ⟨by rw [hy]; decide, rfl⟩))
  exact ⟨t, h1, by rw [h2]; decide +kernel⟩

end Rfc5322.Props
