import Verif.Proofs.Rfc5322
import Verif.Proofs.FastEval
import Verif.Props.Core

/-!
# C64: the language of the package and the grammar of RFC 5322

`Verif/Spec/Rfc5322.lean` has the ABNF rules of RFC 5322 and two short lists of changes to them: `restrictions` (what the package does not accept) and
`extensions` (what it accepts beyond the RFC).  These are all the differences.
-/

namespace Rfc5322.Props

open Spec Rfc

/-- A text is accepted if and only if the rules of the RFC, restricted and extended, derive it as an `address-list`. -/
theorem C64_exactly_these_addresses (P : Predictor) (env : Env) {input : Bytes} {text : List Char} (hne : input ≠ []) (hr : ReadsAs input text) :
    (∃ slice, parseAddressList P env input = .ok (slice, none)) ↔ Derivable accepted Name.«address-list» (dropAstral text) := by
  rw [C04_accepts_exactly_the_address_lists P env hne hr, d_addressList (env := env)]

/-- The same for `date-time`. -/
theorem C64_exactly_these_dates (P : Predictor) (env : Env) {input : Bytes} {text : List Char} (hne : input ≠ []) (hr : ReadsAs input text) :
    (∃ time, parseDateTime P env input = .ok (time, none)) ↔ Derivable accepted Name.«date-time» (dropAstral text) := by
  rw [C05_accepts_exactly_the_date_times P env hne hr, d_dateTime (now := env.nowYear)]

theorem accept_addr (P : Predictor) (env : Env) {t : List Char} (h : Derivable accepted Name.«address-list» t) :
    ∃ slice, parseAddressList P env (encode t) = .ok (slice, none) := by
  by_cases ht : encode t = []
  · rw [ht]; exact ⟨_, C01_empty_address_list P env⟩
  · refine (C64_exactly_these_addresses P env ht (C09_well_formed t)).mpr ?_
    rwa [dropAstral_of (derivable_bmp (e := .rule _) rfl h)]

theorem accept_date (P : Predictor) (env : Env) {t : List Char} (h : Derivable accepted Name.«date-time» t) :
    ∃ time, parseDateTime P env (encode t) = .ok (time, none) := by
  by_cases ht : encode t = []
  · rw [ht]; exact ⟨_, C01_empty_date P env⟩
  · refine (C64_exactly_these_dates P env ht (C09_well_formed t)).mpr ?_
    rwa [dropAstral_of (derivable_bmp (e := .rule _) rfl h)]

/-- Every address list of RFC 5322, obsolete syntax included, is accepted, apart from the restrictions. -/
theorem C64_rfc_addresses (P : Predictor) (env : Env) {t : List Char} (h : Derivable restricted Name.«address-list» t) :
    ∃ slice, parseAddressList P env (encode t) = .ok (slice, none) := accept_addr P env (restricted_accepted h)

/-- Every date of RFC 5322, obsolete syntax included, is accepted, apart from the restrictions. -/
theorem C64_rfc_dates (P : Predictor) (env : Env) {t : List Char} (h : Derivable restricted Name.«date-time» t) :
    ∃ time, parseDateTime P env (encode t) = .ok (time, none) := accept_date P env (restricted_accepted h)

/-- In particular every address list that RFC 5322 allows to generate. -/
theorem C64_current_addresses (P : Predictor) (env : Env) {t : List Char} (h : Derivable current Name.«address-list» t) :
    ∃ slice, parseAddressList P env (encode t) = .ok (slice, none) := C64_rfc_addresses P env (current_restricted h)

/-- And every date, if the year has four digits. -/
theorem C64_current_dates (P : Predictor) (env : Env) {t : List Char} (h : Derivable current Name.«date-time» t) :
    ∃ time, parseDateTime P env (encode t) = .ok (time, none) := C64_rfc_dates P env (current_restricted h)

/-- The restrictions only take texts away. -/
theorem C64_restrictions_restrict {r : Name} {t : List Char} (h : Derivable restricted r t) : Derivable rfc r t := restricted_rfc h

/-- The extensions only add texts. -/
theorem C64_extensions_extend {r : Name} {t : List Char} (h : Derivable restricted r t) : Derivable accepted r t := restricted_accepted h

/-! ## Examples, mostly from appendix A of the RFC -/

theorem example_group : Derivable current Name.«address-list» c!"A Group:Ed Jones <c@a.test>,joe@where.test,John <jdoe@one.test>;" := derivable_of_check (by decide +kernel)

example (P : Predictor) (env : Env) : ∃ slice, parseAddressList P env (encode c!"A Group:Ed Jones <c@a.test>,joe@where.test,John <jdoe@one.test>;") = .ok (slice, none) :=
  C64_current_addresses P env example_group

/-- A route, an empty item, comments and white space inside a local part. -/
theorem example_obs : Derivable restricted Name.«address-list» c!"Mary Smith <@node.test:mary@example.net>, , jdoe (c) . \"x\"@test" := derivable_of_check (by decide +kernel)

example (P : Predictor) (env : Env) : ∃ slice, parseAddressList P env (encode c!"Mary Smith <@node.test:mary@example.net>, , jdoe (c) . \"x\"@test") = .ok (slice, none) :=
  C64_rfc_addresses P env example_obs

theorem example_date : Derivable current Name.«date-time» c!"Fri, 21 Nov 1997 09:55:06 -0600" := derivable_of_check (by decide +kernel)

example (P : Predictor) (env : Env) : ∃ time, parseDateTime P env (encode c!"Fri, 21 Nov 1997 09:55:06 -0600") = .ok (time, none) := C64_current_dates P env example_date

theorem example_date_obs : Derivable restricted Name.«date-time» c!"21 Nov 97 09(comment):   55  :  06 GMT" := derivable_of_check (by decide +kernel)

example (P : Predictor) (env : Env) : ∃ time, parseDateTime P env (encode c!"21 Nov 97 09(comment):   55  :  06 GMT") = .ok (time, none) := C64_rfc_dates P env example_date_obs

macro "fast_addr" : tactic => `(tactic| (rw [evalAddresses_eq, fastAddresses_eq]; decide +kernel))
macro "fast_date" : tactic => `(tactic| (rw [evalDate_eq, fastDate_eq]; decide +kernel))

/-! ## Every restriction is one: texts of the RFC that are rejected -/

/-- CFWS around the periods of a domain (an example of the RFC, A.6.3). -/
theorem C64_spaced_domain (P : Predictor) : Derivable rfc Name.«address-list» c!"jdoe@test  . example" ∧
    parseAddressList P env0 (encode c!"jdoe@test  . example") = .ok (none, some .syntaxError) := ⟨derivable_of_check (by decide +kernel), by fast_addr⟩

/-- Two line breaks in obsolete folding white space. -/
theorem C64_two_folds (P : Predictor) : Derivable rfc Name.«address-list» c!"a@b \r\n \r\n " ∧
    parseAddressList P env0 (encode c!"a@b \r\n \r\n ") = .ok (none, some .syntaxError) := ⟨derivable_of_check (by decide +kernel), by fast_addr⟩

/-- A quoted pair in a domain literal. -/
theorem C64_quoted_pair_in_literal (P : Predictor) : Derivable rfc Name.«address-list» c!"a@[b\\]]" ∧
    parseAddressList P env0 (encode c!"a@[b\\]]") = .ok (none, some .syntaxError) := ⟨derivable_of_check (by decide +kernel), by fast_addr⟩

/-- A military zone. -/
theorem C64_military_zone (P : Predictor) : Derivable rfc Name.«date-time» c!"21 Nov 1997 09:55:06 Z" ∧
    parseDateTime P env0 (encode c!"21 Nov 1997 09:55:06 Z") = .ok (zeroTime, some .syntaxError) := ⟨derivable_of_check (by decide +kernel), by fast_date⟩

/-- A year of five digits, in the current syntax. -/
theorem C64_year_10000 (P : Predictor) : Derivable rfc Name.«date-time» c!"1 Jan 10000 00:00 +0000" ∧
    parseDateTime P env0 (encode c!"1 Jan 10000 00:00 +0000") = .ok (zeroTime, some .syntaxError) := ⟨derivable_of_check (by decide +kernel), by fast_date⟩

/-- A year of three digits. -/
theorem C64_year_of_three_digits (P : Predictor) : Derivable rfc Name.«date-time» c!"1 Jan 106 00:00 +0000" ∧
    parseDateTime P env0 (encode c!"1 Jan 106 00:00 +0000") = .ok (zeroTime, some .syntaxError) := ⟨derivable_of_check (by decide +kernel), by fast_date⟩

end Rfc5322.Props
