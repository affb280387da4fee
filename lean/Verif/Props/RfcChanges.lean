import Verif.Proofs.RfcTables
import Verif.Props.Rfc5322
import Verif.Props.Core

/-!
# C64, continued: no change is superfluous

`Verif/Spec/Rfc5322.lean` lists how the language accepted differs from RFC 5322.  Every entry of both lists counts, and everything named in the extensions is new.
-/

namespace Rfc5322.Props

open Spec Rfc

theorem accepts_addresses (P : Predictor) (env : Env) {t : List Char} (h : check accepted Name.«address-list» t = true) :
    ∃ slice, parseAddressList P env (encode t) = .ok (slice, none) := accept_addr P env (derivable_of_check h)

theorem accepts_dates (P : Predictor) (env : Env) {t : List Char} (h : check accepted Name.«date-time» t = true) :
    ∃ time, parseDateTime P env (encode t) = .ok (time, none) := accept_date P env (derivable_of_check h)

theorem rejects_addresses (P : Predictor) (env : Env) {t : List Char} (hne : encode t ≠ []) (hd : dropAstral t = t) (h : ¬ Derivable accepted Name.«address-list» t) :
    parseAddressList P env (encode t) = .ok (none, some .syntaxError) := by
  rcases parseAddressList_spec P env hne with ⟨l, -, h1⟩ | ⟨-, h1⟩
  · exact absurd ((C64_exactly_these_addresses P env hne (C09_well_formed t)).mp ⟨_, h1⟩) (hd.symm ▸ h)
  · exact h1

theorem rejects_dates (P : Predictor) (env : Env) {t : List Char} (hne : encode t ≠ []) (hd : dropAstral t = t) (h : ¬ Derivable accepted Name.«date-time» t) :
    parseDateTime P env (encode t) = .ok (zeroTime, some .syntaxError) := by
  rcases parseDateTime_spec P env hne with ⟨l, -, h1⟩ | ⟨-, h1⟩
  · exact absurd ((C64_exactly_these_dates P env hne (C09_well_formed t)).mp ⟨_, h1⟩) (hd.symm ▸ h)
  · exact h1

/-- Without any one of the extensions of rules, the rules would miss an address list or a date that is accepted. -/
theorem C64_every_extension_counts (P : Predictor) (env : Env) {n : Name} (h : extensions n ≠ none) : ∃ t,
    (∃ slice, parseAddressList P env (encode t) = .ok (slice, none)) ∧ ¬ Derivable (without n) Name.«address-list» t ∨
    (∃ time, parseDateTime P env (encode t) = .ok (time, none)) ∧ ¬ Derivable (without n) Name.«date-time» t := by
  cases n with
  | «UTF8-non-ascii» => exact ⟨c!"é@b", .inl ⟨accepts_addresses P env (by decide +kernel), lost0⟩⟩
  | VCHAR => exact ⟨c!"\"\\é\"@b", .inl ⟨accepts_addresses P env (by decide +kernel), lost1⟩⟩
  | ctext => exact ⟨c!"(é)a@b", .inl ⟨accepts_addresses P env (by decide +kernel), lost2⟩⟩
  | atext => exact ⟨c!"é@b", .inl ⟨accepts_addresses P env (by decide +kernel), lost3⟩⟩
  | qtext => exact ⟨c!"\"é\"@b", .inl ⟨accepts_addresses P env (by decide +kernel), lost4⟩⟩
  | dtext => exact ⟨c!"a@[é]", .inl ⟨accepts_addresses P env (by decide +kernel), lost5⟩⟩
  | «dot-atom-text» => exact ⟨c!"a@b.", .inl ⟨accepts_addresses P env (by decide +kernel), lost6⟩⟩
  | word => exact ⟨c!"=?a?q?,?=<b@c>", .inl ⟨accepts_addresses P env (by decide +kernel), lost7⟩⟩
  | token => exact ⟨c!"=?\\?q?a?=<b@c>", .inl ⟨accepts_addresses P env (by decide +kernel), lost8⟩⟩
  | «obs-phrase» => exact ⟨c!"a@b <c@d>", .inl ⟨accepts_addresses P env (by decide +kernel), lost9⟩⟩
  | «angle-addr» => exact ⟨c!"<>", .inl ⟨accepts_addresses P env (by decide +kernel), lost10⟩⟩
  | group => exact ⟨c!"g:", .inl ⟨accepts_addresses P env (by decide +kernel), lost11⟩⟩
  | «address-list» => exact ⟨c!"a@b;c@d", .inl ⟨accepts_addresses P env (by decide +kernel), lost12⟩⟩
  | «addr-spec» => exact ⟨c!"a@b:25", .inl ⟨accepts_addresses P env (by decide +kernel), lost13⟩⟩
  | «obs-hour» => exact ⟨c!"1Jan001:00UT", .inr ⟨accepts_dates P env (by decide +kernel), lost14⟩⟩
  | time => exact ⟨c!"1Jan0001:00", .inr ⟨accepts_dates P env (by decide +kernel), lost15⟩⟩
  | zone => exact ⟨c!"1Jan0001:00UTC", .inr ⟨accepts_dates P env (by decide +kernel), lost16⟩⟩
  | _ => exact absurd rfl h

/-- Without any one of the restrictions of rules, the rules would derive an address list or a date that is rejected. -/
theorem C64_every_restriction_counts (P : Predictor) (env : Env) {n : Name} (h : restrictions n ≠ none) : ∃ t,
    parseAddressList P env (encode t) = .ok (none, some .syntaxError) ∧ Derivable (relaxed n) Name.«address-list» t ∨
    parseDateTime P env (encode t) = .ok (zeroTime, some .syntaxError) ∧ Derivable (relaxed n) Name.«date-time» t := by
  cases n with
  | «obs-FWS» => exact ⟨c!"<> \r\n \r\n ", .inl ⟨rejects_addresses P env (by decide) (by decide) rejected0, derivable_of_check (by decide +kernel)⟩⟩
  | «obs-domain» => exact ⟨c!"a@b .c", .inl ⟨rejects_addresses P env (by decide) (by decide) rejected1, derivable_of_check (by decide +kernel)⟩⟩
  | «obs-dtext» => exact ⟨c!"a@[\\]]", .inl ⟨rejects_addresses P env (by decide) (by decide) rejected2, derivable_of_check (by decide +kernel)⟩⟩
  | year => exact ⟨c!"1Jan 10000 01:00UT", .inr ⟨rejects_dates P env (by decide) (by decide) rejected3, derivable_of_check (by decide +kernel)⟩⟩
  | «obs-year» => exact ⟨c!"1Jan00001:00UT", .inr ⟨rejects_dates P env (by decide) (by decide) rejected4, derivable_of_check (by decide +kernel)⟩⟩
  | «obs-zone» => exact ⟨c!"1Jan0001:00Z", .inr ⟨rejects_dates P env (by decide) (by decide) rejected5, derivable_of_check (by decide +kernel)⟩⟩
  | _ => exact absurd rfl h

/-- A control character in a domain literal. -/
theorem C64_control_character_in_literal (P : Predictor) (env : Env) : Derivable rfc Name.«address-list» c!"a@[\u0001]" ∧
    parseAddressList P env (encode c!"a@[\u0001]") = .ok (none, some .syntaxError) :=
  ⟨derivable_of_check (by decide +kernel), rejects_addresses P env (by decide) (by decide) rejectedControl⟩

/-- Everything that is named in the extensions is not in the RFC: these texts are accepted, and the RFC does not derive them, not even with its obsolete syntax. -/
theorem C64_new_addresses (P : Predictor) (env : Env) : ∀ t ∈ [
    -- characters from U+0080 on
    c!"é@b",
    -- a period at the end of a dot-atom
    c!"a@b.",
    -- an encoded word
    c!"=?a?q?,?=<b@c>",
    -- a backslash in a token
    c!"=?\\?q?a?=<b@c>",
    -- at signs in names
    c!"a@b <c@d>",
    -- nothing between the angle brackets
    c!"<>",
    -- a group without a semicolon
    c!"g:",
    -- a group with quotation marks around it
    c!"\"g:a@b\";",
    -- a semicolon instead of a comma
    c!"a@b;c@d",
    -- a port
    c!"a@b:25"],
    (∃ slice, parseAddressList P env (encode t) = .ok (slice, none)) ∧ ¬ Derivable rfc Name.«address-list» t := by
  simp only [List.forall_mem_cons, List.not_mem_nil, false_implies, implies_true, and_true]
  exact ⟨⟨accepts_addresses P env (by decide +kernel), new0⟩, ⟨accepts_addresses P env (by decide +kernel), new1⟩, ⟨accepts_addresses P env (by decide +kernel), new2⟩, ⟨accepts_addresses P env (by decide +kernel), new3⟩, ⟨accepts_addresses P env (by decide +kernel), new4⟩, ⟨accepts_addresses P env (by decide +kernel), new5⟩, ⟨accepts_addresses P env (by decide +kernel), new6⟩, ⟨accepts_addresses P env (by decide +kernel), new7⟩, ⟨accepts_addresses P env (by decide +kernel), new8⟩, ⟨accepts_addresses P env (by decide +kernel), new9⟩⟩

/-- The same for dates. -/
theorem C64_new_dates (P : Predictor) (env : Env) : ∀ t ∈ [
    -- one digit for the hour
    c!"1Jan001:00UT",
    -- no zone
    c!"1Jan0001:00",
    -- a zone without a sign
    c!"1Jan0001:00 0000",
    -- UTC
    c!"1Jan0001:00UTC"],
    (∃ time, parseDateTime P env (encode t) = .ok (time, none)) ∧ ¬ Derivable rfc Name.«date-time» t := by
  simp only [List.forall_mem_cons, List.not_mem_nil, false_implies, implies_true, and_true]
  exact ⟨⟨accepts_dates P env (by decide +kernel), new10⟩, ⟨accepts_dates P env (by decide +kernel), new11⟩, ⟨accepts_dates P env (by decide +kernel), new12⟩, ⟨accepts_dates P env (by decide +kernel), new13⟩⟩

end Rfc5322.Props
