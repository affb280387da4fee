import Verif.Proofs.RfcObsDerive
import Verif.Proofs.RfcObsMeaning
import Verif.Props.RfcMeaning

/-!
# C72: what RFC 5322 says that addresses in the obsolete syntax mean
-/

namespace Rfc5322.Props

open Rfc Rfc.Old Abnf
open Spec (NoMark NoBlankLines encode)

/-- The address lists that RFC 5322 allows to read, apart from what this package restricts, are exactly the texts that have a meaning, and what becomes of white space and control
characters in quoted strings makes no difference. -/
theorem C72_every_address_list (text : List Char) :
    (Derivable restricted Name.«address-list» text ↔ ∃ l, Old.AddressList rfcStyle text l) ∧
    (Derivable restricted Name.«address-list» text ↔ ∃ l, Old.AddressList goStyle text l) :=
  ⟨Old.addressList_iff Old.rfc_total, Old.addressList_iff Old.go_total⟩

/-- An address list with or without obsolete syntax, that does not contain `=?` or blank lines, has the value of its mailboxes, in their order, and of the members of its
groups; routes and missing items are ignored.  In quoted strings the package leaves line breaks in, and leaves out white space at the end and control characters behind backslashes. -/
theorem C72_addresses (P : Predictor) (env : Env) {text : List Char} {l : List (List Char × List Box)} (h : Old.AddressList goStyle text l) (hm : NoMark text)
    (hb : NoBlankLines text) (hs : SureQuotes text) :
    parseAddressList P env (encode text) = .ok (if l.flatMap (·.2) = [] then none else some ((l.flatMap (·.2)).map asAddr), none) := by
  rw [parse_obsolete P h ⟨hm, hb⟩ hs, asAddr_eq]
  cases l.flatMap (·.2) <;> rfl

/-- Without such line breaks, white space and control characters in quoted strings, the result is exactly what the RFC says. -/
theorem C72_rfc_addresses (P : Predictor) (env : Env) {text : List Char} {l : List (List Char × List Box)} (h : Old.AddressList tidyStyle text l) (hm : NoMark text)
    (hb : NoBlankLines text) (hs : SureQuotes text) :
    Old.AddressList rfcStyle text l ∧
    parseAddressList P env (encode text) = .ok (if l.flatMap (·.2) = [] then none else some ((l.flatMap (·.2)).map asAddr), none) :=
  ⟨h.mono Old.tidy_rfc, C72_addresses P env (h.mono Old.tidy_go) hm hb hs⟩

/-! ## A check of the condition on quotation marks -/

def sureFrom : Bool → List Char → Bool
  | _, [] => true
  | b, c :: r =>
    (c != '"' || (!b || !(Spec.skeleton r).contains ':') && (match (Spec.skip r).head? with | none => false | some d => d != ',' && d != ';')) && sureFrom (c == ',' || c == ';') r

theorem sureQuotes_of_check {text : List Char} (h : sureFrom true text = true) : SureQuotes text := by
  have key : ∀ x b t y, sureFrom b t = true → t = x ++ '"' :: y → ((∀ c ∈ x.getLast?, c = ',' ∨ c = ';') → (x = [] → b = true) → ':' ∉ Spec.skeleton y) ∧
      ∃ d ∈ (Spec.skip y).head?, d ≠ ',' ∧ d ≠ ';' := by
    intro x
    induction x with
    | nil =>
      rintro b _ y h rfl
      simp only [sureFrom, List.nil_append, Bool.and_eq_true, Bool.or_eq_true] at h
      obtain ⟨h | ⟨h1, h2⟩, _⟩ := h
      · cases h
      · refine ⟨fun _ hb => ?_, ?_⟩
        · rw [hb rfl] at h1
          simpa using h1
        · cases e : (Spec.skip y).head? with
          | none => rw [e] at h2; cases h2
          | some d => rw [e] at h2; exact ⟨d, rfl, by simpa using h2⟩
    | cons c x ih =>
      rintro b _ y h rfl
      simp only [sureFrom, List.cons_append, Bool.and_eq_true] at h
      obtain ⟨h1, h2⟩ := ih _ _ y h.2 rfl
      refine ⟨fun hl _ => h1 (fun d hd => hl d ?_) ?_, h2⟩
      · cases x with
        | nil => cases hd
        | cons => simpa [List.getLast?_cons_cons] using hd
      · rintro rfl
        simpa using hl c (by simp)
  refine ⟨fun x y e hl => (key x true text y h e).1 hl fun _ => rfl, fun x w y e hw => ?_⟩
  obtain ⟨d, hd, h1⟩ := (key x true text _ h e).2
  rw [skip_cfws hw] at hd
  cases y with
  | nil => cases hd
  | cons c y =>
    refine ⟨c, rfl, ?_, ?_⟩ <;> (rintro rfl; rw [skip_solid rfl] at hd; cases hd; simp at h1)

/-! ## Examples, some from appendix A.6 of the RFC -/

section
variable {S : Style}

theorem noCfws : Old.Is (opt Name.CFWS) [] := by derive

theorem quotedPlain {x : List Char} (h : ∀ c ∈ x, check restricted Name.qtext [c] = true) (hS : S.inner [] [] ∧ S.last [] []) : Old.Quoted S x x := by
  induction x with
  | nil => exact .done (by derive) hS.2
  | cons c x ih =>
    exact .char (f := []) (u := []) (by derive) hS.1 (derivable_of_check (h c (by simp))) (ih fun c hc => h c (by simp [hc]))

theorem tidyStyleNil : tidyStyle.inner [] [] ∧ tidyStyle.last [] [] := tidyNil

theorem noTouch {t r : List Char} (h : (t.getLast?.any Spec.isAtext && r.head?.any Spec.isAtext) = false) : ¬ Touch t r := by
  rintro ⟨c, hc, d, hd, h1, h2⟩
  rw [Option.mem_def.mp hc, Option.mem_def.mp hd] at h
  simp [is_atext h1, is_atext h2] at h

/-- An atom in front of a blank. -/
theorem atomWord {t b : List Char} (ht : Old.Is (some1 Name.atext) t) (hb : Old.Is (opt Name.CFWS) b) : Old.Word S (t ++ b) t := .atom (a := []) noCfws ht hb

theorem atomDomain {t : List Char} (ht : Old.Is Name.«dot-atom-text» t) : Old.Domain t t := by
  simpa using Old.Domain.dotAtom (a := []) (b := []) noCfws ht noCfws

/-- Appendix A.6.1: a period in a name; a route; a missing item. -/
theorem joe : Old.AddressList tidyStyle c!"Joe Q. Public <john.q.public@example.com>, Mary Smith <@node.test:mary@example.net>, , jdoe@test.example"
    [(c!"Joe Q. Public <john.q.public@example.com>", [⟨c!"Joe Q.Public", c!"john.q.public@example.com"⟩]),
     (c!" Mary Smith <@node.test:mary@example.net>", [⟨c!"Mary Smith", c!"mary@example.net"⟩]),
     (c!" ", []),
     (c!" jdoe@test.example", [⟨[], c!"jdoe@test.example"⟩])] := by
  have h1 : Old.Address tidyStyle c!"Joe Q. Public <john.q.public@example.com>" [⟨c!"Joe Q.Public", c!"john.q.public@example.com"⟩] := by
    have name : Old.Phrase tidyStyle c!"Joe Q. Public " [.word c!"Joe", .word c!"Q", .period, .word c!"Public"] :=
      .mk (t := c!"Joe ") (r := c!"Q. Public ") (atomWord (t := c!"Joe") (b := c!" ") (by derive) (by derive)) (noTouch (by decide))
        (.word (t := c!"Q") (r := c!". Public ") (atomWord (t := c!"Q") (b := []) (by derive) noCfws) (noTouch (by decide))
          (.period (r := c!" Public ") (.word (t := c!" Public ") (r := []) (.atom (a := c!" ") (t := c!"Public") (b := c!" ") (by derive) (by derive) (by derive)) (noTouch (by decide)) .nil)))
    have spec : Old.AddrSpec tidyStyle c!"john.q.public@example.com" c!"john.q.public@example.com" :=
      .mk (l := c!"john.q.public") (u := c!"john.q.public") (d := c!"example.com") (v := c!"example.com")
        (.more (t := c!"john") (r := c!"q.public") (atomWord (t := c!"john") (b := []) (by derive) noCfws)
          (.more (t := c!"q") (r := c!"public") (atomWord (t := c!"q") (b := []) (by derive) noCfws) (.one (atomWord (t := c!"public") (b := []) (by derive) noCfws))))
        (atomDomain (by derive))
    exact .box (.named (a := []) (r := []) (b := []) name noCfws (by derive) spec noCfws)
  have h2 : Old.Address tidyStyle c!" Mary Smith <@node.test:mary@example.net>" [⟨c!"Mary Smith", c!"mary@example.net"⟩] := by
    have name : Old.Phrase tidyStyle c!" Mary Smith " [.word c!"Mary", .word c!"Smith"] :=
      .mk (t := c!" Mary ") (r := c!"Smith ") (.atom (a := c!" ") (t := c!"Mary") (b := c!" ") (by derive) (by derive) (by derive)) (noTouch (by decide))
        (.word (t := c!"Smith ") (r := []) (atomWord (t := c!"Smith") (b := c!" ") (by derive) (by derive)) (noTouch (by decide)) .nil)
    have spec : Old.AddrSpec tidyStyle c!"mary@example.net" c!"mary@example.net" :=
      .mk (l := c!"mary") (u := c!"mary") (d := c!"example.net") (v := c!"example.net") (.one (atomWord (t := c!"mary") (b := []) (by derive) noCfws)) (atomDomain (by derive))
    exact .box (.named (a := []) (r := c!"@node.test:") (b := []) name noCfws (by derive) spec noCfws)
  have h3 : Old.Address tidyStyle c!" jdoe@test.example" [⟨[], c!"jdoe@test.example"⟩] :=
    .box (.bare (.mk (l := c!" jdoe") (u := c!"jdoe") (d := c!"test.example") (v := c!"test.example")
      (.one (.atom (a := c!" ") (t := c!"jdoe") (b := []) (by derive) (by derive) noCfws)) (atomDomain (by derive))))
  refine ⟨⟨by simp, ?_, by decide⟩, _, List.mem_cons_self, h1⟩
  intro i hi
  simp only [List.mem_cons, List.not_mem_nil, or_false] at hi
  rcases hi with rfl | rfl | rfl | rfl
  · exact .inl h1
  · exact .inl h2
  · exact .inr ⟨by derive, rfl⟩
  · exact .inl h3

example (P : Predictor) (env : Env) : parseAddressList P env
      (encode c!"Joe Q. Public <john.q.public@example.com>, Mary Smith <@node.test:mary@example.net>, , jdoe@test.example") =
    .ok (some [⟨b!"Joe Q.Public", b!"john.q.public@example.com"⟩, ⟨b!"Mary Smith", b!"mary@example.net"⟩, ⟨[], b!"jdoe@test.example"⟩], none) :=
  (C72_rfc_addresses P env joe (by unfold NoMark; decide) (noBlankLines_of_check (by decide)) (sureQuotes_of_check (by decide))).2

/-- A group with missing members, in a list with missing items; comments around the periods of a local part. -/
theorem gaps : Old.AddressList tidyStyle c!",\"My, friends\": ,\"x,y\" <c (d) . e@f> , ;,(nobody)"
    [([], []), (c!"\"My, friends\": ,\"x,y\" <c (d) . e@f> , ;", [⟨c!"x,y", c!"c.e@f"⟩]), (c!"(nobody)", [])] := by
  have name : Old.Phrase tidyStyle c!"\"My, friends\"" [.word c!"My, friends"] :=
    .mk (t := c!"\"My, friends\"") (r := []) (.quoted (a := []) (q := c!"My, friends") (b := []) noCfws
      (.char (f := []) (u := []) (by derive) tidyStyleNil.1 (by derive) (.char (f := []) (u := []) (by derive) tidyStyleNil.1 (by derive)
        (.char (f := []) (u := []) (by derive) tidyStyleNil.1 (by derive) (.char (f := c!" ") (u := c!" ") (by derive) (by simp [tidyStyle, tidyBlanks]) (by derive)
          (quotedPlain (by decide +kernel) tidyStyleNil))))) noCfws) (noTouch (by decide)) .nil
  have box : Old.Mailbox tidyStyle c!"\"x,y\" <c (d) . e@f> " ⟨c!"x,y", c!"c.e@f"⟩ :=
    .named (n := c!"\"x,y\" ") (ps := [.word c!"x,y"]) (a := []) (r := []) (t := c!"c (d) . e@f") (b := c!" ")
      (.mk (t := c!"\"x,y\" ") (r := []) (.quoted (a := []) (q := c!"x,y") (b := c!" ") noCfws (quotedPlain (by decide +kernel) tidyStyleNil) (by derive)) (noTouch (by decide)) .nil)
      noCfws (by derive)
      (.mk (l := c!"c (d) . e") (u := c!"c.e") (d := c!"f") (v := c!"f")
        (.more (t := c!"c (d) ") (r := c!" e") (atomWord (t := c!"c") (b := c!" (d) ") (by derive) (by derive)) (.one (.atom (a := c!" ") (t := c!"e") (b := []) (by derive) (by derive) noCfws)))
        (atomDomain (by derive)))
      (by derive)
  have h : Old.Address tidyStyle c!"\"My, friends\": ,\"x,y\" <c (d) . e@f> , ;" [⟨c!"x,y", c!"c.e@f"⟩] := by
    refine .group (n := c!"\"My, friends\"") (m := c!" ,\"x,y\" <c (d) . e@f> , ") (l := [(c!" ", []), (c!"\"x,y\" <c (d) . e@f> ", [⟨c!"x,y", c!"c.e@f"⟩]), (c!" ", [])]) (b := [])
      name ⟨by simp, ?_, by decide⟩ noCfws
    intro i hi
    simp only [List.mem_cons, List.not_mem_nil, or_false] at hi
    rcases hi with rfl | rfl | rfl
    · exact .inr ⟨by derive, rfl⟩
    · exact .inl ⟨_, box, rfl⟩
    · exact .inr ⟨by derive, rfl⟩
  refine ⟨⟨by simp, ?_, by decide⟩, _, List.mem_cons_of_mem _ List.mem_cons_self, h⟩
  intro i hi
  simp only [List.mem_cons, List.not_mem_nil, or_false] at hi
  rcases hi with rfl | rfl | rfl
  · exact .inr ⟨noCfws, rfl⟩
  · exact .inl h
  · exact .inr ⟨by derive, rfl⟩

example (P : Predictor) (env : Env) : parseAddressList P env (encode c!",\"My, friends\": ,\"x,y\" <c (d) . e@f> , ;,(nobody)") = .ok (some [⟨b!"x,y", b!"c.e@f"⟩], none) :=
  (C72_rfc_addresses P env gaps (by unfold NoMark; decide) (noBlankLines_of_check (by decide)) (sureQuotes_of_check (by decide))).2

/-- A control character behind a backslash belongs to the name, says the RFC; the package leaves it out. -/
theorem C72_control_character (P : Predictor) (env : Env) :
    Old.AddressList rfcStyle ['"', 'a', '\\', '\u0001', '"', '<', 'b', '@', 'c', '>'] [(['"', 'a', '\\', '\u0001', '"', '<', 'b', '@', 'c', '>'], [⟨['a', '\u0001'], c!"b@c"⟩])] ∧
    parseAddressList P env (encode ['"', 'a', '\\', '\u0001', '"', '<', 'b', '@', 'c', '>']) = .ok (some [⟨b!"a", b!"b@c"⟩], none) := by
  have list : ∀ (S : Style) w, S.inner [] [] → S.last [] [] → S.control '\u0001' w →
      Old.AddressList S ['"', 'a', '\\', '\u0001', '"', '<', 'b', '@', 'c', '>'] [(['"', 'a', '\\', '\u0001', '"', '<', 'b', '@', 'c', '>'], [⟨'a' :: w, c!"b@c"⟩])] := by
    intro S w h1 h2 h3
    have word : Old.Word S ['"', 'a', '\\', '\u0001', '"'] ('a' :: w) :=
      .quoted (a := []) (q := ['a', '\\', '\u0001']) (b := []) noCfws
        (.char (f := []) (u := []) (by derive) h1 (by derive) (by simpa using Old.Quoted.control (f := []) (u := []) (by derive) h1 (by derive) h3 (.done (f := []) (u := []) (by derive) h2))) noCfws
    have box : Old.Mailbox S ['"', 'a', '\\', '\u0001', '"', '<', 'b', '@', 'c', '>'] ⟨'a' :: w, c!"b@c"⟩ :=
      .named (n := ['"', 'a', '\\', '\u0001', '"']) (ps := [.word ('a' :: w)]) (a := []) (r := []) (t := c!"b@c") (b := [])
        (.mk (r := []) word (noTouch (by decide)) .nil) noCfws (by derive)
        (.mk (l := c!"b") (u := c!"b") (d := c!"c") (v := c!"c") (.one (atomWord (t := c!"b") (b := []) (by derive) noCfws)) (atomDomain (by derive))) noCfws
    refine ⟨⟨by simp, ?_, by simp⟩, _, List.mem_cons_self, .box box⟩
    intro i hi
    simp only [List.mem_cons, List.not_mem_nil, or_false] at hi
    subst hi
    exact .inl (.box box)
  exact ⟨list rfcStyle ['\u0001'] rfl rfl rfl,
    C72_addresses P env (list goStyle [] rfl rfl rfl) (by unfold NoMark; decide) (noBlankLines_of_check (by decide)) (sureQuotes_of_check (by decide))⟩

end

end Rfc5322.Props
