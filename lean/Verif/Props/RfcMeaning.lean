import Verif.Proofs.RfcDate
import Verif.Props.Rfc5322

/-!
# C66: what RFC 5322 says that a text means
-/

namespace Rfc5322.Props

open Rfc Abnf
open Spec (NoMark NoBlankLines encode)

/-- A mailbox as the package returns it. -/
def asAddr (b : Box) : Addr := ⟨encode b.name, encode b.addr⟩

theorem asAddr_eq : asAddr = Box.out := by funext b; rw [asAddr, encode_eq, encode_eq]; rfl

/-- An address list that RFC 5322 allows to generate, and that does not contain `=?` or blank lines, has the value of its mailboxes, in their order, and of the members of
its groups.  In quoted strings the package leaves line breaks in, and leaves out white space at the end. -/
theorem C66_addresses (P : Predictor) (env : Env) {text : List Char} {l : List (List Char × List Box)} (h : AddressList goBlanks text l) (hm : NoMark text)
    (hb : NoBlankLines text) (hf : FirmGroups goBlanks l) :
    parseAddressList P env (encode text) = .ok (if l.flatMap (·.2) = [] then none else some ((l.flatMap (·.2)).map asAddr), none) := by
  obtain ⟨hne, hl, rfl⟩ := h
  rw [parse_groups P (groups_list env hne hl ⟨hm, hb⟩ hf), asAddr_eq]
  cases l.flatMap (·.2) <;> rfl

/-- If there are no line breaks in quoted strings, and no white space at their ends, the result is exactly what the RFC says. -/
theorem C66_rfc_addresses (P : Predictor) (env : Env) {text : List Char} {l : List (List Char × List Box)} (h : AddressList tidyBlanks text l) (hm : NoMark text)
    (hb : NoBlankLines text) (hf : FirmGroups tidyBlanks l) :
    AddressList rfcBlanks text l ∧
    parseAddressList P env (encode text) = .ok (if l.flatMap (·.2) = [] then none else some ((l.flatMap (·.2)).map asAddr), none) :=
  ⟨h.mono tidy_rfc, C66_addresses P env (h.mono tidy_go) hm hb (hf.mono tidy_go)⟩

/-- The addresses of the RFC are exactly the texts that have a meaning, and what becomes of white space in quoted strings makes no difference. -/
theorem C66_every_address_list (text : List Char) :
    (Derivable current Name.«address-list» text ↔ ∃ l, AddressList rfcBlanks text l) ∧ (Derivable current Name.«address-list» text ↔ ∃ l, AddressList goBlanks text l) :=
  ⟨⟨list_exists rfc_total, fun ⟨_, h⟩ => list_derives h⟩, ⟨list_exists go_total, fun ⟨_, h⟩ => list_derives h⟩⟩

/-- A date that RFC 5322 allows to generate has the value that the RFC gives it, and the zone of the result has the offset that is written there. -/
theorem C66_rfc_dates (P : Predictor) (env : Env) {text : List Char} {m : Moment} (h : Rfc.DateTime text m) :
    ∃ t, parseDateTime P env (encode text) = .ok (t, none) ∧ t.unix = m.instant ∧ t.loc.offset = 60 * m.zone := by
  obtain ⟨f, h1, h2, h3⟩ := dateTime_spec (now := env.nowYear) h
  exact ⟨f.time, parseDateTime_encode h1, h2, h3⟩

/-- The dates of the RFC are exactly the texts that have a meaning. -/
theorem C66_every_date (text : List Char) : Derivable current Name.«date-time» text ↔ ∃ m, Rfc.DateTime text m := dateTime_iff

/-! ## Examples, mostly from appendix A of the RFC -/

section
variable {B : Blanks}

theorem derivable_of_tails {g e x} (h : (tails g 200 e x).any List.isEmpty = true) : Derivable g e x := by
  obtain ⟨z, hz, hd⟩ := tails_sound (by simpa using h)
  simp at hz
  exact hz ▸ hd

macro "derive" : tactic => `(tactic| (refine derivable_of_tails ?_; decide +kernel))

theorem quotedChars {x : List Char} (h : ∀ c ∈ x, check current Name.qtext [c] = true) (hB : B.inner [] [] ∧ B.last [] []) : Quoted B x x := by
  induction x with
  | nil => exact .done (by derive) hB.2
  | cons c x ih =>
    exact .char (f := []) (u := []) (by derive) hB.1 (derivable_of_check (h c (by simp))) (ih fun c hc => h c (by simp [hc]))

theorem tidyNil : tidyBlanks.inner [] [] ∧ tidyBlanks.last [] [] := ⟨by simp [tidyBlanks], by simp [tidyBlanks]⟩

/-- Appendix A.5: comments and folding white space. -/
theorem pete : AddressList tidyBlanks c!"Pete(A nice \\) chap) <pete(his account)@silly.test(his host)>,\r\n Mary \"Q.\" Smith <mary@[1.2. 3.4]>"
    [(c!"Pete(A nice \\) chap) <pete(his account)@silly.test(his host)>", [⟨c!"Pete", c!"pete@silly.test"⟩]),
     (c!"\r\n Mary \"Q.\" Smith <mary@[1.2. 3.4]>", [⟨c!"Mary Q. Smith", c!"mary@[1.2. 3.4]"⟩])] := by
  refine ⟨by simp, ?_, by decide⟩
  intro i hi
  simp only [List.mem_cons, List.not_mem_nil, or_false] at hi
  rcases hi with rfl | rfl
  · exact .box (.named (n := c!"Pete(A nice \\) chap) ") (vs := [c!"Pete"]) (a := []) (t := c!"pete(his account)@silly.test(his host)") (b := [])
      (.one (.atom (a := []) (t := c!"Pete") (b := c!"(A nice \\) chap) ") (by derive) (by derive) (by derive))) (by derive)
      (.mk (l := c!"pete(his account)") (u := c!"pete") (d := c!"silly.test(his host)") (v := c!"silly.test")
        (.dotAtom (a := []) (t := c!"pete") (b := c!"(his account)") (by derive) (by derive) (by derive))
        (.dotAtom (a := []) (t := c!"silly.test") (b := c!"(his host)") (by derive) (by derive) (by derive))) (by derive))
  · exact .box (.named (n := c!"\r\n Mary \"Q.\" Smith ") (vs := [c!"Mary", c!"Q.", c!"Smith"]) (a := []) (t := c!"mary@[1.2. 3.4]") (b := [])
      (.cons (t := c!"\r\n Mary ") (r := c!"\"Q.\" Smith ") (.atom (a := c!"\r\n ") (t := c!"Mary") (b := c!" ") (by derive) (by derive) (by derive))
        (by rintro ⟨c, hc, d, hd, h1, h2⟩; cases hc; exact absurd (atext_cur h1) (by decide))
        (.cons (t := c!"\"Q.\" ") (r := c!"Smith ") (.quoted (a := []) (q := c!"Q.") (v := c!"Q.") (b := c!" ") (by derive) (quotedChars (by decide +kernel) tidyNil) (by derive))
          (by rintro ⟨c, hc, d, hd, h1, h2⟩; cases hc; exact absurd (atext_cur h1) (by decide))
          (.one (.atom (a := []) (t := c!"Smith") (b := c!" ") (by derive) (by derive) (by derive))))) (by derive)
      (.mk (l := c!"mary") (u := c!"mary") (d := c!"[1.2. 3.4]") (v := c!"[1.2. 3.4]")
        (.dotAtom (a := []) (t := c!"mary") (b := []) (by derive) (by derive) (by derive))
        (.literal (a := []) (t := c!"1.2. 3.4") (b := []) (by derive) (by derive) (by derive))) (by derive))

example (P : Predictor) (env : Env) : parseAddressList P env
      (encode c!"Pete(A nice \\) chap) <pete(his account)@silly.test(his host)>,\r\n Mary \"Q.\" Smith <mary@[1.2. 3.4]>") =
    .ok (some [⟨b!"Pete", b!"pete@silly.test"⟩, ⟨b!"Mary Q. Smith", b!"mary@[1.2. 3.4]"⟩], none) := by
  refine (C66_rfc_addresses P env pete (by unfold NoMark; decide) (noBlankLines_of_check (by decide)) ?_).2
  intro l₁ i l₂ e
  have hi := pete.2.1 i (by rw [e]; simp)
  have h : i.2.length = 1 ∧ ':' ∉ i.1 := by
    have : i ∈ l₁ ++ i :: l₂ := by simp
    rw [← e] at this
    simp only [List.mem_cons, List.not_mem_nil, or_false] at this
    rcases this with rfl | rfl <;> decide
  generalize hv : i.2 = v at *
  generalize ht : i.1 = t at *
  cases hi with
  | box hb => exact .inl ⟨_, hb, rfl⟩
  | group => exact absurd h.2 (by simp)

/-- A group whose name is a quoted string. -/
theorem friends : AddressList tidyBlanks c!"\"My, friends\": a@b, <c@d>;" [(c!"\"My, friends\": a@b, <c@d>;", [⟨[], c!"a@b"⟩, ⟨[], c!"c@d"⟩])] := by
  refine ⟨by simp, ?_, by decide⟩
  intro i hi
  simp only [List.mem_cons, List.not_mem_nil, or_false] at hi
  subst hi
  have nil : Derivable current (opt Name.CFWS) [] := by derive
  have ab : AddrSpec tidyBlanks c!" a@b" c!"a@b" := .mk (l := c!" a") (u := c!"a") (d := c!"b") (v := c!"b")
    (.dotAtom (a := c!" ") (t := c!"a") (b := []) (by derive) (by derive) nil) (.dotAtom (a := []) (t := c!"b") (b := []) nil (by derive) nil)
  have cd : AddrSpec tidyBlanks c!"c@d" c!"c@d" := .mk (l := c!"c") (u := c!"c") (d := c!"d") (v := c!"d")
    (.dotAtom (a := []) (t := c!"c") (b := []) nil (by derive) nil) (.dotAtom (a := []) (t := c!"d") (b := []) nil (by derive) nil)
  exact .group (n := c!"\"My, friends\"") (m := c!" a@b, <c@d>") (b := [])
    (.one (.quoted (a := []) (q := c!"My, friends") (v := c!"My, friends") (b := []) nil
      (.char (f := []) (u := []) (by derive) tidyNil.1 (by derive) (.char (f := []) (u := []) (by derive) tidyNil.1 (by derive) (.char (f := []) (u := []) (by derive) tidyNil.1 (by derive)
        (.char (f := c!" ") (u := c!" ") (by derive) (by simp [tidyBlanks]) (by derive) (quotedChars (by decide +kernel) tidyNil))))) nil))
    (.boxes (.cons (t := c!" a@b") (.bare ab) (.one (.angle (a := c!" ") (t := c!"c@d") (b := []) (by derive) cd nil)))) nil

example (P : Predictor) (env : Env) : parseAddressList P env (encode c!"\"My, friends\": a@b, <c@d>;") = .ok (some [⟨[], b!"a@b"⟩, ⟨[], b!"c@d"⟩], none) := by
  refine (C66_rfc_addresses P env friends (by unfold NoMark; decide) (noBlankLines_of_check (by decide)) ?_).2
  intro l₁ i l₂ e
  cases l₁ with
  | cons j l => simp at e
  | nil =>
    obtain ⟨rfl, rfl⟩ : i = _ ∧ l₂ = [] := by simpa [eq_comm] using e
    right
    intro x hx
    have hx : x = _ := (List.cons.inj (hx.symm.trans (by decide : _ = '"' :: c!"My, friends\": a@b, <c@d>;"))).2
    subst hx
    decide

end

/-- Without the condition on groups the result may differ: here is one group, whose name ends with `z`, but the package sees two. -/
theorem C66_overlooked_quotation_mark (P : Predictor) :
    AddressList tidyBlanks c!"\"x:\"y\" <m@n>,\"z:b@c;" [(c!"\"x:\"y\" <m@n>,\"z:b@c;", [⟨[], c!"b@c"⟩])] ∧
    parseAddressList P env0 (encode c!"\"x:\"y\" <m@n>,\"z:b@c;") = .ok (some [⟨b!"y", b!"m@n"⟩, ⟨[], b!"b@c"⟩], none) := by
  refine ⟨⟨by simp, ?_, by decide⟩, by fast_addr⟩
  intro i hi
  simp only [List.mem_cons, List.not_mem_nil, or_false] at hi
  subst hi
  have nil : Derivable current (opt Name.CFWS) [] := by derive
  have apart : ∀ {t r : List Char} {c d}, t.getLast? = some c → r.head? = some d → (Spec.isAtext c && Spec.isAtext d) = false →
      ¬ ∃ c ∈ t.getLast?, ∃ d ∈ r.head?, Derivable current Name.atext [c] ∧ Derivable current Name.atext [d] := by
    intro t r c d h1 h2 h3 ⟨c', hc, d', hd, h4, h5⟩
    rw [h1] at hc
    rw [h2] at hd
    cases hc
    cases hd
    rw [atext_cur h4, atext_cur h5] at h3
    cases h3
  exact .group (n := c!"\"x:\"y\" <m@n>,\"z") (m := c!"b@c") (b := [])
    (.cons (t := c!"\"x:\"") (r := c!"y\" <m@n>,\"z") (.quoted (a := []) (q := c!"x:") (b := []) nil (quotedChars (by decide +kernel) tidyNil) nil)
        (apart (c := '"') (d := 'y') rfl rfl rfl)
      (.cons (t := c!"y") (r := c!"\" <m@n>,\"z") (.atom (a := []) (t := c!"y") (b := []) nil (by derive) nil) (apart (c := 'y') (d := '"') rfl rfl rfl)
        (.cons (t := c!"\" <m@n>,\"") (r := c!"z") (.quoted (a := []) (q := c!" <m@n>,") (v := c!" <m@n>,") (b := []) nil
            (.char (f := c!" ") (u := c!" ") (by derive) (by simp [tidyBlanks]) (by derive) (quotedChars (by decide +kernel) tidyNil)) nil)
            (apart (c := '"') (d := 'z') rfl rfl rfl)
          (.one (.atom (a := []) (t := c!"z") (b := []) nil (by derive) nil)))))
    (.boxes (.one (.bare (.mk (l := c!"b") (u := c!"b") (d := c!"c") (v := c!"c")
      (.dotAtom (a := []) (t := c!"b") (b := []) nil (by derive) nil) (.dotAtom (a := []) (t := c!"c") (b := []) nil (by derive) nil))))) nil

/-- Appendix A.1.1 -/
theorem friday : Rfc.DateTime c!"Fri, 21 Nov 1997 09:55:06 -0600 (c)" ⟨21, 11, 1997, 9, 55, 6, -360⟩ :=
  .mk (w := c!"Fri,") (f₁ := c!" ") (d := c!"21") (f₂ := c!" ") (name := c!"Nov") (mo := c!"Nov") (k := 10) (f₃ := c!" ") (y := c!"1997") (f₄ := c!" ") (h := c!"09") (mi := c!"55")
    (s := c!":06") (sec := 6) (f₅ := c!" ") (z := c!"-0600") (zone := -360) (c := c!" (c)") (by derive) (by derive) (by derive) (by derive) rfl (by derive) (by derive) (by derive)
    (by derive) (by derive) (by derive) (.some (x := c!"06") (by derive)) (by derive) (.west (h := c!"06") (m := c!"00") (by derive) (by derive)) (by derive)

example (P : Predictor) (env : Env) : ∃ t, parseDateTime P env (encode c!"Fri, 21 Nov 1997 09:55:06 -0600 (c)") = .ok (t, none) ∧ t.unix = 880127706 ∧ t.loc.offset = -21600 := by
  obtain ⟨t, h1, h2, h3⟩ := C66_rfc_dates P env friday
  exact ⟨t, h1, by rw [h2]; decide +kernel, h3⟩

end Rfc5322.Props
