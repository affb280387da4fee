import Verif.Proofs.Squeeze
import Verif.Props.Items

/-!
# C55–C57: lists of mailboxes, exactly

For texts without visible colons (i.e. without groups, routes and ports), without encoded words and without blank lines, the whole behaviour of
`ParseAddressList` is given by `Spec.BoxList` (`Verif/Spec/Exact.lean`): a text is accepted if and only if it is such a list, and the result is its value.
-/

namespace Rfc5322.Props

open Spec

theorem boxList_ne_nil {t as} (h : BoxList t as) : as ≠ [] := by
  cases h <;> simp

theorem exact_accept {P : Predictor} {env : Env} {input : Bytes} {text : List Char} (hr : ReadsAs input text)
    (hc : HiddenColons (dropAstral text)) (hm : NoMark (dropAstral text)) {as} (h : BoxList (dropAstral text) as) :
    parseAddressList P env input = .ok (some as, none) := by
  have hp := parse_boxList (env := env) P h ⟨tameWords_of_noMark hm, hc⟩
  have hne : dropAstral text ≠ [] := by
    intro he
    rw [he, show encode [] = [] from rfl, C01_empty_address_list] at hp
    injection hp with hp
    injection hp with hp
    injection hp with hp
    subst hp
    exact boxList_ne_nil h rfl
  rw [(C09_only_the_text_counts P env hr).1, ← hp]
  refine (C08_astral_characters_are_ignored P env (fun e => hne (by rw [e]; rfl)) hne ?_).1
  exact (dropAstral_of fun c hc => (List.mem_filter.mp hc).2).symm

/-- Which texts are accepted, and with which result. -/
theorem C55_exactly_the_mailbox_lists (P : Predictor) (env : Env) {input : Bytes} {text : List Char} (hne : input ≠ []) (hr : ReadsAs input text)
    (hc : HiddenColons (dropAstral text)) (hm : NoMark (dropAstral text)) (hb : NoBlankLines (dropAstral text)) (slice : Option (List Addr)) :
    parseAddressList P env input = .ok (slice, none) ↔ ∃ as, BoxList (dropAstral text) as ∧ slice = some as := by
  constructor
  · intro h
    obtain ⟨l, hl, _⟩ := reading hne hr h
    obtain ⟨bs, hbs⟩ := boxList_of hl ⟨tameWords_of_noMark hm, hc⟩ ⟨hm, hb⟩
    refine ⟨bs, hbs, ?_⟩
    rw [exact_accept hr hc hm hbs] at h
    injection h with h
    injection h with h
    exact h.symm
  · rintro ⟨as, h, rfl⟩
    exact exact_accept hr hc hm h

/-- All others are rejected. -/
theorem C55_everything_else_is_an_error (P : Predictor) (env : Env) {input : Bytes} {text : List Char} (hne : input ≠ []) (hr : ReadsAs input text)
    (hc : HiddenColons (dropAstral text)) (hm : NoMark (dropAstral text)) (hb : NoBlankLines (dropAstral text)) (h : ∀ as, ¬ BoxList (dropAstral text) as) :
    parseAddressList P env input = .ok (none, some .syntaxError) := by
  obtain ⟨slice, err, he⟩ := C02_addresses_never_panic P env input
  cases err with
  | none =>
    obtain ⟨as, h1, _⟩ := (C55_exactly_the_mailbox_lists P env hne hr hc hm hb slice).mp he
    exact absurd h1 (h as)
  | some e =>
    obtain ⟨rfl, rfl⟩ := C03_addresses_result_or_error he
    exact he

/-- Hence such a list has one value only. -/
theorem C55_one_value {t : List Char} {as bs : List Addr} (hc : HiddenColons t) (hm : NoMark t) (h1 : BoxList t as) (h2 : BoxList t bs) : as = bs := by
  obtain ⟨P⟩ := Predictor.nonempty
  have h := parse_boxList (env := env0) P h1 ⟨tameWords_of_noMark hm, hc⟩
  rw [parse_boxList (env := env0) P h2 ⟨tameWords_of_noMark hm, hc⟩] at h
  injection h with h
  injection h with h
  injection h with h
  exact h.symm

/-- The hypotheses, and both directions, on an example: a name with a period, comments, an empty item and an address literal. -/
theorem exact_witness : BoxList c!"Joe Q. \"A: b\" <a@b>, (c:\r\n d),x.y@[::1]" [⟨b!"Joe Q.A: b", b!"a@b"⟩, ⟨[], b!"x.y@[::1]"⟩] := by
  have hq : QuotedString c!"\"A: b\"" b!"A: b" := quote_string (t := c!"A: b") (by decide)
  have h1 : BareAddr c!"a@b" b!"a@b" :=
    .plain (l := c!"a") (d := c!"b") (.dotAtom (a := []) (t := c!"a") (b := []) OptCfws.nil (.inl (.one (atom_of (by decide)))) (by unfold NoMark; decide) OptCfws.nil)
      (.dotAtom (a := []) (t := c!"b") (b := []) OptCfws.nil (.inl (.one (atom_of (by decide)))) (by unfold NoMark; decide) OptCfws.nil)
  have h2 : BareAddr c!"x.y@[::1]" b!"x.y@[::1]" :=
    .plain (l := c!"x.y") (d := c!"[::1]") (.dotAtom (a := []) (t := c!"x.y") (b := []) OptCfws.nil (.inl (.cons (a := c!"x") (r := c!"y") (atom_of (by decide)) (.one (atom_of (by decide))))) (by unfold NoMark; decide) OptCfws.nil)
      (.literal (a := []) (t := c!"[::1]") (b := []) OptCfws.nil
        ⟨c!"::1", [], .char (f := []) (.inl rfl) (by decide) (.char (f := []) (.inl rfl) (by decide) (.char (f := []) (.inl rfl) (by decide) .nil)), .inl rfl, rfl⟩ OptCfws.nil)
  have h3 : OptCfws c!" (c:\r\n d)" :=
    ⟨c!" (c:\r\n d)", [], .cons (f := c!" ") (t := c!"(c:\r\n d)") (r := []) (.inr (.plain (by simp) (by decide)))
      ⟨c!"c:\r\n d", [], .char (f := []) (.inl rfl) (by decide) (.char (f := []) (.inl rfl) (by decide)
        (.char (f := c!"\r\n ") (.inr (.folded (v := []) (w := c!" ") (by simp) (by simp) (by decide))) (by decide) .nil)), .inl rfl, rfl⟩ .nil, .inl rfl, rfl⟩
  exact .padded (h := []) (t := c!"Joe Q. \"A: b\" <a@b>") (r := c!", (c:\r\n d),x.y@[::1]") .nil
    (.named (a := []) (n := c!"Joe Q. \"A: b\" ") (t := c!"<a@b>") OptCfws.nil
      (.atom (t := c!"Joe") (b := c!" ") (x := c!"Q. \"A: b\" ") (atom_of (by decide)) (by unfold NoMark; decide) cfws_space.1 (by simp)
        (.atom (t := c!"Q") (b := []) (x := c!". \"A: b\" ") (atom_of (by decide)) (by unfold NoMark; decide) OptCfws.nil (by decide)
          (.dot (b := c!" ") (x := c!"\"A: b\" ") cfws_space.1
            (.quoted (t := c!"\"A: b\"") (b := c!" ") (x := []) (v := b!"A: b") hq cfws_space.1 .nil))))
      (.addr (t := c!"a@b") (b := []) h1 OptCfws.nil))
    (.empty (t := c!" (c:\r\n d)") (r := c!",x.y@[::1]") h3 (.cons (t := c!"x.y@[::1]") (r := []) (.bare h2) .nil))

example (P : Predictor) (env : Env) : parseAddressList P env (encode c!"Joe Q. \"A: b\" <a@b>, (c:\r\n d),x.y@[::1]") =
    .ok (some [⟨b!"Joe Q.A: b", b!"a@b"⟩, ⟨[], b!"x.y@[::1]"⟩], none) :=
  (C55_exactly_the_mailbox_lists P env (encode_ne_nil (by decide)) (C09_well_formed _) (by decide) (by unfold NoMark; decide)
    (noBlankLines_of_check (by decide)) _).mpr ⟨_, exact_witness, rfl⟩

/-- A text without any separator that is no mailbox. -/
example (P : Predictor) (env : Env) : parseAddressList P env (encode c!"joe") = .ok (none, some .syntaxError) := by
  refine C55_everything_else_is_an_error P env (encode_ne_nil (by decide)) (C09_well_formed _) (by decide) (by unfold NoMark; decide)
    (noBlankLines_of_check (by decide)) ?_
  intro as h
  have h' := exact_accept (P := P) (env := env0) (C09_well_formed c!"joe") (by decide) (by unfold NoMark; decide) h
  have h'' : parseAddressList P env0 (encode c!"joe") = .ok (none, some .syntaxError) := by eval_addr
  rw [h''] at h'
  cases h'

/-- Two line folds in a row are not comments and white space: blank lines have to be excluded. -/
example (P : Predictor) : parseAddressList P env0 (encode c!"a@b\r\n \r\n ") = .ok (none, some .syntaxError) := by eval_addr

/-! ## C56: comments and white space are interchangeable -/

/-- In an accepted text, every run of comments and white space outside quoted strings and domain literals may be replaced by a single space. -/
theorem C56_one_space_is_enough {P : Predictor} {env : Env} {input : Bytes} {text : List Char} (hne : input ≠ []) (hr : ReadsAs input text)
    (hc : HiddenColons (dropAstral text)) (hm : NoMark (dropAstral text)) (hb : NoBlankLines (dropAstral text))
    (hc' : HiddenColons (oneSpace (dropAstral text))) {slice} (h : parseAddressList P env input = .ok (slice, none)) :
    parseAddressList P env (encode (oneSpace (dropAstral text))) = .ok (slice, none) := by
  obtain ⟨as, h1, rfl⟩ := (C55_exactly_the_mailbox_lists P env hne hr hc hm hb slice).mp h
  exact parse_boxList P (boxList_oneSpace h1) ⟨tameWords_of_noMark (noMark_oneSpace hm), hc'⟩

/-- Two accepted texts that become the same in this way give the same result. -/
theorem C56_equal_up_to_comments {P P' : Predictor} {env env' : Env} {input input' : Bytes} {text text' : List Char}
    (hne : input ≠ []) (hr : ReadsAs input text) (hc : HiddenColons (dropAstral text)) (hm : NoMark (dropAstral text)) (hb : NoBlankLines (dropAstral text))
    (hne' : input' ≠ []) (hr' : ReadsAs input' text') (hc' : HiddenColons (dropAstral text')) (hm' : NoMark (dropAstral text')) (hb' : NoBlankLines (dropAstral text'))
    (he : oneSpace (dropAstral text) = oneSpace (dropAstral text')) (hce : HiddenColons (oneSpace (dropAstral text))) {slice slice'}
    (h : parseAddressList P env input = .ok (slice, none)) (h' : parseAddressList P' env' input' = .ok (slice', none)) : slice = slice' := by
  obtain ⟨as, h1, rfl⟩ := (C55_exactly_the_mailbox_lists P env hne hr hc hm hb slice).mp h
  obtain ⟨bs, h2, rfl⟩ := (C55_exactly_the_mailbox_lists P' env' hne' hr' hc' hm' hb' slice').mp h'
  have h2 := boxList_oneSpace h2
  rw [← he] at h2
  rw [C55_one_value hce (noMark_oneSpace hm) (boxList_oneSpace h1) h2]

example (P : Predictor) (env : Env) : parseAddressList P env (encode c!"Joe Q. \"A: b\" <a@b>, ,x.y@[::1]") =
    .ok (some [⟨b!"Joe Q.A: b", b!"a@b"⟩, ⟨[], b!"x.y@[::1]"⟩], none) := by
  have := C56_one_space_is_enough (P := P) (env := env) (encode_ne_nil (by decide)) (C09_well_formed c!"Joe Q. \"A: b\" <a@b>, (c:\r\n d),x.y@[::1]") (by decide) (by unfold NoMark; decide)
    (noBlankLines_of_check (by decide)) (by decide) (slice := some [⟨b!"Joe Q.A: b", b!"a@b"⟩, ⟨[], b!"x.y@[::1]"⟩])
    (exact_accept (C09_well_formed _) (by decide) (by unfold NoMark; decide) exact_witness)
  exact this

/-- It is not the same to leave them out: two atoms become one. -/
example (P : Predictor) : parseAddressList P env0 (encode c!"a b<c@d>") = .ok (some [⟨b!"a b", b!"c@d"⟩], none) ∧
    parseAddressList P env0 (encode c!"ab<c@d>") = .ok (some [⟨b!"ab", b!"c@d"⟩], none) := ⟨by eval_addr, by eval_addr⟩

/-- The colons of the new text have to be hidden as well: here a quote in a comment matters. -/
example : HiddenColons c!"\"a\"(\")\":\"<b@c>" ∧ ¬ HiddenColons (oneSpace c!"\"a\"(\")\":\"<b@c>") := by decide

/-! ## C57: comments and white space at the ends -/

/-- Comments and white space in front of an accepted text and behind it change nothing. -/
theorem C57_ends_do_not_matter {P : Predictor} {env : Env} {t w w' : List Char} (hne : t ≠ []) (hw : OptCfws w) (hw' : OptCfws w')
    (hc : HiddenColons (dropAstral t)) (hc' : HiddenColons (dropAstral (w ++ (t ++ w')))) (hm : NoMark (dropAstral (w ++ (t ++ w'))))
    (hb : NoBlankLines (dropAstral (w ++ (t ++ w')))) {slice} (h : parseAddressList P env (encode t) = .ok (slice, none)) :
    parseAddressList P env (encode (w ++ (t ++ w'))) = .ok (slice, none) := by
  have bmp : ∀ {w : List Char}, OptCfws w → dropAstral w = w := fun hw =>
    dropAstral_of (takes_bmp (show Takes plainK nenv _ _ [] _ from takes_optCfws hw .nil))
  have e : dropAstral (w ++ (t ++ w')) = w ++ (dropAstral t ++ w') := by
    rw [dropAstral_append, dropAstral_append, bmp hw, bmp hw']
  rw [e] at hm hb
  have hm1 : NoMark (dropAstral t) := hm.mono ⟨w, w', by simp⟩
  have hb1 : NoBlankLines (dropAstral t) := hb.mono ⟨w, w', by simp⟩
  obtain ⟨as, h1, rfl⟩ := (C55_exactly_the_mailbox_lists P env (encode_ne_nil hne) (C09_well_formed t) hc hm1 hb1 slice).mp h
  refine exact_accept (C09_well_formed _) hc' (by rw [e]; exact hm) ?_
  rw [e]
  exact boxList_pre hw (boxList_post hw' h1 ⟨tameWords_of_noMark hm1, hc⟩ (hb.mono (infix_right _ _))) hb

example (P : Predictor) (env : Env) : parseAddressList P env (encode c!" (a \\) (b))\tJoe Q. \"A: b\" <a@b>, (c:\r\n d),x.y@[::1] ") =
    .ok (some [⟨b!"Joe Q.A: b", b!"a@b"⟩, ⟨[], b!"x.y@[::1]"⟩], none) :=
  C57_ends_do_not_matter (t := c!"Joe Q. \"A: b\" <a@b>, (c:\r\n d),x.y@[::1]") (w := c!" (a \\) (b))\t") (w' := c!" ") (by decide)
    cfws_comment.1 cfws_space.1 (by decide) (by decide) (by unfold NoMark; decide) (noBlankLines_of_check (by decide))
    (exact_accept (C09_well_formed _) (by decide) (by unfold NoMark; decide) exact_witness)

/-- Without the condition on colons a space may matter, in front and behind. -/
example (P : Predictor) : parseAddressList P env0 (encode c!"\"a: b@c\"") = .ok (some [⟨[], b!"b@c"⟩], none) ∧
    parseAddressList P env0 (encode c!" \"a: b@c\"") = .ok (none, some .syntaxError) ∧
    parseAddressList P env0 (encode c!"a@b:25") = .ok (some [⟨[], b!"a@b:25"⟩], none) ∧
    parseAddressList P env0 (encode c!"a@b:25 ") = .ok (none, some .syntaxError) := ⟨by eval_addr, by eval_addr, by eval_addr, by eval_addr⟩

end Rfc5322.Props
