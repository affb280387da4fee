import Verif.Proofs.G4Pref
import Verif.Props.Atn

/-!
# C65: the grammar files

`Verif/Model/G4Data.lean` is the text of RFC5322Lexer.g4 and RFC5322Parser.g4, `Verif/Model/G4.lean` reads it, `Verif/Spec/G4.lean` says what such rules mean.
-/

namespace Rfc5322.Props

open Spec G4

/-- Both files are read to their ends: a lexer grammar with 70 rules, and a parser grammar with 67 rules that uses the tokens of the former. -/
theorem C65_files_are_read : ∃ L P, read lexerFile = some L ∧ read parserFile = some P ∧ L.kind = c!"lexer" ∧ P.kind = c!"parser" ∧ P.vocabulary = some L.name ∧
    L.rules.length = 70 ∧ P.rules.length = 67 := by
  have h : ((read lexerFile).bind fun L => (read parserFile).map fun P => decide (L.kind = c!"lexer" ∧ P.kind = c!"parser" ∧ P.vocabulary = some L.name ∧
    L.rules.length = 70 ∧ P.rules.length = 67)) = some true := by decide +kernel
  cases hL : read lexerFile with
  | none => rw [hL] at h; cases h
  | some L =>
    cases hP : read parserFile with
    | none => rw [hL, hP] at h; cases h
    | some P =>
      rw [hL, hP] at h
      exact ⟨L, P, rfl, rfl, by simpa using h⟩

theorem derives_addresses (P : Predictor) (env : Env) {input : Bytes} (hne : input ≠ []) :
    (∃ slice, parseAddressList P env input = .ok (slice, none)) ↔ ∃ ts, Rfc5322.Derives (Atn.ruleG .addressList) (tokens input) ts [] := by
  constructor
  · rintro ⟨slice, h⟩
    rcases parseAddressList_spec P env hne with ⟨l, hl, _⟩ | ⟨_, h'⟩
    · have hw : Gr.addressList.wf = true := by decide
      unfold parseAddressList at h
      rw [if_neg (by simpa using hne), descend_eq_search P Gr.addressList hw] at h
      cases hs : search Gr.addressList (tokens input) with
      | none => rw [hs] at h; simp at h
      | some us => exact ⟨us, search_sound hs⟩
    · rw [h'] at h; simp at h
  · rintro ⟨ts, h⟩
    rcases parseAddressList_spec P env hne with ⟨l, _, h'⟩ | ⟨h1, _⟩
    · exact ⟨_, h'⟩
    · obtain ⟨us, rfl, h2⟩ := Atn.derives_rule.mp h
      obtain ⟨_, l, hl, _⟩ := addressList_sound (env := env) h
      exact absurd hl (h1 l)

theorem derives_dates (P : Predictor) (env : Env) {input : Bytes} (hne : input ≠ []) :
    (∃ time, parseDateTime P env input = .ok (time, none)) ↔ ∃ ts, Rfc5322.Derives (Atn.ruleG .dateTime) (tokens input) ts [] := by
  have hw : Gr.dateTime.wf = true := by decide
  constructor
  · rintro ⟨slice, h⟩
    unfold parseDateTime at h
    rw [if_neg (by simpa using hne), descend_eq_search P Gr.dateTime hw] at h
    cases hs : search Gr.dateTime (tokens input) with
    | none => rw [hs] at h; simp at h
    | some us => exact ⟨us, search_sound hs⟩
  · rintro ⟨ts, h⟩
    rcases parseDateTime_spec P env hne with ⟨f, _, h'⟩ | ⟨h1, _⟩
    · exact ⟨_, h'⟩
    · obtain ⟨us, hs⟩ := Option.isSome_iff_exists.mp ((search_isSome_iff (s := tokens input) hw).mpr ⟨_, h⟩)
      have hd := search_sound hs
      unfold Gr.dateTime at hd
      cases hd with
      | rule hd =>
        obtain ⟨_, g, hg, he⟩ := (endMeans_date (env := env)).sound hd
        obtain ⟨f, hf, _⟩ := dateLang_iff hg
        exact absurd hf (h1 f)

/-- `ParseAddressList` accepts exactly the texts that the rule `addressList` of the files derives. -/
theorem C65_addresses (P : Predictor) (env : Env) {input : Bytes} {text : List Char} (hne : input ≠ []) (hr : ReadsAs input text) {LG PG : Grammar}
    (hL : read lexerFile = some LG) (hP : read parserFile = some PG) :
    (∃ slice, parseAddressList P env input = .ok (slice, none)) ↔ Accepted LG PG c!"addressList" text := by
  rw [derives_addresses P env hne]
  have := accepted_iff (files_good hL hP) (R := .addressList) rfl (text := text)
  rw [← reads_runes hr] at this
  rw [← reads_runes hr]
  exact this.symm

/-- `ParseDateTime` accepts exactly the texts that the rule `dateTime` of the files derives. -/
theorem C65_dates (P : Predictor) (env : Env) {input : Bytes} {text : List Char} (hne : input ≠ []) (hr : ReadsAs input text) {LG PG : Grammar}
    (hL : read lexerFile = some LG) (hP : read parserFile = some PG) :
    (∃ time, parseDateTime P env input = .ok (time, none)) ↔ Accepted LG PG c!"dateTime" text := by
  rw [derives_dates P env hne]
  have := accepted_iff (files_good hL hP) (R := .dateTime) rfl (text := text)
  rw [← reads_runes hr] at this
  rw [← reads_runes hr]
  exact this.symm

/-- Every text has exactly one sequence of tokens. -/
theorem C65_tokens {LG PG : Grammar} (hL : read lexerFile = some LG) (hP : read parserFile = some PG) (text : List Char) :
    ∃ toks, ∀ toks', Lexes LG text toks' ↔ toks' = toks := by
  have hg := files_good hL hP
  exact ⟨_, fun ts => lexes_iff hg⟩

/-- The tree of an accepted address list is the only one that the files prefer: from left to right, always the first alternative with which the input can
still be derived.  The result is what walking that tree gives. -/
theorem C65_addresses_reading (P : Predictor) (env : Env) {input : Bytes} {text : List Char} (hne : input ≠ []) (hr : ReadsAs input text) {LG PG : Grammar}
    (hL : read lexerFile = some LG) (hP : read parserFile = some PG) {toks : List G4.Token} (ht : Lexes LG text toks)
    (hacc : G4.Derives PG.rules isToken (.ref c!"addressList") (toks ++ [EOF])) :
    ∃ ts, (∀ us s', Prefers PG.rules (· = []) (.ref c!"addressList") (toks ++ [EOF]) us s' ↔ us = [parse (.node .addressList ts)] ∧ s' = []) ∧
      ∃ l w, walkList env [.node .addressList ts] Walker.init = .ok w ∧ w.res = some (.addrs l) ∧ parseAddressList P env input = .ok (goSlice l, w.err) := by
  have hg := files_good hL hP
  obtain ⟨slice, hs⟩ := (C65_addresses P env hne hr hL hP).mpr ⟨toks, ht, hacc⟩
  obtain ⟨ts, h, hres⟩ := C59_addresses_path P env hne (by rw [hs]; simp)
  refine ⟨ts, fun us s' => ?_, hres⟩
  have hp := (Atn.prefers_preferred Atn.parser_good (R := .addressList) rfl).mp ((h ts []).mpr ⟨rfl, rfl⟩)
  rw [(lexes_iff hg).mp ht]
  have hp' : Preferred (· = []) (Atn.ruleG .addressList) (tokenize text) [.node .addressList ts] [] := by rw [← reads_runes hr]; exact hp
  exact prefers_iff hg (R := .addressList) rfl (fine_tokens text) hp'

/-- The same for date-times. -/
theorem C65_dates_reading (P : Predictor) (env : Env) {input : Bytes} {text : List Char} (hne : input ≠ []) (hr : ReadsAs input text) {LG PG : Grammar}
    (hL : read lexerFile = some LG) (hP : read parserFile = some PG) {toks : List G4.Token} (ht : Lexes LG text toks)
    (hacc : G4.Derives PG.rules isToken (.ref c!"dateTime") (toks ++ [EOF])) :
    ∃ ts, (∀ us s', Prefers PG.rules (· = []) (.ref c!"dateTime") (toks ++ [EOF]) us s' ↔ us = [parse (.node .dateTime ts)] ∧ s' = []) ∧
      ∃ t w, walkList env [.node .dateTime ts] Walker.init = .ok w ∧ w.res = some (.time t) ∧ parseDateTime P env input = .ok (t, w.err) := by
  have hg := files_good hL hP
  obtain ⟨time, hs⟩ := (C65_dates P env hne hr hL hP).mpr ⟨toks, ht, hacc⟩
  obtain ⟨ts, h, hres⟩ := C59_dates_path P env hne (by rw [hs]; simp)
  refine ⟨ts, fun us s' => ?_, hres⟩
  have hp := (Atn.prefers_preferred Atn.parser_good (R := .dateTime) rfl).mp ((h ts []).mpr ⟨rfl, rfl⟩)
  rw [(lexes_iff hg).mp ht]
  have hp' : Preferred (· = []) (Atn.ruleG .dateTime) (tokenize text) [.node .dateTime ts] [] := by rw [← reads_runes hr]; exact hp
  exact prefers_iff hg (R := .dateTime) rfl (fine_tokens text) hp'

/-- A text that the files derive, and one that they do not. -/
example (P : Predictor) {LG PG : Grammar} (hL : read lexerFile = some LG) (hP : read parserFile = some PG) :
    Accepted LG PG c!"addressList" c!"a <b@c>, g: \"d\" <e@[f]>;" ∧ ¬ Accepted LG PG c!"addressList" c!"joe" := by
  constructor
  · refine (C65_addresses P env0 (input := utf8 c!"a <b@c>, g: \"d\" <e@[f]>;") (by decide) (reads_iff.mpr (by decide +kernel)) hL hP).mp
      ⟨some [⟨b!"a", b!"b@c"⟩, ⟨b!"d", b!"e@[f]"⟩], ?_⟩
    eval_addr
  · intro h
    obtain ⟨_, h⟩ := (C65_addresses P env0 (input := utf8 c!"joe") (by decide) (reads_iff.mpr (by decide +kernel)) hL hP).mpr h
    rw [show parseAddressList P env0 (utf8 c!"joe") = .ok (none, some .syntaxError) by eval_addr] at h
    simp at h

example (P : Predictor) {LG PG : Grammar} (hL : read lexerFile = some LG) (hP : read parserFile = some PG) : Accepted LG PG c!"dateTime" c!"29 Feb 2000 00:00:00 +0000" :=
  (C65_dates P env0 (input := utf8 c!"29 Feb 2000 00:00:00 +0000") (by decide) (reads_iff.mpr (by decide +kernel)) hL hP).mp
    ⟨⟨951782400, ⟨b!"+0000", 0⟩⟩, by eval_date⟩

end Rfc5322.Props
