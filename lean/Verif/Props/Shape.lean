import Verif.Proofs.Breaks
import Verif.Proofs.Source
import Verif.Props.Core

/-!
# C21–C26, C28: what accepted inputs and their results look like

All statements are about every accepted input; `dropAstral text` is the text that counts (C08).
-/

namespace Rfc5322.Props

open Spec

/-- A successful call on a non-empty input returns the addresses of one reading (C06). -/
theorem reading {P : Predictor} {env : Env} {input : Bytes} {text : List Char} {slice}
    (hne : input ≠ []) (hr : ReadsAs input text) (h : parseAddressList P env input = .ok (slice, none)) :
    ∃ l, AddressList env (dropAstral text) l ∧ slice = if l = [] then none else some l :=
  C06_addresses_are_a_reading hne hr h

/-- … hence every address returned is in that reading. -/
theorem reading_some {P : Predictor} {env : Env} {input : Bytes} {text : List Char} {l : List Addr}
    (hne : input ≠ []) (hr : ReadsAs input text) (h : parseAddressList P env input = .ok (some l, none)) :
    AddressList env (dropAstral text) l := by
  obtain ⟨l', h1, h2⟩ := reading hne hr h
  split at h2
  · cases h2
  · injection h2 with h2; exact h2 ▸ h1

/-! ## C21: plain words are not addresses -/

theorem C21_plain_words_are_rejected (P : Predictor) (env : Env) {input : Bytes} {text : List Char} (hne : input ≠ [])
    (hr : ReadsAs input text) (h1 : '@' ∉ text) (h2 : '<' ∉ text) (h3 : ':' ∉ text) :
    parseAddressList P env input = .ok (none, some .syntaxError) := by
  rcases parseAddressList_spec P env hne with ⟨l, hl, h⟩ | ⟨_, h⟩
  · rw [tokens_reads hr] at hl
    have hm : ∀ {c}, c ∉ text → c ∉ dropAstral text := fun h h' => h ((List.mem_filter.mp h').1)
    have := addressList_marks hl
    have e1 := List.count_eq_zero.mpr (hm h1)
    have e2 := List.count_eq_zero.mpr (hm h2)
    unfold marks at this
    rcases addressList_colon hl with h | h
    · omega
    · exact absurd h (hm h3)
  · exact h

example : ReadsAs (encode c!"John Q. \"Public\" (x)") c!"John Q. \"Public\" (x)" ∧ '@' ∉ c!"John Q. \"Public\" (x)" ∧
    '<' ∉ c!"John Q. \"Public\" (x)" ∧ ':' ∉ c!"John Q. \"Public\" (x)" := ⟨C09_well_formed _, by decide⟩
/-- Each of the three characters can be the only one in an accepted input. -/
example (P : Predictor) : (∃ s, parseAddressList P env0 (encode c!"a@b") = .ok (s, none)) ∧
    (∃ s, parseAddressList P env0 (encode c!"<>") = .ok (s, none)) ∧
    (∃ s, parseAddressList P env0 (encode c!"a:") = .ok (s, none)) :=
  ⟨⟨some [⟨[], b!"a@b"⟩], by eval_addr⟩, ⟨some [⟨[], []⟩], by eval_addr⟩, ⟨none, by eval_addr⟩⟩

/-! ## C22: raw line ends -/

/-- In an accepted address list every CR and LF is either right after a backslash or part of a CRLF followed by white
space … -/
theorem C22_line_ends_in_addresses {P : Predictor} {env : Env} {input : Bytes} {text : List Char} {slice}
    (hr : ReadsAs input text) (h : parseAddressList P env input = .ok (slice, none)) {a b : List Char} {c : Char}
    (ht : dropAstral text = a ++ c :: b) (hc : c = '\r' ∨ c = '\n') :
    (∃ a', a = a' ++ ['\\']) ∨ (c = '\r' ∧ ∃ w b', b = '\n' :: w :: b' ∧ isWsp w) ∨
    (c = '\n' ∧ (∃ a', a = a' ++ ['\r']) ∧ ∃ w b', b = w :: b' ∧ isWsp w) := by
  have hne : input ≠ [] := by
    rintro rfl
    rw [← reads_runes hr] at ht
    cases a <;> cases ht
  obtain ⟨l, hl, _⟩ := reading hne hr h
  exact (neat_addressList hl).1 a c b ht hc

/-- … and the last character is neither. -/
theorem C22_addresses_ending_in_a_line_end (P : Predictor) (env : Env) {input : Bytes} {text a : List Char} {c : Char}
    (hr : ReadsAs input text) (ht : dropAstral text = a ++ [c]) (hc : c = '\r' ∨ c = '\n') :
    parseAddressList P env input = .ok (none, some .syntaxError) := by
  have hne : input ≠ [] := by
    rintro rfl
    rw [← reads_runes hr] at ht
    cases a <;> cases ht
  rcases parseAddressList_spec P env hne with ⟨l, hl, h⟩ | ⟨_, h⟩
  · rw [tokens_reads hr] at hl
    have := (neat_addressList hl).2 a c ht
    rcases hc with rfl | rfl
    · exact absurd rfl this.1
    · exact absurd rfl this.2
  · exact h

/-- The same for dates. -/
theorem C22_line_ends_in_dates {P : Predictor} {env : Env} {input : Bytes} {text : List Char} {time}
    (hr : ReadsAs input text) (h : parseDateTime P env input = .ok (time, none)) {a b : List Char} {c : Char}
    (ht : dropAstral text = a ++ c :: b) (hc : c = '\r' ∨ c = '\n') :
    (∃ a', a = a' ++ ['\\']) ∨ (c = '\r' ∧ ∃ w b', b = '\n' :: w :: b' ∧ isWsp w) ∨
    (c = '\n' ∧ (∃ a', a = a' ++ ['\r']) ∧ ∃ w b', b = w :: b' ∧ isWsp w) := by
  have hne : input ≠ [] := by
    rintro rfl
    rw [← reads_runes hr] at ht
    cases a <;> cases ht
  rcases parseDateTime_spec P env hne with ⟨f, hf, h'⟩ | ⟨_, h'⟩
  · rw [tokens_reads hr] at hf
    exact (neat_dateTime hf).1 a c b ht hc
  · rw [h] at h'; cases h'

theorem C22_dates_ending_in_a_line_end (P : Predictor) (env : Env) {input : Bytes} {text a : List Char} {c : Char}
    (hr : ReadsAs input text) (ht : dropAstral text = a ++ [c]) (hc : c = '\r' ∨ c = '\n') :
    parseDateTime P env input = .ok (zeroTime, some .syntaxError) := by
  have hne : input ≠ [] := by
    rintro rfl
    rw [← reads_runes hr] at ht
    cases a <;> cases ht
  rcases parseDateTime_spec P env hne with ⟨l, hl, h⟩ | ⟨_, h⟩
  · rw [tokens_reads hr] at hl
    have := (neat_dateTime hl).2 a c ht
    rcases hc with rfl | rfl
    · exact absurd rfl this.1
    · exact absurd rfl this.2
  · exact h

example (P : Predictor) : parseAddressList P env0 (encode c!"a\r\n @b (\\\n)") = .ok (some [⟨[], b!"a@b"⟩], none) := by
  eval_addr
example (P : Predictor) : parseAddressList P env0 (encode c!"a@b\r\n") = .ok (none, some .syntaxError) := by eval_addr
example (P : Predictor) : parseDateTime P env0 (encode c!"2 Jan 2006\r\n 15:04") =
    .ok (⟨1136214240, ⟨b!"UTC", 0⟩⟩, none) := by eval_date

/-! ## C23: nothing is invented, duplicated or reordered -/

/-- If the text has no `=?`, then some subsequence of its characters spells the names (without spaces) and addresses
returned, each name before its address, in the order of the results. -/
theorem C23_results_are_subsequences {P : Predictor} {env : Env} {input : Bytes} {text : List Char} {l : List Addr}
    (hne : input ≠ []) (hr : ReadsAs input text) (hn : ¬ ['=', '?'] <:+: dropAstral text)
    (h : parseAddressList P env input = .ok (some l, none)) :
    ∃ part : List Char, part.Sublist (dropAstral text) ∧
      encode part = l.flatMap fun a => a.name.filter (· != 32) ++ a.address := by
  obtain ⟨c, hc, h⟩ := addressList_from (reading_some hne hr h) hn
  exact ⟨c, hc, by rw [encode_eq]; exact h.symm⟩

/-- The separator spaces are needed: the name `a b` of `a\tb <c@d>` is not a subsequence of the text. -/
example (P : Predictor) : parseAddressList P env0 (encode c!"a\tb <c@d>,e@f") =
    .ok (some [⟨b!"a b", b!"c@d"⟩, ⟨[], b!"e@f"⟩], none) := by eval_addr
example : ¬ ['=', '?'] <:+: dropAstral c!"a\tb <c@d>,e@f" := by decide

/-! ## C24: shape of the addresses returned -/

/-- Every address is empty (and then `<>` occurs in the text) or consists of some local part, `@`, a dot-atom or domain
literal, and possibly a port. -/
theorem C24_shape_of_addresses {P : Predictor} {env : Env} {input : Bytes} {text : List Char} {l : List Addr}
    (hne : input ≠ []) (hr : ReadsAs input text) (h : parseAddressList P env input = .ok (some l, none)) :
    ∀ a ∈ l, (a.address = [] ∧ ['<', '>'] <:+: dropAstral text) ∨
      ∃ loc d p, a.address = loc ++ (b!"@" ++ (encode d ++ encode p)) ∧ (DotAtom d ∨ DomainLiteral d) ∧
        (p = [] ∨ ∃ n, p = ':' :: n ∧ n ≠ [] ∧ ∀ c ∈ n, isDigit c) := by
  refine addressList_all (q := fun t => t <:+: dropAstral text) ?_ ?_ (reading_some hne hr h) ⟨[], [], by simp⟩
  · intro t u h
    exact ⟨List.IsInfix.trans ⟨[], u, rfl⟩ h, List.IsInfix.trans ⟨t, [], by simp⟩ h⟩
  · intro t a hm ht
    rcases mailbox_shape hm with ⟨h1, x, y, rfl⟩ | ⟨loc, d, p, h1, h2⟩
    · exact .inl ⟨h1, List.IsInfix.trans ⟨x, y, by simp⟩ ht⟩
    · exact .inr ⟨loc, d, p, by rw [encode_eq, encode_eq]; exact h1, h2⟩

example (P : Predictor) : parseAddressList P env0 (encode c!"<>, \"\"@[1]:25") =
    .ok (some [⟨[], []⟩, ⟨[], b!"@[1]:25"⟩], none) := by eval_addr

/-! ## C25: number of results -/

theorem C25_number_of_results {P : Predictor} {env : Env} {input : Bytes} {text : List Char} {l : List Addr}
    (hne : input ≠ []) (hr : ReadsAs input text) (h : parseAddressList P env input = .ok (some l, none)) :
    1 ≤ l.length ∧ l.length ≤ text.count '@' + text.count '<' := by
  obtain ⟨l', hl, e⟩ := reading hne hr h
  split at e
  · cases e
  · rename_i hnil
    injection e with e
    subst e
    refine ⟨List.length_pos_iff.mpr hnil, Nat.le_trans (addressList_marks hl) ?_⟩
    unfold marks dropAstral
    exact Nat.add_le_add (List.filter_sublist.count_le _) (List.filter_sublist.count_le _)

/-- An accepted text without `:` has at least one address (the slice is nil only for empty groups). -/
theorem C25_at_least_one {P : Predictor} {env : Env} {input : Bytes} {text : List Char} {slice}
    (hne : input ≠ []) (hr : ReadsAs input text) (hc : ':' ∉ text) (h : parseAddressList P env input = .ok (slice, none)) :
    ∃ l, slice = some l ∧ 1 ≤ l.length := by
  obtain ⟨l, hl, e⟩ := reading hne hr h
  rcases addressList_colon hl with h' | h'
  · refine ⟨l, ?_, h'⟩
    rw [e, if_neg]
    rintro rfl; simp at h'
  · exact absurd ((List.mem_filter.mp h').1) hc

/-- The bound is reached, and a name may contain `@` so that it is not. -/
example (P : Predictor) : parseAddressList P env0 (encode c!"a@b,<>") = .ok (some [⟨[], b!"a@b"⟩, ⟨[], []⟩], none) := by
  eval_addr
example (P : Predictor) : parseAddressList P env0 (encode c!"a @ b <c@d>") = .ok (some [⟨b!"a@b", b!"c@d"⟩], none) := by
  eval_addr

/-! ## C26: only angle addresses have names -/

/-- Whatever comments it contains, an accepted text without `<` gives empty names only. -/
theorem C26_no_angle_no_name {P : Predictor} {env : Env} {input : Bytes} {text : List Char} {l : List Addr}
    (hne : input ≠ []) (hr : ReadsAs input text) (hl : '<' ∉ text) (h : parseAddressList P env input = .ok (some l, none)) :
    ∀ a ∈ l, a.name = [] := by
  refine addressList_all (q := fun t => '<' ∉ t) ?_ (fun t a => mailbox_noLess) (reading_some hne hr h)
    fun h => hl ((List.mem_filter.mp h).1)
  intro t u h
  simpa using h

example (P : Predictor) : parseAddressList P env0 (encode c!"(Joe) a@b (Joe)") = .ok (some [⟨[], b!"a@b"⟩], none) := by
  eval_addr

/-! ## C28: line breaks in results -/

/-- Whatever predicate the bytes of the text, the space and the bytes produced by the decoder satisfy, all bytes
returned satisfy it. -/
theorem C28_where_bytes_come_from {P : Predictor} {env : Env} {input : Bytes} {text : List Char} {l : List Addr}
    (p : UInt8 → Prop) (hsp : p 32) (hd : ∀ w b, env.decode w = some b → ∀ x ∈ b, p x)
    (hne : input ≠ []) (hr : ReadsAs input text) (ht : ∀ b ∈ encode (dropAstral text), p b)
    (h : parseAddressList P env input = .ok (some l, none)) :
    ∀ a ∈ l, (∀ b ∈ a.name, p b) ∧ ∀ b ∈ a.address, p b :=
  addressList_all (q := TextOk p) (fun _ _ h => textOk_append.mp h) (mailbox_bytes hsp hd) (reading_some hne hr h)
    fun b hb => ht b (by rw [encode_eq]; exact hb)

/-- Without CR and LF in the text and in what the decoder produces, there are none in the results. -/
theorem C28_no_line_breaks_in_results {P : Predictor} {env : Env} {input : Bytes} {text : List Char} {l : List Addr}
    (hd : ∀ w b, env.decode w = some b → 13 ∉ b ∧ 10 ∉ b)
    (hne : input ≠ []) (hr : ReadsAs input text) (h1 : '\r' ∉ text) (h2 : '\n' ∉ text)
    (h : parseAddressList P env input = .ok (some l, none)) :
    ∀ a ∈ l, (13 ∉ a.name ∧ 10 ∉ a.name) ∧ 13 ∉ a.address ∧ 10 ∉ a.address := by
  have key := C28_where_bytes_come_from (fun b => b ≠ 13 ∧ b ≠ 10) (by decide)
    (fun w b hb x hx => ⟨fun e => (hd w b hb).1 (e ▸ hx), fun e => (hd w b hb).2 (e ▸ hx)⟩) hne hr ?_ h
  · intro a ha
    obtain ⟨k1, k2⟩ := key a ha
    exact ⟨⟨fun h => (k1 _ h).1 rfl, fun h => (k1 _ h).2 rfl⟩, fun h => (k2 _ h).1 rfl, fun h => (k2 _ h).2 rfl⟩
  · intro b hb
    simp only [encode, List.mem_flatMap] at hb
    obtain ⟨c, hc, hb⟩ := hb
    replace hc := (List.mem_filter.mp hc).1
    rw [encodeRune_eq] at hb
    have hc2 : c.toNat < 1114112 := by have := char_valid c; omega
    have hbig : ∀ n : Nat, 13 < n → n < 256 → UInt8.ofNat n ≠ 13 ∧ UInt8.ofNat n ≠ 10 := by
      intro n h h'
      refine ⟨fun e => ?_, fun e => ?_⟩ <;>
        (have := congrArg UInt8.toNat e; rw [byteVal h'] at this; simp at this; omega)
    unfold encodeRune at hb
    dsimp only at hb
    split at hb
    · simp only [List.mem_singleton] at hb
      subst hb
      have hx : ∀ d : Char, d.toNat < 128 → UInt8.ofNat c.toNat = UInt8.ofNat d.toNat → c = d := by
        intro d hd e
        have := congrArg UInt8.toNat e
        rw [byteVal (by omega), byteVal (by omega)] at this
        rw [← Char.ofNat_toNat c, this, Char.ofNat_toNat]
      exact ⟨fun e => h1 (hx '\r' (by decide) e ▸ hc), fun e => h2 (hx '\n' (by decide) e ▸ hc)⟩
    · split at hb
      · simp only [List.mem_cons, List.not_mem_nil, or_false] at hb
        rcases hb with rfl | rfl <;> exact hbig _ (by omega) (by omega)
      · split at hb
        · simp only [List.mem_cons, List.not_mem_nil, or_false] at hb
          rcases hb with rfl | rfl | rfl <;> exact hbig _ (by omega) (by omega)
        · simp only [List.mem_cons, List.not_mem_nil, or_false] at hb
          rcases hb with rfl | rfl | rfl | rfl <;> exact hbig _ (by omega) (by omega)

example (P : Predictor) : parseAddressList P env0 (encode c!"\"J D\" <a@[ 1]>") =
    .ok (some [⟨b!"J D", b!"a@[ 1]"⟩], none) := by eval_addr

/-- Folded quoted strings and domain literals do put line breaks into results. -/
theorem C28_folding_is_kept (P : Predictor) :
    parseAddressList P env0 (encode c!"\"J\r\n D\" <a@[1\r\n 2]>") =
      .ok (some [⟨b!"J" ++ [13, 10] ++ b!" D", b!"a@[1" ++ [13, 10] ++ b!" 2]"⟩], none) := by eval_addr

end Rfc5322.Props
