import Verif.Proofs.Eval
import Verif.Proofs.Utf8
import Verif.Proofs.Preferred

/-!
# C01–C09: totality, errors, accepted languages, ambiguity, text encoding

Every theorem ranges over all conforming predictors `P` of the ANTLR runtime and all environments `env` (behaviour of
`CharsetReader`, current year).  Inputs are arbitrary byte strings.
-/

namespace Rfc5322.Props

open Spec

/-! ## C01: empty input -/

theorem C01_empty_address_list (P : Predictor) (env : Env) : parseAddressList P env [] = .ok (some [], none) := rfl

theorem C01_empty_date (P : Predictor) (env : Env) :
    parseDateTime P env [] = .ok (⟨-62135596800, ⟨b!"UTC", 0⟩⟩, none) := rfl

/-! ## C02: no panics -/

theorem C02_addresses_never_panic (P : Predictor) (env : Env) (input : Bytes) :
    ∃ slice err, parseAddressList P env input = .ok (slice, err) := by
  by_cases h : input = []
  · subst h; exact ⟨_, _, rfl⟩
  · rcases parseAddressList_spec P env h with ⟨l, _, h⟩ | ⟨_, h⟩ <;> exact ⟨_, _, h⟩

theorem C02_dates_never_panic (P : Predictor) (env : Env) (input : Bytes) :
    ∃ time err, parseDateTime P env input = .ok (time, err) := by
  by_cases h : input = []
  · subst h; exact ⟨_, _, rfl⟩
  · rcases parseDateTime_spec P env h with ⟨l, _, h⟩ | ⟨_, h⟩ <;> exact ⟨_, _, h⟩

/-! ## C03: a result or an error, and errors come from the syntax phase only -/

theorem C03_addresses_result_or_error {P : Predictor} {env : Env} {input : Bytes} {slice err}
    (h : parseAddressList P env input = .ok (slice, some err)) : slice = none ∧ err = .syntaxError := by
  by_cases hi : input = []
  · subst hi; cases h
  · rcases parseAddressList_spec P env hi with ⟨l, _, h'⟩ | ⟨_, h'⟩
    · rw [h] at h'; cases h'
    · rw [h] at h'; cases h'; exact ⟨rfl, rfl⟩

example (P : Predictor) : parseAddressList P env0 (utf8 c!"joe") = .ok (none, some .syntaxError) := by eval_addr

theorem C03_dates_result_or_error {P : Predictor} {env : Env} {input : Bytes} {time err}
    (h : parseDateTime P env input = .ok (time, some err)) : time = zeroTime ∧ err = .syntaxError := by
  by_cases hi : input = []
  · subst hi; cases h
  · rcases parseDateTime_spec P env hi with ⟨l, _, h'⟩ | ⟨_, h'⟩
    · rw [h] at h'; simp at h'
    · rw [h] at h'; simpa using h' 

example (P : Predictor) : parseDateTime P env0 (utf8 c!"2 Foo 2006 15:04") = .ok (zeroTime, some .syntaxError) := by
  eval_date

/-- Once the syntax phase has built a tree, walking it always succeeds with a result and without an error. -/
theorem C03_address_trees_never_fail {P : Predictor} {toks : List Char} {tree : List Tree}
    (h : descend P Gr.addressList toks = some tree) (env : Env) :
    ∃ l, walkList env tree Walker.init = .ok ⟨[], some (.addrs l), none⟩ := by
  rw [descend_eq_search P Gr.addressList (by decide)] at h
  obtain ⟨_, l, _, hw⟩ := addressList_sound (env := env) (search_sound h)
  exact ⟨l, hw⟩

example (P : Predictor) : ∃ tree, descend P Gr.addressList c!"a@b" = some tree := by
  rw [descend_eq_search P Gr.addressList (by decide), ← Option.isSome_iff_exists]
  decide +kernel

theorem C03_date_trees_never_fail {P : Predictor} {toks : List Char} {tree : List Tree}
    (h : descend P Gr.dateTime toks = some tree) (env : Env) :
    ∃ t, walkList env tree Walker.init = .ok ⟨[], some (.time t), none⟩ := by
  rw [descend_eq_search P Gr.dateTime (by decide)] at h
  have hd := search_sound h
  unfold Gr.dateTime at hd
  cases hd with
  | rule hd =>
    obtain ⟨_, g, hg, he⟩ := (endMeans_date (env := env)).sound hd
    obtain ⟨f, hf, hn⟩ := dateLang_iff hg
    exact ⟨_, walk_date he hn⟩

example (P : Predictor) : ∃ tree, descend P Gr.dateTime c!"2 Jan 2006 15:04" = some tree := by
  rw [descend_eq_search P Gr.dateTime (by decide), ← Option.isSome_iff_exists]
  decide +kernel

/-! ## C04: the language accepted by `ParseAddressList` -/

theorem C04_accepts_exactly_the_address_lists (P : Predictor) (env : Env) {input : Bytes} {text : List Char}
    (hne : input ≠ []) (hr : ReadsAs input text) :
    (∃ slice, parseAddressList P env input = .ok (slice, none)) ↔ ∃ l, AddressList env (dropAstral text) l := by
  rw [← tokens_reads hr]
  rcases parseAddressList_spec P env hne with ⟨l, hl, h⟩ | ⟨hl, h⟩
  · exact ⟨fun _ => ⟨l, hl⟩, fun _ => ⟨_, h⟩⟩
  · constructor
    · rintro ⟨s, hs⟩; rw [h] at hs; cases hs
    · rintro ⟨l, h'⟩; exact absurd h' (hl l)

/-- Whether an input is accepted does not depend on the decoder, the clock or the predictor. -/
theorem C04_acceptance_is_absolute (P P' : Predictor) (env env' : Env) (input : Bytes) :
    (∃ slice, parseAddressList P env input = .ok (slice, none)) ↔
    (∃ slice, parseAddressList P' env' input = .ok (slice, none)) := by
  have key : ∀ (P P' : Predictor) (env env' : Env), (∃ slice, parseAddressList P env input = .ok (slice, none)) →
      (∃ slice, parseAddressList P' env' input = .ok (slice, none)) := by
    rintro P P' env env' ⟨s, hs⟩
    by_cases hi : input = []
    · subst hi; exact ⟨_, rfl⟩
    rcases parseAddressList_spec P env hi with ⟨l, hl, h⟩ | ⟨_, h⟩
    · rcases parseAddressList_spec P' env' hi with ⟨l', _, h'⟩ | ⟨hn, _⟩
      · exact ⟨_, h'⟩
      · obtain ⟨ts, hd, _⟩ := addressList_complete hl
        obtain ⟨_, l', hl', _⟩ := addressList_sound (env := env') hd
        exact absurd hl' (hn l')
    · rw [h] at hs; cases hs
  exact ⟨key P P' env env', key P' P env' env⟩

/-- `,a@b` is an address list (with an empty first item). -/
example (env : Env) : ReadsAs (encode c!",a@b") c!",a@b" ∧
    AddressList env (dropAstral c!",a@b") [⟨[], b!"a@b"⟩] := by
  refine ⟨reads_iff.mpr (by decide +kernel), ?_⟩
  have ha : Atom c!"a" := ⟨by simp, by decide⟩
  have hb : Atom c!"b" := ⟨by simp, by decide⟩
  have e : OptCfws [] := ⟨[], [], .nil, .inl rfl, rfl⟩
  have h := AddressList.obs (env := env) (.cons e .nil)
    (.mailbox (.bare (.plain (.dotAtom e (.inl (.one ha)) e) (.dotAtom e (.inl (.one hb)) e)))) .nil
  exact h

/-! ## C05: the language accepted by `ParseDateTime` -/

theorem C05_accepts_exactly_the_date_times (P : Predictor) (env : Env) {input : Bytes} {text : List Char}
    (hne : input ≠ []) (hr : ReadsAs input text) :
    (∃ time, parseDateTime P env input = .ok (time, none)) ↔ ∃ f, DateTime env.nowYear (dropAstral text) f := by
  rw [← tokens_reads hr]
  rcases parseDateTime_spec P env hne with ⟨f, hf, h⟩ | ⟨hf, h⟩
  · exact ⟨fun _ => ⟨f, hf⟩, fun _ => ⟨_, h⟩⟩
  · constructor
    · rintro ⟨s, hs⟩; rw [h] at hs; cases hs
    · rintro ⟨l, h'⟩; exact absurd h' (hf l)

example (now : Int) : ReadsAs (encode c!"2 jAN 06 5:04") c!"2 jAN 06 5:04" ∧
    ∃ f, DateTime now (dropAstral c!"2 jAN 06 5:04") f := by
  refine ⟨reads_iff.mpr (by decide +kernel), ⟨2, 1, _, 5, 4, 0, _⟩, [], c!"2 ", c!"jAN", c!" 06", c!" 5", c!"04", [], [], [],
    .inl rfl, ?_, ?_, .two (a := c!" ") (x := c!"06") (b := []) ?_ ?_ ?_, ?_, ?_, .none, .none, ?_, rfl⟩
  · exact ⟨[], c!"2", c!" ", ⟨[], [], .nil, .inl rfl, rfl⟩, .inl ⟨rfl, by decide⟩,
      ⟨[], _, .nil, .inr (.plain (by simp) (by decide)), rfl⟩, rfl, rfl⟩
  · exact ⟨Nat.le_refl _, rfl⟩
  · exact ⟨[], _, .nil, .inr (.plain (by simp) (by decide)), rfl⟩
  · exact ⟨rfl, by decide⟩
  · exact ⟨[], [], .nil, .inl rfl, rfl⟩
  · exact ⟨c!" ", c!"5", [], ⟨[], _, .nil, .inr (.plain (by simp) (by decide)), rfl⟩, .inl ⟨rfl, by decide⟩,
      ⟨[], [], .nil, .inl rfl, rfl⟩, rfl, rfl⟩
  · exact ⟨[], c!"04", [], ⟨[], [], .nil, .inl rfl, rfl⟩, ⟨rfl, by decide⟩,
      ⟨[], [], .nil, .inl rfl, rfl⟩, rfl, rfl⟩
  · exact ⟨[], [], .nil, .inl rfl, rfl⟩

/-! ## C06: the addresses returned are a reading of the input -/

/-- The slice returned lists, in order, the addresses of one reading of the whole text; it is nil when there are
none (an empty group). -/
theorem C06_addresses_are_a_reading {P : Predictor} {env : Env} {input : Bytes} {text : List Char} {slice}
    (hne : input ≠ []) (hr : ReadsAs input text) (h : parseAddressList P env input = .ok (slice, none)) :
    ∃ l, AddressList env (dropAstral text) l ∧ slice = if l = [] then none else some l := by
  rw [← tokens_reads hr]
  rcases parseAddressList_spec P env hne with ⟨l, hl, h'⟩ | ⟨hl, h'⟩
  · rw [h] at h'
    injection h' with h'
    injection h' with h'
    refine ⟨l, hl, h'.trans ?_⟩
    unfold goSlice
    cases l <;> rfl
  · rw [h] at h'; cases h'

example (P : Predictor) : parseAddressList P env0 (utf8 c!"g: Joe <a@b>, c@d;") =
    .ok (some [⟨b!"Joe", b!"a@b"⟩, ⟨[], b!"c@d"⟩], none) := by eval_addr

example (P : Predictor) : parseAddressList P env0 (utf8 c!"g:;") = .ok (none, none) := by eval_addr

/-! ## C07: ambiguity -/

/-- The state of the prediction machinery never influences the result. -/
theorem C07_predictor_irrelevant (P P' : Predictor) (env : Env) (input : Bytes) :
    parseAddressList P env input = parseAddressList P' env input ∧
    parseDateTime P env input = parseDateTime P' env input :=
  ⟨by rw [evalAddresses_eq, evalAddresses_eq], by rw [evalDate_eq, evalDate_eq]⟩

/-- Whenever `ParseAddressList` succeeds, its result is computed from the one derivation of the whole text that takes,
from left to right, the earliest alternative and the longest repetition that can still be completed. -/
theorem C07_addresses_prefer_earlier_alternatives {P : Predictor} {env : Env} {input : Bytes} {text : List Char} {slice}
    (hne : input ≠ []) (hr : ReadsAs input text) (h : parseAddressList P env input = .ok (slice, none)) :
    ∃ tree l, Preferred (fun rest => rest = []) Gr.addressList (dropAstral text) tree [] ∧
      (∀ tree', Preferred (fun rest => rest = []) Gr.addressList (dropAstral text) tree' [] → tree' = tree) ∧
      walkList env tree Walker.init = .ok ⟨[], some (.addrs l), none⟩ ∧
      slice = if l = [] then none else some l := by
  rw [← tokens_reads hr]
  have h0 : input.length ≠ 0 := by simpa using hne
  have hw : Gr.addressList.wf = true := by decide
  unfold parseAddressList at h
  rw [if_neg h0, descend_eq_search P Gr.addressList hw] at h
  cases hs : search Gr.addressList (tokens input) with
  | none => rw [hs] at h; cases h
  | some ts =>
    rw [hs] at h
    obtain ⟨_, l, _, hl⟩ := addressList_sound (env := env) (search_sound hs)
    have hp := search_preferred hw hs
    refine ⟨ts, l, hp, fun ts' h' => (Preferred.unique hp h').1, hl, ?_⟩
    dsimp only at h
    rw [hl] at h
    injection h with h
    injection h with h
    rw [← h]
    unfold goSlice
    cases l <;> rfl

theorem C07_dates_prefer_earlier_alternatives {P : Predictor} {env : Env} {input : Bytes} {text : List Char} {time}
    (hne : input ≠ []) (hr : ReadsAs input text) (h : parseDateTime P env input = .ok (time, none)) :
    ∃ tree, Preferred (fun rest => rest = []) Gr.dateTime (dropAstral text) tree [] ∧
      (∀ tree', Preferred (fun rest => rest = []) Gr.dateTime (dropAstral text) tree' [] → tree' = tree) ∧
      walkList env tree Walker.init = .ok ⟨[], some (.time time), none⟩ := by
  rw [← tokens_reads hr]
  have h0 : input.length ≠ 0 := by simpa using hne
  have hw : Gr.dateTime.wf = true := by decide
  unfold parseDateTime at h
  rw [if_neg h0, descend_eq_search P Gr.dateTime hw] at h
  cases hs : search Gr.dateTime (tokens input) with
  | none => rw [hs] at h; cases h
  | some ts =>
    rw [hs] at h
    have hp := search_preferred hw hs
    refine ⟨ts, hp, fun ts' h' => (Preferred.unique hp h').1, ?_⟩
    obtain ⟨t, ht⟩ := C03_date_trees_never_fail (P := P) (env := env)
      (by rw [descend_eq_search P Gr.dateTime hw]; exact hs)
    dsimp only at h
    rw [ht] at h
    injection h with h
    injection h with h
    rw [ht, h]

/-- An ambiguous input: `ab <c@d>` could also be read as the two words `a` and `b`, giving the name `a b`.
The longest repetition wins. -/
example (P : Predictor) : parseAddressList P env0 (utf8 c!"ab <c@d>") = .ok (some [⟨b!"ab", b!"c@d"⟩], none) := by eval_addr

/-! ## C08: characters above U+FFFF -/

theorem C08_astral_characters_are_ignored (P : Predictor) (env : Env) {t u : List Char} (ht : t ≠ []) (hu : u ≠ [])
    (h : dropAstral t = dropAstral u) :
    parseAddressList P env (encode t) = parseAddressList P env (encode u) ∧
    parseDateTime P env (encode t) = parseDateTime P env (encode u) := by
  have h1 : (encode t).length ≠ 0 := by rw [encode_eq]; simpa [utf8_eq_nil] using ht
  have h2 : (encode u).length ≠ 0 := by rw [encode_eq]; simpa [utf8_eq_nil] using hu
  have h3 : tokens (encode t) = tokens (encode u) := by rw [tokens_encode, tokens_encode, h]
  constructor
  · unfold parseAddressList
    rw [if_neg h1, if_neg h2, h3]
  · unfold parseDateTime
    rw [if_neg h1, if_neg h2, h3]

/-- In particular, inserting one such character anywhere changes nothing. -/
theorem C08_inserting_one (P : Predictor) (env : Env) (t u : List Char) (c : Char) (hc : 0xFFFF < c.toNat)
    (hne : t ++ u ≠ []) :
    parseAddressList P env (encode (t ++ c :: u)) = parseAddressList P env (encode (t ++ u)) ∧
    parseDateTime P env (encode (t ++ c :: u)) = parseDateTime P env (encode (t ++ u)) :=
  C08_astral_characters_are_ignored P env (by simp) hne (by simp [dropAstral, bmp, Nat.not_le.mpr hc])

example (P : Predictor) : parseAddressList P env0 (encode (c!"a" ++ '😀' :: c!"@b")) =
    .ok (some [⟨[], b!"a@b"⟩], none) := by
  rw [(C08_inserting_one P env0 c!"a" c!"@b" '😀' (by decide) (by simp)).1]
  eval_addr

/-! ## C09: ill-formed UTF-8 -/

/-- Every byte string is read as exactly one text, … -/
theorem C09_reading_is_total_and_unique (input : Bytes) : ∃ text, ReadsAs input text ∧ ∀ text', ReadsAs input text' → text' = text := by
  obtain ⟨t, ht⟩ := reads_exists input.length input (Nat.le_refl _)
  exact ⟨t, ht, fun t' h' => by rw [← reads_runes h', reads_runes ht]⟩

/-- … well-formed UTF-8 as the text it encodes, … -/
theorem C09_well_formed (t : List Char) : ReadsAs (encode t) t := by
  rw [reads_iff, encode_eq, runes_utf8]

/-- … and an input is treated as the (well-formed) encoding of the text it is read as. -/
theorem C09_only_the_text_counts (P : Predictor) (env : Env) {input : Bytes} {text : List Char} (h : ReadsAs input text) :
    parseAddressList P env input = parseAddressList P env (encode text) ∧
    parseDateTime P env input = parseDateTime P env (encode text) := by
  have h1 : tokens input = tokens (encode text) := by rw [tokens_reads h, tokens_encode]
  have h2 : input.length = 0 ↔ (encode text).length = 0 := by
    rw [List.length_eq_zero_iff, List.length_eq_zero_iff, encode_eq, utf8_eq_nil, ← runes_eq_nil, reads_runes h]
  constructor
  · unfold parseAddressList
    simp only [h1, h2]
  · unfold parseDateTime
    simp only [h1, h2]

/-- A lone byte 0xFF in a display name comes back as U+FFFD. -/
example (P : Predictor) : parseAddressList P env0 (b!"J" ++ [0xFF] ++ b!" <a@b>") =
    .ok (some [⟨b!"J" ++ [0xEF, 0xBF, 0xBD], b!"a@b"⟩], none) := by eval_addr

end Rfc5322.Props
