import Verif.Props.Mime

/-!
# C49: obsolete local parts

`LocalWords` and `BareWords` (`Verif/Spec/Clear.lean`): words — atoms, quoted strings, runs of encoded words — separated by
periods, with white space and comments anywhere between; the value is that of the words, joined by periods.
-/

namespace Rfc5322.Props

open Spec

/-- An obsolete local part made of atoms and quoted strings, in an address of its own. -/
theorem C49_obsolete_local_parts (P : Predictor) (env : Env) {l d : List Char} {v : Bytes} (hl : BareWords l v) (hd : DotAtom d) (hn : NoMark d) :
    parseAddressList P env (encode (l ++ '@' :: d)) = .ok (some [⟨[], v ++ b!"@" ++ encode d⟩], none) := by
  have := parse_box (env := env) P (.bare (.plain (.words hl) (.dotAtom (a := []) (b := []) OptCfws.nil hd hn OptCfws.nil)))
  simpa [encode_eq] using this

/-- … in angle brackets, where encoded words are allowed, too. -/
theorem C49_in_angle_brackets (P : Predictor) (env : Env) {l d : List Char} {v : Bytes} (hl : LocalWords env l v) (hp : ¬ PlainDotAtom l)
    (hd : DotAtom d) :
    parseAddressList P env (encode ('<' :: (l ++ '@' :: d) ++ ['>'])) = .ok (some [⟨[], v ++ b!"@" ++ encode d⟩], none) := by
  have := parse_box (env := env) P (.angle (a := []) OptCfws.nil
    (.addr (.plain (.words hl hp) (.dotAtom (a := []) (b := []) OptCfws.nil hd OptCfws.nil)) OptCfws.nil))
  simpa [encode_eq] using this

theorem bareWords_witness : BareWords c!"joe (x) . \"b c\". d" b!"joe.b c.d" := by
  have h1 : BareWord c!"joe (x) " b!"joe" := .atom (a := []) (t := c!"joe") (b := c!" (x) ") OptCfws.nil (atom_of (by decide)) (by unfold NoMark; decide)
    ⟨c!" (x)", c!" ", .cons (f := c!" ") (t := c!"(x)") (r := []) (.inr (.plain (by simp) (by decide)))
      ⟨c!"x", [], .char (f := []) (c := 'x') (.inl rfl) (by decide) .nil, .inl rfl, rfl⟩ .nil, .inr (.plain (by simp) (by decide)), rfl⟩
  have h2 : BareWord c!" \"b c\"" b!"b c" := by
    have := quote_string (t := c!"b c") (by decide)
    exact .quoted (a := c!" ") (b := []) cfws_space.1 this OptCfws.nil
  have h3 : BareWord c!" d" b!"d" := .atom (a := c!" ") (t := c!"d") (b := []) cfws_space.1 (atom_of (by decide)) (by unfold NoMark; decide) OptCfws.nil
  exact .cons h1 (.cons h2 (.one h3))

example (P : Predictor) (env : Env) : parseAddressList P env (encode c!"joe (x) . \"b c\". d@e") = .ok (some [⟨[], b!"joe.b c.d@e"⟩], none) :=
  C49_obsolete_local_parts P env bareWords_witness (.inl (.one (atom_of (by decide)))) (by unfold NoMark; decide)

theorem not_plainDotAtom {x y : List Char} (hx : ∀ c ∈ x, isAtext c = true) (hne : x ≠ []) : ¬ PlainDotAtom (x ++ ' ' :: '.' :: y) := by
  rintro ⟨a, d, b, ha, hd, hb, e⟩
  obtain ⟨c, z, rfl⟩ := List.exists_cons_of_ne_nil hne
  obtain ⟨c', z', hd', hc'⟩ := dotAtom_cons hd
  obtain ⟨rfl, e⟩ := around_split (a := []) (b' := b) (r' := []) OptCfws.nil ha (.cons (atext_solid (hx c (by simp)))) ⟨c', z', hd', atext_solid hc'⟩
    (by simpa using e)
  have h1 := congrArg afterDots e
  rw [List.nil_append, afterDots_chars (fun c hc => by simp [dotChar, hx c hc]), afterDots_chars (dotAtom_chars hd)] at h1
  have h2 : afterDots (' ' :: '.' :: y) = '.' :: y := afterDots_cfws (b := [' ']) cfws_space.1 (by decide) (.inl (by simp))
  have h3 : afterDots b = [] := by
    have : b.dropWhile dotChar = b := by
      cases b with
      | nil => rfl
      | cons d b =>
        rw [List.dropWhile_cons_of_neg]
        intro hd
        exact cfws_ne (a := []) OptCfws.nil hb (dotChar_solid hd).1 rfl
    rw [afterDots, this]
    have := skip_cfws hb []
    simpa [skip, skipFrom] using this
  rw [h2, h3] at h1
  cases h1

theorem hexDigit_atext : ∀ n, n < 16 → isAtext (hexDigit n) = true ∧ hexDigit n ≠ '@' ∧ hexDigit n ≠ '(' := by decide

theorem qEncode_atext (bs : Bytes) : ∀ c ∈ qEncode bs, isAtext c = true := by
  induction bs with
  | nil => simp [qEncode]
  | cons b bs ih =>
    intro c hc
    simp only [qEncode, List.mem_cons] at hc
    have := b.toNat_lt
    rcases hc with rfl | rfl | rfl | hc
    · decide
    · exact (hexDigit_atext _ (by omega)).1
    · exact (hexDigit_atext _ (by omega)).1
    · exact ih c hc

theorem atext_safe {c : Char} (h : isAtext c = true) : c ≠ '@' ∧ c ≠ '(' :=
  ⟨by rintro rfl; exact absurd h (by decide), by rintro rfl; exact absurd h (by decide)⟩

/-- Every non-empty byte string is the beginning of the address returned for some printable ASCII input: line breaks,
commas, at signs and ill-formed UTF-8 included. -/
theorem C49_addresses_are_arbitrary (P : Predictor) (cr : CharsetReader) (year : Int) {s : Bytes} (h : s ≠ []) :
    ∃ t : List Char, (∀ c ∈ t, 0x20 ≤ c.toNat ∧ c.toNat < 0x7F) ∧
      parseAddressList P (goEnv cr year) (encode t) = .ok (some [⟨[], s ++ b!".b@c"⟩], none) := by
  have hne : qEncode s ≠ [] := by cases s with | nil => exact absurd rfl h | cons b bs => simp [qEncode]
  have hq := qText_qEncode s
  have hc : Carries c!"q" (qEncode s) s := .q (by decide) hq
  have he := carries_encodedWord (cs := c!"utf-8") (by simp) (by decide) hne hc
  have hdec : wordDecode cr (encode (Spec.encodedWord c!"utf-8" c!"q" (qEncode s))) = some s := by
    rw [encode_eq, wordDecode_carries cr (by simp) (by decide) hne hc, convert.eq_def]
    exact if_pos (by decide)
  have hat : ∀ c ∈ Spec.encodedWord c!"utf-8" c!"q" (qEncode s), isAtext c = true := by
    have : (Spec.encodedWord c!"utf-8" c!"q" (qEncode s)).all isAtext = true := by
      simp only [Spec.encodedWord, List.all_append, List.all_eq_true.mpr (qEncode_atext s)]
      decide
    exact List.all_eq_true.mp this
  have hw : LocalWords (goEnv cr year) (Spec.encodedWord c!"utf-8" c!"q" (qEncode s) ++ ' ' :: '.' :: c!"b")
      (decoded (goEnv cr year) (Spec.encodedWord c!"utf-8" c!"q" (qEncode s)) ++ (b!"." ++ b!"b")) := by
    have h1 : LocalWord (goEnv cr year) _ _ := .encoded (a := []) OptCfws.nil (.one he (fun c hc => atext_safe (hat c hc)) cfws_space.1)
    have h2 : LocalWord (goEnv cr year) _ _ := .atom (a := []) (t := c!"b") (b := []) OptCfws.nil (atom_of (by decide)) (by decide) OptCfws.nil
    simpa [show utf8 ['b'] = b!"b" from rfl] using LocalWords.cons h1 (.one h2)
  have hd : decoded (goEnv cr year) (Spec.encodedWord c!"utf-8" c!"q" (qEncode s)) = s := by
    rw [decoded, ← encode_eq]; simp only [goEnv, hdec, Option.getD_some]
  rw [hd] at hw
  have key := C49_in_angle_brackets P (goEnv cr year) hw (not_plainDotAtom hat (by simp [Spec.encodedWord])) (d := c!"c") (.inl (.one (atom_of (by decide))))
  refine ⟨_, ?_, key.trans ?_⟩
  · have hb : ∀ x : List Char, (∀ c ∈ x, 0x20 ≤ c.toNat ∧ c.toNat < 0x7F) ↔ x.all (fun c => decide (0x20 ≤ c.toNat) && decide (c.toNat < 0x7F)) = true := by simp
    rw [hb]
    have : (qEncode s).all (fun c => decide (0x20 ≤ c.toNat) && decide (c.toNat < 0x7F)) = true := by
      rw [← hb]
      intro c hc
      obtain ⟨_, h1, h2, _⟩ := ascii_of_encoded (qText_chars hq c hc)
      omega
    simp only [List.all_append, List.all_cons, Spec.encodedWord, this]
    decide
  · congr 5
    simp
    rfl

/-- A line break and a second address in front. -/
example (P : Predictor) (cr : CharsetReader) (year : Int) : ∃ t : List Char, (∀ c ∈ t, 0x20 ≤ c.toNat ∧ c.toNat < 0x7F) ∧
    parseAddressList P (goEnv cr year) (encode t) = .ok (some [⟨[], b!"x@y>,\r\n<z.b@c"⟩], none) := by
  exact C49_addresses_are_arbitrary P cr year (s := b!"x@y>,\r\n<z") (by simp)

/-- In a dot-atom and in a quoted string encoded words are left alone. -/
example (P : Predictor) : parseAddressList P (goEnv none 2024) (encode c!"=?utf-8?q?x?=@b") = .ok (some [⟨[], b!"=?utf-8?q?x?=@b"⟩], none) :=
  C10_bare_address_verbatim P _ (l := c!"=?utf-8?q?x?=") (d := c!"b") (.inl (.one (atom_of (by decide)))) (.inl (.one (atom_of (by decide))))

end Rfc5322.Props
