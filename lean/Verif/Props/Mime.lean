import Verif.Proofs.Mime
import Verif.Proofs.DecodeLocal
import Verif.Props.Clear

/-!
# C42–C46: encoded words with the actual decoder

`goEnv cr year` is the environment in which the code runs when the package variable `CharsetReader` is `cr`
(`none` = nil); the encodings are specified in `Verif/Spec/Rfc2047.lean`.
-/

namespace Rfc5322.Props

open Spec

/-! ## C42: UTF-8 names in the Q and B encodings -/

/-- `Utf8Word bs w`: `w` is an encoded word with charset utf-8 that carries the bytes `bs`. -/
def Utf8Word (bs : Bytes) (w : List Char) : Prop :=
  ∃ cs en tx, Spells cs c!"utf-8" ∧ Carries en tx bs ∧ tx ≠ [] ∧ w = Spec.encodedWord cs en tx

/-- A name written as UTF-8 encoded words, in either encoding, cut anywhere (even within a character): the name is
the concatenation of the bytes carried, whatever the `CharsetReader`. -/
theorem C42_utf8_names (P : Predictor) (cr : CharsetReader) (year : Int) {ws : List (Bytes × List Char × List Char)} {l d : List Char}
    (hws : ∀ p ∈ ws, Utf8Word p.1 p.2.1 ∧ OptCfws p.2.2) (hl : DotAtom l) (hd : DotAtom d) :
    parseAddressList P (goEnv cr year) (encode (ws.flatMap (fun p => p.2.1 ++ p.2.2) ++ ('<' :: (l ++ '@' :: d) ++ ['>']))) =
      .ok (some [⟨ws.flatMap (·.1), encode (l ++ '@' :: d)⟩], none) := by
  have dec : ∀ p ∈ ws, EncodedWord p.2.1 ∧ wordDecode cr (encode p.2.1) = some p.1 := by
    intro p hp
    obtain ⟨⟨cs, en, tx, h1, h2, h3, h4⟩, _⟩ := hws p hp
    have hc : cs ≠ [] := by rintro rfl; cases h1
    have ht := spells_token h1 (by decide)
    refine ⟨h4 ▸ carries_encodedWord hc ht h3 h2, ?_⟩
    rw [h4, encode_eq, wordDecode_carries cr hc ht h3 h2, convert.eq_def]
    exact if_pos (spells_lower h1 (by decide))
  have h := C20_encoded_words P (goEnv cr year) (ws := ws.map (·.2)) (l := l) (d := d) (by
    intro p hp
    obtain ⟨q, hq, rfl⟩ := List.mem_map.mp hp
    exact ⟨(dec q hq).1, (hws q hq).2⟩) hl hd
  rw [List.flatMap_map, List.flatMap_map] at h
  rw [h]
  congr 5
  have : ∀ (ws : List (Bytes × List Char × List Char)), (∀ p ∈ ws, wordDecode cr (encode p.2.1) = some p.1) →
      (ws.flatMap fun p => ((goEnv cr year).decode (encode p.2.1)).getD (encode p.2.1)) = ws.flatMap (·.1) := by
    intro ws h
    induction ws with
    | nil => rfl
    | cons p ws ih =>
      rw [List.flatMap_cons, List.flatMap_cons, ih fun q hq => h q (by simp [hq])]
      simp only [goEnv, h p (by simp), Option.getD_some]
  exact this ws fun p hp => (dec p hp).2

/-- The two halves of `é` in one encoding each. -/
example : Utf8Word b!"C" c!"=?UTF-8?b?Qw==?=" ∧ Utf8Word [0x61, 0x20, 0xC3] c!"=?utf-8?Q?a_=c3?=" ∧ Utf8Word [0xA9] c!"=?uTf-8?B?qQ==?=" := by
  refine ⟨⟨c!"UTF-8", c!"b", _, by decide, .b (bs := b!"C") (by decide), by decide, rfl⟩,
    ⟨c!"utf-8", c!"Q", c!"a_=c3", by decide, .q (by decide) ?_, by simp, rfl⟩,
    ⟨c!"uTf-8", c!"B", _, by decide, .b (bs := [0xA9]) (by decide), by decide, rfl⟩⟩
  exact .char (c := 'a') (by decide) (by decide) (by decide) (.space (.hex (b := 0xC3) (.inr (by decide)) (.inr (by decide)) .nil))

/-! ## C43: names are arbitrary byte strings -/

/-- Every non-empty byte string is the name of a printable ASCII input: line breaks, control characters and ill-formed
UTF-8 included. -/
theorem C43_names_are_arbitrary (P : Predictor) (cr : CharsetReader) (year : Int) {name : Bytes} (h : name ≠ []) :
    ∃ t : List Char, (∀ c ∈ t, 0x20 < c.toNat ∧ c.toNat < 0x7F) ∧
      parseAddressList P (goEnv cr year) (encode t) = .ok (some [⟨name, b!"a@b"⟩], none) := by
  have hne : qEncode name ≠ [] := by cases name with | nil => exact absurd rfl h | cons b bs => simp [qEncode]
  have hq := qText_qEncode name
  have key := C42_utf8_names P cr year (ws := [(name, Spec.encodedWord c!"utf-8" c!"q" (qEncode name), [])]) (l := c!"a") (d := c!"b")
    (by
      intro p hp
      simp only [List.mem_cons, List.not_mem_nil, or_false] at hp
      subst hp
      exact ⟨⟨_, _, _, by decide, .q (by decide) hq, hne, rfl⟩, OptCfws.nil⟩)
    (.inl (.one (atom_of (by decide)))) (.inl (.one (atom_of (by decide))))
  refine ⟨_, ?_, key.trans ?_⟩
  · have hb : ∀ x : List Char, (∀ c ∈ x, 0x20 < c.toNat ∧ c.toNat < 0x7F) ↔ x.all (fun c => decide (0x20 < c.toNat) && decide (c.toNat < 0x7F)) = true := by simp
    rw [hb]
    simp only [List.flatMap_cons, List.flatMap_nil, List.append_nil, List.all_append, Spec.encodedWord]
    have : (qEncode name).all (fun c => decide (0x20 < c.toNat) && decide (c.toNat < 0x7F)) = true := by
      rw [← hb]
      intro c hc
      obtain ⟨_, h1, h2, _⟩ := ascii_of_encoded (qText_chars hq c hc)
      omega
    rw [this]
    decide
  · simp only [List.flatMap_cons, List.flatMap_nil, List.append_nil]
    rfl

example (P : Predictor) (cr : CharsetReader) (year : Int) : ∃ t : List Char, (∀ c ∈ t, 0x20 < c.toNat ∧ c.toNat < 0x7F) ∧
    parseAddressList P (goEnv cr year) (encode t) = .ok (some [⟨b!"x\r\nBcc: y@z", b!"a@b"⟩], none) :=
  C43_names_are_arbitrary P cr year (by simp)

/-! ## C44: other charsets and encodings -/

/-- One encoded word in front of `<l@d>`: the name is what the decoder makes of it. -/
theorem one_word (P : Predictor) (env : Env) {w g l d : List Char} (hw : EncodedWord w) (hg : OptCfws g) (hl : DotAtom l) (hd : DotAtom d) :
    parseAddressList P env (encode (w ++ (g ++ ('<' :: (l ++ '@' :: d) ++ ['>'])))) =
      .ok (some [⟨(env.decode (encode w)).getD (encode w), encode (l ++ '@' :: d)⟩], none) := by
  have := C20_encoded_words P env (ws := [(w, g)]) (l := l) (d := d) (by simpa using ⟨hw, hg⟩) hl hd
  simpa using this

section
variable (P : Predictor) (cr : CharsetReader) (year : Int) {cs en tx g l d : List Char} {bs : Bytes}

/-- iso-8859-1: every byte is a code point. -/
theorem C44_latin1 (hcs : Spells cs c!"iso-8859-1") (hc : Carries en tx bs) (ht : tx ≠ []) (hg : OptCfws g) (hl : DotAtom l) (hd : DotAtom d) :
    parseAddressList P (goEnv cr year) (encode (Spec.encodedWord cs en tx ++ (g ++ ('<' :: (l ++ '@' :: d) ++ ['>'])))) =
      .ok (some [⟨encode (bs.map fun b => Char.ofNat b.toNat), encode (l ++ '@' :: d)⟩], none) := by
  have hne : cs ≠ [] := by rintro rfl; cases hcs
  have hk := spells_token hcs (by decide)
  rw [one_word P _ (carries_encodedWord hne hk ht hc) hg hl hd]
  simp only [goEnv]
  rw [encode_eq, wordDecode_carries cr hne hk ht hc, convert.eq_def, spells_lower hcs (by decide), if_neg (by decide), if_pos (by decide), Option.getD_some, encode_eq, encode_eq,
    show utf8 (bs.map fun b => Char.ofNat b.toNat) = bs.flatMap fun b => encodeRune (Char.ofNat b.toNat) by rw [utf8, List.flatMap_map]]

/-- us-ascii: bytes above 127 become U+FFFD. -/
theorem C44_ascii (hcs : Spells cs c!"us-ascii") (hc : Carries en tx bs) (ht : tx ≠ []) (hg : OptCfws g) (hl : DotAtom l) (hd : DotAtom d) :
    parseAddressList P (goEnv cr year) (encode (Spec.encodedWord cs en tx ++ (g ++ ('<' :: (l ++ '@' :: d) ++ ['>'])))) =
      .ok (some [⟨encode (bs.map fun b => if b.toNat < 128 then Char.ofNat b.toNat else '\uFFFD'), encode (l ++ '@' :: d)⟩], none) := by
  have hne : cs ≠ [] := by rintro rfl; cases hcs
  have hk := spells_token hcs (by decide)
  rw [one_word P _ (carries_encodedWord hne hk ht hc) hg hl hd]
  simp only [goEnv]
  have e : utf8 (bs.map fun b => if b.toNat < 128 then Char.ofNat b.toNat else '\uFFFD') =
      bs.flatMap fun b => if b.toNat ≥ 0x80 then encodeRune runeError else [b] := by
    rw [utf8, List.flatMap_map]
    congr 1
    funext b
    by_cases hb : b.toNat < 128
    · rw [if_pos hb, if_neg (by omega)]
      have : (Char.ofNat b.toNat).toNat = b.toNat := by
        have key : ∀ n < 128, (Char.ofNat n).toNat = n := by decide
        exact key _ hb
      rw [encodeRune_byteOf (by omega), byteOf, this]
      simp
    · rw [if_neg hb, if_pos (by omega)]; rfl
  rw [encode_eq, wordDecode_carries cr hne hk ht hc, convert.eq_def, spells_lower hcs (by decide), if_neg (by decide), if_neg (by decide), if_pos (by decide),
    Option.getD_some, encode_eq, encode_eq, e]

/-- Any other charset: the `CharsetReader` decides; it is given the name of the charset in lower case and the bytes carried.
Without a reader, or if it fails, the name is the encoded word as written. -/
theorem C44_other_charsets (hne : cs ≠ []) (hk : ∀ c ∈ cs, isTokenChar c) (hn : ¬ KnownCharset cs) (hc : Carries en tx bs) (ht : tx ≠ [])
    (hg : OptCfws g) (hl : DotAtom l) (hd : DotAtom d) :
    parseAddressList P (goEnv cr year) (encode (Spec.encodedWord cs en tx ++ (g ++ ('<' :: (l ++ '@' :: d) ++ ['>'])))) =
      .ok (some [⟨match cr with
          | none => encode (Spec.encodedWord cs en tx)
          | some f => (f (encode (cs.map Char.toLower)) bs).getD (encode (Spec.encodedWord cs en tx)),
        encode (l ++ '@' :: d)⟩], none) := by
  rw [one_word P _ (carries_encodedWord hne hk ht hc) hg hl hd]
  simp only [goEnv]
  have ha := token_ascii hk
  have n1 : toLower (utf8 cs) ≠ b!"utf-8" := fun h => hn (.inl (lower_spells ha (by unfold Ascii; decide) h))
  have n2 : toLower (utf8 cs) ≠ b!"iso-8859-1" := fun h => hn (.inr (.inl (lower_spells ha (by unfold Ascii; decide) h)))
  have n3 : toLower (utf8 cs) ≠ b!"us-ascii" := fun h => hn (.inr (.inr (lower_spells ha (by unfold Ascii; decide) h)))
  have e : wordDecode cr (encode (Spec.encodedWord cs en tx)) = match cr with | none => none | some f => f (encode (cs.map Char.toLower)) bs := by
    rw [encode_eq, wordDecode_carries cr hne hk ht hc, convert.eq_def, if_neg n1, if_neg n2, if_neg n3, toLower_ascii_utf8 ha, encode_eq]
    cases cr <;> rfl
  rw [e]
  cases cr <;> rfl

/-- Unknown encodings, and texts that are not Q-encoded: the name is the encoded word as written. -/
theorem C44_undecodable (hne : cs ≠ []) (hk : ∀ c ∈ cs, isTokenChar c) (hen : en ≠ []) (hek : ∀ c ∈ en, isTokenChar c) (ht : tx ≠ [])
    (htk : ∀ c ∈ tx, isEncodedChar c) (hb : ¬ Spells en c!"b") (hq : Spells en c!"q" → ∀ bs, ¬ QText bs tx)
    (hg : OptCfws g) (hl : DotAtom l) (hd : DotAtom d) :
    parseAddressList P (goEnv cr year) (encode (Spec.encodedWord cs en tx ++ (g ++ ('<' :: (l ++ '@' :: d) ++ ['>'])))) =
      .ok (some [⟨encode (Spec.encodedWord cs en tx), encode (l ++ '@' :: d)⟩], none) := by
  have hw : EncodedWord (Spec.encodedWord cs en tx) := ⟨cs, en, tx, hne, hen, ht, hk, hek, htk, by simp [Spec.encodedWord]⟩
  rw [one_word P _ hw hg hl hd]
  have e : wordDecode cr (encode (Spec.encodedWord cs en tx)) = none := by
    rw [encode_eq, wordDecode_word cr hne hen ht hk hek htk]
    match en, hen with
    | [e], _ =>
      have ha := (ascii_of_token (hek e (by simp))).1
      have nb : e.toLower ≠ 'b' := fun h => hb (by simp [Spells, h])
      simp only
      by_cases h : e.toLower = 'q'
      · rw [decodeText_q h ha]
        cases hx : qDecode (utf8 tx) with
        | none => rfl
        | some bs => exact absurd (qDecode_sound htk hx) (hq (by simp [Spells, h]) bs)
      · rw [decodeText_other ha h nb]; rfl
    | _ :: _ :: _, _ => rfl
  simp only [goEnv, e, Option.getD_none]
end

example : Spells c!"ISO-8859-1" c!"iso-8859-1" ∧ Carries c!"Q" c!"=E9" [0xE9] ∧ ¬ KnownCharset c!"koi8-r" ∧ (∀ c ∈ c!"koi8-r", isTokenChar c) ∧
    ¬ Spells c!"x" c!"b" ∧ ¬ Spells c!"x" c!"q" :=
  ⟨by decide, .q (by decide) (.hex (b := 0xE9) (.inl (by decide)) (.inl (by decide)) .nil), by unfold KnownCharset Spells; decide, by decide,
    by unfold Spells; decide, by unfold Spells; decide⟩

/-! ## C45: when the `CharsetReader` matters -/

/-- The result depends on the decoder only through what it says about the encoded words that occur in the text. -/
theorem C45_decoder_only_sees_encoded_words (P : Predictor) {env env' : Env} {input : Bytes} {text : List Char} (hr : ReadsAs input text)
    (h : ∀ w, w <:+: dropAstral text → EncodedWord w → env.decode (encode w) = env'.decode (encode w)) :
    parseAddressList P env input = parseAddressList P env' input :=
  parseAddressList_words P fun w h1 h2 => by
    rw [tokens_reads hr] at h1
    rw [← encode_eq]
    exact h w h1 h2

/-- Without `=?` in the text the `CharsetReader` does not matter. -/
theorem C45_no_encoded_word (P : Predictor) {env env' : Env} {input : Bytes} {text : List Char} (hr : ReadsAs input text)
    (h : ¬ c!"=?" <:+: dropAstral text) : parseAddressList P env input = parseAddressList P env' input := by
  refine C45_decoder_only_sees_encoded_words P hr fun w hw he => absurd ?_ h
  obtain ⟨cs, en, tx, _, _, _, _, _, _, rfl⟩ := he
  exact List.IsInfix.trans (List.IsPrefix.isInfix ⟨_, rfl⟩) hw

/-- Nor does it matter if all encoded words in the text have charset utf-8, iso-8859-1 or us-ascii. -/
theorem C45_known_charsets (P : Predictor) (cr cr' : CharsetReader) (year : Int) {input : Bytes} {text : List Char} (hr : ReadsAs input text)
    (h : ∀ cs en tx, Spec.encodedWord cs en tx <:+: dropAstral text → (∀ c ∈ cs, isTokenChar c) → KnownCharset cs) :
    parseAddressList P (goEnv cr year) input = parseAddressList P (goEnv cr' year) input := by
  refine C45_decoder_only_sees_encoded_words P hr fun w hw he => ?_
  obtain ⟨cs, en, tx, h1, h2, h3, h4, h5, h6, e⟩ := he
  have e : w = Spec.encodedWord cs en tx := by rw [e]; simp [Spec.encodedWord]
  subst e
  have hk := h cs en tx hw h4
  simp only [goEnv]
  rw [encode_eq, wordDecode_word cr h1 h2 h3 h4 h5 h6, wordDecode_word cr' h1 h2 h3 h4 h5 h6]
  match en, h2 with
  | [e], _ =>
    simp only
    cases decodeText (byteOf e) (utf8 tx) with
    | none => rfl
    | some bs => exact convert_known cr cr' hk bs
  | _ :: _ :: _, _ => rfl

/-- With another charset it does matter. -/
example (P : Predictor) : parseAddressList P (goEnv none 2024) (encode c!"=?x?q?=E9?= <a@b>") = .ok (some [⟨b!"=?x?q?=E9?=", b!"a@b"⟩], none) ∧
    parseAddressList P (goEnv (some fun _ c => if c = [0xE9] then some b!"ok" else none) 2024) (encode c!"=?x?q?=E9?= <a@b>") = .ok (some [⟨b!"ok", b!"a@b"⟩], none) :=
  ⟨by eval_addr, by eval_addr⟩

end Rfc5322.Props
