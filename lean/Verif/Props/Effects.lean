import Verif.Proofs.Effects
import Verif.Proofs.RfcNames
import Verif.Props.Core
import Verif.Props.Shape
import Verif.Props.Mime

/-!
# C74: when, and with what, the `CharsetReader` is called
-/

namespace Rfc5322.Props

open Spec

variable {σ : Type}

/-- The walk cannot fail by itself, whatever the values of the words. -/
theorem runVals_ok {input : Bytes} {ts} (hne : input.length ≠ 0) (hs : search Gr.addressList (tokens input) = some ts) (us : List Bytes)
    (hu : us.length = (wordsOf (eventsList ts)).length) : ∃ w, runVals (eventsList ts) us Walker.init = .ok w := by
  obtain ⟨P⟩ := Predictor.nonempty
  have hy := search_no_year hs
  have := Fn.alone_eq .addresses P env0 input hne
  rw [show Fn.rule .addresses = Gr.addressList from rfl, hs] at this
  dsimp only [Fn.result] at this
  rw [runEvents_vals (by intro p hp; obtain ⟨e, he, rfl⟩ := List.mem_map.mp hp; exact hy e he), valsOf_withEnv,
    show (withEnv env0 (eventsList ts)).map (·.1) = eventsList ts by simp [withEnv, Function.comp_def]] at this
  have hsim := runVals_sim (eventsList ts) us ((wordsOf (eventsList ts)).map (wordValue env0)) (by simp [hu]) (Walker.Sim.refl Walker.init)
  cases e1 : runVals (eventsList ts) us Walker.init with
  | ok w => exact ⟨w, rfl⟩
  | error p =>
    obtain ⟨l, err, h⟩ := C02_addresses_never_panic P env0 input
    have e2 : runVals (eventsList ts) ((wordsOf (eventsList ts)).map (wordValue env0)) Walker.init = .error p := by
      cases e2 : runVals (eventsList ts) ((wordsOf (eventsList ts)).map (wordValue env0)) Walker.init with
      | ok w => rw [e1, e2] at hsim; cases hsim
      | error q => rw [e1, e2] at hsim; cases hsim; rfl
    unfold wordValue at e2
    rw [e2, Fn.alone, h] at this
    cases this

/-- For every input of `ParseAddressList` there are certain encoded words, found in the text in this order outside of comments, quoted strings and domain literals, and a function `f` of their values such that

* with a `CharsetReader` without side effects, the result is `f` of what the words stand for;
* with any `CharsetReader`, which may be replaced in the meantime (by itself), it is called for those of the words that ask for it, once for each and in this order, until it panics or the words are finished.  If it panics, the panic ends
  the call, after which the reader is not called again; otherwise the result is `f` of the values. -/
theorem C74_calls (input : Bytes) : ∃ (words : List (List Char)) (f : List Bytes → Obs),
    (∀ text, ReadsAs input text → words = [] ∨ Found words (dropAstral text) []) ∧
    (∀ (P : Predictor) (cr : CharsetReader) (year : Int), .addresses (parseAddressList P (goEnv cr year) input) = f ((words.map encode).map (value cr))) ∧
    ∀ {σ : Type} (P : Predictor) (R : ReaderVar σ) (year : Int) (s : σ), ∃ values s', Answers R (words.map encode) s values s' ∧
      Fn.addresses.runWith P R year input s = (values.map f, s') := by
  by_cases hne : input.length = 0
  · have hi : input = [] := List.length_eq_zero_iff.mp hne
    subst hi
    exact ⟨[], fun _ => Fn.addresses.empty, fun _ _ => .inl rfl, fun _ _ _ => rfl, fun _ _ _ s => ⟨some [], s, .nil, rfl⟩⟩
  cases hs : search Gr.addressList (tokens input) with
  | none =>
    refine ⟨[], fun _ => Fn.addresses.syntaxError, fun _ _ => .inl rfl, fun P cr year => ?_, fun P R year s => ⟨some [], s, .nil, ?_⟩⟩
    · have := Fn.alone_eq .addresses P (goEnv cr year) input hne
      rw [show Fn.rule .addresses = Gr.addressList from rfl, hs] at this
      exact this
    · rw [Fn.runWith, if_neg hne, show Fn.rule .addresses = Gr.addressList from rfl, descend_eq_search P Gr.addressList (by decide), hs]
      rfl
  | some ts =>
    have hy := search_no_year hs
    obtain ⟨ws, hf, hw⟩ := derives_groups (search_sound hs) (by decide +kernel) (.inl rfl)
    have henc : ws.map encode = ws.map utf8 := List.map_congr_left fun w _ => encode_eq w
    refine ⟨ws, fun vs => match runVals (eventsList ts) vs Walker.init with
        | .error p => Fn.addresses.panic p
        | .ok w => Fn.addresses.finish w, fun text h => ?_, fun P cr year => ?_, fun P R year s => ?_⟩
    · have : tokens input = dropAstral text := by rw [tokens_eq, reads_runes h]; rfl
      rw [← this]
      right
      exact hf
    · have := Fn.alone_eq .addresses P (goEnv cr year) input hne
      rw [show Fn.rule .addresses = Gr.addressList from rfl, hs] at this
      refine this.trans ?_
      simp only [Fn.result]
      rw [runEvents_vals (by intro p hp; obtain ⟨e, he, rfl⟩ := List.mem_map.mp hp; exact hy e he), valsOf_withEnv,
        show (withEnv (goEnv cr year) (eventsList ts)).map (·.1) = eventsList ts by simp [withEnv, Function.comp_def], hw, henc]
      rfl
    · obtain ⟨vs, s', h1, h2⟩ := walkWith_answers R year (eventsList ts) Walker.init s hy (runVals_ok hne hs)
      rw [hw, ← henc] at h1
      refine ⟨vs, s', h1, ?_⟩
      rw [Fn.runWith, if_neg hne, show Fn.rule .addresses = Gr.addressList from rfl, descend_eq_search P Gr.addressList (by decide), hs]
      dsimp only
      rw [h2]
      cases vs with
      | none => rfl
      | some us =>
        dsimp only [Option.map_some]
        cases runVals (eventsList ts) us Walker.init <;> rfl

deriving instance DecidableEq for Obs

/-- A `CharsetReader` that writes down what it was asked for, and answers with the bytes, except that it panics for the character set z. -/
def logging : Reader (List (Bytes × Bytes)) := fun charset content log =>
  (if charset = b!"z" then none else some (some content), log ++ [(charset, content)])

/-- The word in UTF-8 is none of its business; nor are the words in the comment and in the quoted string. -/
example (P : Predictor) : Fn.addresses.runWith P (fun _ => some logging) 2024 (utf8 c!"(=?x?q?0?=) =?X?q?1?= =?utf-8?q?2?= =?y?b?Mw==?= <a@b>, \"=?x?q?4?=\" =?x?q?5?= <c@d>") [] =
    (some (.addresses (.ok (some [⟨b!"123", b!"a@b"⟩, ⟨b!"=?x?q?4?= 5", b!"c@d"⟩], none))), [(b!"x", b!"1"), (b!"y", b!"3"), (b!"x", b!"5")]) := by
  rw [Fn.runWith, descend_eq_search P _ (by decide)]
  decide +kernel

/-- A panic at the second word. -/
example (P : Predictor) : Fn.addresses.runWith P (fun _ => some logging) 2024 (utf8 c!"=?x?q?1?= =?z?q?2?= =?y?q?3?= <a@b>") [] = (none, [(b!"x", b!"1"), (b!"z", b!"2")]) := by
  rw [Fn.runWith, descend_eq_search P _ (by decide)]
  decide +kernel

/-- A reader that uninstalls itself (the state says whether it is installed). -/
example (P : Predictor) : Fn.addresses.runWith P (fun s : Bool => if s then some fun _ _ _ => (some (some b!"y"), false) else none) 2024 (utf8 c!"=?x?q?1?= =?x?q?2?= <a@b>") true =
    (some (.addresses (.ok (some [⟨b!"y=?x?q?2?=", b!"a@b"⟩], none))), false) := by
  rw [Fn.runWith, descend_eq_search P _ (by decide)]
  decide +kernel

/-- If `ParseAddressList` rejects its input, the `CharsetReader` is not called: not even for words in front of the error. -/
theorem C74_rejected (P : Predictor) {input : Bytes} {env : Env} {l err} (h : parseAddressList P env input = .ok (l, some err))
    (R : ReaderVar σ) (year : Int) (s : σ) : Fn.addresses.runWith P R year input s = (some (.addresses (.ok (l, some err))), s) := by
  by_cases hne : input.length = 0
  · rw [parseAddressList, if_pos hne] at h
    cases h
  have := Fn.alone_eq .addresses P env input hne
  rw [Fn.alone, h] at this
  rw [Fn.runWith, if_neg hne, descend_eq_search P _ (by decide)]
  cases hs : search (Fn.rule .addresses) (tokens input) with
  | none => rw [hs] at this; dsimp only at this ⊢; rw [this]
  | some ts =>
    exfalso
    rw [hs] at this
    obtain ⟨l', hl⟩ := C03_address_trees_never_fail (P := P) (toks := tokens input) (tree := ts) (by rw [descend_eq_search P Gr.addressList (by decide)]; exact hs) env
    rw [walkList_events] at hl
    simp only [Fn.result, hl, Fn.finish] at this
    cases this

/-- A word without an address. -/
example (P : Predictor) : Fn.addresses.runWith P (fun _ => some logging) 2024 (encode c!"=?z?q?1?= joe") [] = (some (.addresses (.ok (none, some .syntaxError))), []) :=
  C74_rejected P (env := env0) (C21_plain_words_are_rejected P env0 (by decide) (C09_well_formed _) (by decide) (by decide) (by decide)) _ _ _

/-- `ParseDateTime` never calls the `CharsetReader`. -/
theorem C74_dates (P : Predictor) (R : ReaderVar σ) (d : Bytes → Option Bytes) (year : Int) (input : Bytes) (s : σ) :
    Fn.date.runWith P R year input s = (some (.date (parseDateTime P ⟨d, year⟩ input)), s) := by
  by_cases hne : input.length = 0
  · rw [Fn.runWith, if_pos hne, parseDateTime, if_pos hne]
    rfl
  have alone := Fn.alone_eq .date P ⟨d, year⟩ input hne
  rw [Fn.alone] at alone
  rw [alone, Fn.runWith, if_neg hne, descend_eq_search P _ (by decide)]
  cases hs : search (Fn.rule .date) (tokens input) with
  | none => rfl
  | some ts =>
    have hd := search_sound hs
    have hw : ∀ e ∈ eventsList ts, e.word = none := by
      have ha := eventsList_ok _ (derives_allRules (p := fun r => r != .encodedWord) (by decide) hd (by decide))
      intro e he
      have := List.all_eq_true.mp ha e he
      cases e with
      | exit => rfl
      | enter r ts => cases r <;> first | rfl | exact absurd (show (Rule.encodedWord != Rule.encodedWord) = true from this) (by decide)
    dsimp only
    rw [walkWith_none R d year _ _ _ hw, Fn.result]
    cases runEvents (withEnv ⟨d, year⟩ (eventsList ts)) Walker.init <;> rfl

theorem runWith_pure (P : Predictor) (R : ReaderVar σ) (cr : CharsetReader) (hR : ∀ v s, wordDecodeWith (R s) v s = (some (wordDecode cr v), s)) (year : Int)
    (input : Bytes) (s : σ) : Fn.addresses.runWith P R year input s = (some (.addresses (parseAddressList P (goEnv cr year) input)), s) := by
  by_cases hne : input.length = 0
  · rw [Fn.runWith, if_pos hne, parseAddressList, if_pos hne]
    rfl
  have alone := Fn.alone_eq .addresses P (goEnv cr year) input hne
  rw [Fn.alone] at alone
  rw [alone, Fn.runWith, if_neg hne, descend_eq_search P _ (by decide)]
  cases hs : search (Fn.rule .addresses) (tokens input) with
  | none => rfl
  | some ts =>
    dsimp only
    rw [walkWith_pure R cr hR, Fn.result]
    cases runEvents (withEnv (goEnv cr year) (eventsList ts)) Walker.init <;> rfl

/-- A `CharsetReader` without side effects, that does not panic. -/
theorem C74_without_effects (P : Predictor) (f : Bytes → Bytes → Option Bytes) (year : Int) (input : Bytes) (s : σ) :
    Fn.addresses.runWith P (fun _ => some fun charset content s => (some (f charset content), s)) year input s =
      (some (.addresses (parseAddressList P (goEnv (some f) year) input)), s) := by
  refine runWith_pure P _ _ (fun v s => ?_) year input s
  rcases word_cases (σ := σ) v with ⟨d, h1, h2⟩ | ⟨c, b, h1, _, h3, _⟩
  · rw [h1, h2]
  · rw [h1, h3]

/-- No `CharsetReader` (`nil`). -/
theorem C74_no_reader (P : Predictor) (year : Int) (input : Bytes) (s : σ) :
    Fn.addresses.runWith P (fun _ => none) year input s = (some (.addresses (parseAddressList P (goEnv none year) input)), s) := by
  refine runWith_pure P _ _ (fun v s => ?_) year input s
  rcases word_cases (σ := σ) v with ⟨d, h1, h2⟩ | ⟨c, b, _, h2, _, h4⟩
  · rw [h1, h2]
  · rw [h2, h4]

/-! ## Which words ask -/

theorem word_value {cs en tx : List Char} {bs : Bytes} (hne : cs ≠ []) (hk : ∀ c ∈ cs, isTokenChar c) (hc : Carries en tx bs) (ht : tx ≠ []) (cr : CharsetReader) :
    wordDecode cr (encode (Spec.encodedWord cs en tx)) = convert cr (utf8 cs) bs := by
  rw [encode_eq, wordDecode_carries _ hne hk ht hc]

/-- A word in a character set that package mime does not know asks for this character set, in lower case, and for the bytes that the word carries. -/
theorem C74_asks {cs en tx : List Char} {bs : Bytes} (hne : cs ≠ []) (hk : ∀ c ∈ cs, isTokenChar c) (hn : ¬ KnownCharset cs) (hc : Carries en tx bs)
    (ht : tx ≠ []) : Asks (encode (Spec.encodedWord cs en tx)) (encode (cs.map Char.toLower)) bs := by
  intro f
  have ha := token_ascii hk
  have n1 : toLower (utf8 cs) ≠ b!"utf-8" := fun h => hn (.inl (lower_spells ha (by unfold Ascii; decide) h))
  have n2 : toLower (utf8 cs) ≠ b!"iso-8859-1" := fun h => hn (.inr (.inl (lower_spells ha (by unfold Ascii; decide) h)))
  have n3 : toLower (utf8 cs) ≠ b!"us-ascii" := fun h => hn (.inr (.inr (lower_spells ha (by unfold Ascii; decide) h)))
  rw [word_value hne hk hc ht, convert.eq_def, if_neg n1, if_neg n2, if_neg n3, toLower_ascii_utf8 ha, encode_eq]

/-- A word in one of the three known character sets does not. -/
theorem C74_known {cs en tx : List Char} {bs : Bytes} (hk : KnownCharset cs) (hc : Carries en tx bs) (ht : tx ≠ []) :
    ∃ v, Settled (encode (Spec.encodedWord cs en tx)) v := by
  have hne : cs ≠ [] := by rintro rfl; rcases hk with h | h | h <;> cases h
  have htk : ∀ c ∈ cs, isTokenChar c := by
    rcases hk with h | h | h <;> exact spells_token h (by decide)
  refine ⟨value none (encode (Spec.encodedWord cs en tx)), fun cr => ?_⟩
  simp only [value, word_value hne htk hc ht]
  rcases hk with h | h | h <;> simp only [convert.eq_def, spells_lower h (by decide)] <;> rfl

example : Asks (encode c!"=?KOI8-R?q?=C4?=") (encode c!"koi8-r") [0xC4] ∧ ∃ v, Settled (encode c!"=?Utf-8?q?x?=") v :=
  ⟨C74_asks (cs := c!"KOI8-R") (en := c!"q") (tx := c!"=C4") (by decide) (by decide) (by unfold KnownCharset; decide)
      (.q (by decide) (.hex (by unfold IsHex; decide) (by unfold IsHex; decide) .nil)) (by decide),
    C74_known (cs := c!"Utf-8") (en := c!"q") (tx := c!"x") (.inl (by decide)) (.q (by decide) (.char (by decide) (by decide) (by decide) .nil)) (by decide)⟩

/-- No word does both, and no word asks for two things. -/
theorem C74_either {w charset content : Bytes} (h : Asks w charset content) : (∀ v, ¬ Settled w v) ∧ ∀ {charset' content'}, Asks w charset' content' → charset' = charset ∧ content' = content := by
  constructor
  · intro v hs
    have h1 := hs (some fun _ _ => some b!"a")
    have h2 := hs (some fun _ _ => some b!"b")
    rw [value, h, Option.getD_some] at h1 h2
    rw [← h2] at h1
    exact absurd h1 (by decide)
  · intro charset' content' h'
    have h1 : some charset = some charset' := (h fun a _ => some a).symm.trans (h' fun a _ => some a)
    have h2 : some content = some content' := (h fun _ b => some b).symm.trans (h' fun _ b => some b)
    exact ⟨(Option.some.inj h1).symm, (Option.some.inj h2).symm⟩

/-- So the calls, and the values of the words, are determined. -/
theorem C74_determined {R : ReaderVar σ} {ws : List Bytes} {s s₁ s₂ : σ} {vs₁ vs₂ : Option (List Bytes)} (h₁ : Answers R ws s vs₁ s₁) (h₂ : Answers R ws s vs₂ s₂) :
    vs₁ = vs₂ ∧ s₁ = s₂ := by
  induction h₁ generalizing vs₂ s₂ with
  | nil => cases h₂; exact ⟨rfl, rfl⟩
  | settled hs _ ih =>
    cases h₂ with
    | settled hs' h' =>
      obtain ⟨rfl, rfl⟩ := ih h'
      exact ⟨by rw [← hs none, hs' none], rfl⟩
    | nobody ha => exact absurd hs ((C74_either ha).1 _)
    | asks ha => exact absurd hs ((C74_either ha).1 _)
    | panics ha => exact absurd hs ((C74_either ha).1 _)
  | nobody ha hn _ ih =>
    cases h₂ with
    | settled hs' => exact absurd hs' ((C74_either ha).1 _)
    | nobody _ _ h' =>
      obtain ⟨rfl, rfl⟩ := ih h'
      exact ⟨rfl, rfl⟩
    | asks _ hf => rw [hn] at hf; cases hf
    | panics _ hf => rw [hn] at hf; cases hf
  | asks ha hf hr _ ih =>
    cases h₂ with
    | settled hs' => exact absurd hs' ((C74_either ha).1 _)
    | nobody _ hf' => rw [hf] at hf'; cases hf'
    | asks ha' hf' hr' h' =>
      obtain ⟨rfl, rfl⟩ := (C74_either ha).2 ha'
      rw [hf] at hf'
      cases hf'
      rw [hr] at hr'
      cases hr'
      obtain ⟨rfl, rfl⟩ := ih h'
      exact ⟨rfl, rfl⟩
    | panics ha' hf' hr' =>
      obtain ⟨rfl, rfl⟩ := (C74_either ha).2 ha'
      rw [hf] at hf'
      cases hf'
      rw [hr] at hr'
      cases hr'
  | panics ha hf hr =>
    cases h₂ with
    | settled hs' => exact absurd hs' ((C74_either ha).1 _)
    | nobody _ hf' => rw [hf] at hf'; cases hf'
    | asks ha' hf' hr' =>
      obtain ⟨rfl, rfl⟩ := (C74_either ha).2 ha'
      rw [hf] at hf'
      cases hf'
      rw [hr] at hr'
      cases hr'
    | panics ha' hf' hr' =>
      obtain ⟨rfl, rfl⟩ := (C74_either ha).2 ha'
      rw [hf] at hf'
      cases hf'
      rw [hr] at hr'
      cases hr'
      exact ⟨rfl, rfl⟩

end Rfc5322.Props
