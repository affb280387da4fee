import Verif.Proofs.Lexical

/-!
# Denotations: CFWS, atoms, quoted strings, encoded words, words, display names
-/

namespace Rfc5322

open Spec

variable {env : Env} {Q : Rule → Prop}

/-- Finite repetition of a language without effect. -/
inductive Rep (S : List Char → Prop) : List Char → Prop where
  | nil : Rep S []
  | cons {t r} : S t → Rep S r → Rep S (t ++ r)

theorem Lang.star_quiet {S t f} : Lang.star (quiet S) t f ↔ quiet (Rep S) t f := by
  constructor
  · intro h
    induction h with
    | nil => exact ⟨.nil, rfl⟩
    | cons h _ ih =>
      obtain ⟨h, rfl⟩ := h
      obtain ⟨ih, rfl⟩ := ih
      exact ⟨.cons h ih, rfl⟩
  · rintro ⟨h, rfl⟩
    induction h with
    | nil => exact .nil
    | cons h _ ih => exact .cons (f₁ := id) ⟨h, rfl⟩ ih

theorem Means.qstar {a S} (ha : Means Q env a (.quiet S)) : Means Q env (.star a) (.quiet (Rep S)) :=
  ha.star.congr fun _ _ => Lang.star_quiet

theorem means_comments : Means plainK env (.star (.opt Gr.fws ⬝ .comment)) (.quiet Comments) :=
  (means_optFws.qseq means_comment).qstar.quiet_congr fun t => by
    constructor
    · intro h
      induction h with
      | nil => exact .nil
      | cons h _ ih =>
        obtain ⟨f, c, hf, hc, rfl⟩ := h
        simpa using Comments.cons hf hc ih
    · intro h
      induction h with
      | nil => exact .nil
      | cons hf hc _ ih =>
        have := Rep.cons (S := fun t => ∃ x y, OptFws x ∧ Comment y ∧ t = x ++ y) ⟨_, _, hf, hc, rfl⟩ ih
        simpa using this

theorem fws_ne_nil {t} (h : Fws t) : t ≠ [] := by
  cases h with
  | plain h _ => exact h
  | folded _ _ _ => simp

theorem comment_ne_nil {t} (h : Comment t) : t ≠ [] := by
  obtain ⟨_, _, _, _, rfl⟩ := h
  simp

theorem means_cfws : Means plainK env Gr.cfws (.quiet Cfws) :=
  ((((means_optFws.qseq means_comment).qseq means_comments).qseq means_optFws).qalt means_fws_plain).silent
    (r := .cfws) rfl |>.quiet_congr fun t => by
    constructor
    · rintro (⟨_, g, ⟨_, r, ⟨f, c, hf, hc, rfl⟩, hr, rfl⟩, hg, rfl⟩ | h)
      · refine ⟨⟨f ++ (c ++ r), g, .cons hf hc hr, hg, by simp⟩, ?_⟩
        have := comment_ne_nil hc
        simp [this]
      · exact ⟨⟨[], t, .nil, .inr h, rfl⟩, fws_ne_nil h⟩
    · rintro ⟨⟨r, g, hr, hg, rfl⟩, hne⟩
      cases hr with
      | nil =>
        rcases hg with rfl | hg
        · exact absurd rfl hne
        · exact .inr hg
      | @cons f c r hf hc hr => exact .inl ⟨_, _, ⟨_, _, ⟨f, c, hf, hc, rfl⟩, hr, rfl⟩, hg, by simp⟩

theorem OptCfws.nil : OptCfws [] := ⟨[], [], .nil, .inl rfl, rfl⟩

theorem optCfws_iff {t} : OptCfws t ↔ t = [] ∨ Cfws t := by
  constructor
  · intro h
    by_cases e : t = []
    · exact .inl e
    · exact .inr ⟨h, e⟩
  · rintro (rfl | h)
    · exact OptCfws.nil
    · exact h.1

theorem means_optCfws : Means plainK env (.opt Gr.cfws) (.quiet OptCfws) :=
  means_cfws.qopt.quiet_congr fun _ => optCfws_iff.symm

/-! ## Atoms -/

theorem means_atom : Means Q env Gr.atom fun t f => Atom t ∧ f = deliver (.atom (utf8 t)) :=
  (Means.push (Q' := anyK) (mk := fun t => .atom (utf8 t)) rfl (fun _ => rfl) trivial means_atext.qplus_char
    (fun t f ts w _ h => by simp [enterRule, h])).congr fun t f => by
    constructor
    · rintro ⟨g, ⟨h, rfl⟩, rfl⟩; exact ⟨h, rfl⟩
    · rintro ⟨h, rfl⟩; exact ⟨id, ⟨h, rfl⟩, rfl⟩

theorem means_period : Means Q env (.t .Period) (.quiet fun t => t = ['.']) :=
  Means.qlit (by decide) (by decide +kernel) (by decide)

theorem dotted_iff {t} : Dotted t ↔ ∃ a r, Atom a ∧ Rep (fun t => ∃ x y, x = ['.'] ∧ Atom y ∧ t = x ++ y) r ∧
    t = a ++ r := by
  constructor
  · intro h
    induction h with
    | one h => exact ⟨_, [], h, .nil, by simp⟩
    | @cons a r h _ ih =>
      obtain ⟨b, s, hb, hs, rfl⟩ := ih
      exact ⟨a, '.' :: b ++ s, h, .cons ⟨['.'], b, rfl, hb, rfl⟩ hs, by simp⟩
  · rintro ⟨a, r, ha, hr, rfl⟩
    induction hr generalizing a with
    | nil => simpa using Dotted.one ha
    | cons h _ ih =>
      obtain ⟨_, y, rfl, hy, rfl⟩ := h
      simpa using Dotted.cons ha (ih y hy)

theorem means_dotAtom : Means Q env Gr.dotAtom fun t f => DotAtom t ∧ f = deliver (.dotAtom (utf8 t)) := by
  have plus : Means anyK env (.plus Gr.atext) (.quiet Atom) := means_atext.qplus_char
  have body := plus.qseq ((means_period.qseq plus).qstar.qseq means_period.qopt)
  refine (Means.push (Q := Q) (Q' := anyK) (r := .dotAtom) (mk := fun t => .dotAtom (utf8 t)) rfl (fun _ => rfl)
    trivial body (fun t f ts w _ h => by simp [enterRule, h])).congr fun t f => ?_
  constructor
  · rintro ⟨g, ⟨⟨a, _, ha, ⟨r, e, hr, he, rfl⟩, rfl⟩, rfl⟩, rfl⟩
    refine ⟨?_, rfl⟩
    rcases he with rfl | rfl
    · exact .inl (dotted_iff.mpr ⟨a, r, ha, hr, by simp⟩)
    · exact .inr ⟨a ++ r, dotted_iff.mpr ⟨a, r, ha, hr, rfl⟩, by simp⟩
  · rintro ⟨h | ⟨u, h, rfl⟩, rfl⟩
    · obtain ⟨a, r, ha, hr, rfl⟩ := dotted_iff.mp h
      exact ⟨id, ⟨⟨a, _, ha, ⟨r, [], hr, .inl rfl, rfl⟩, by simp⟩, rfl⟩, rfl⟩
    · obtain ⟨a, r, ha, hr, rfl⟩ := dotted_iff.mp h
      exact ⟨id, ⟨⟨a, _, ha, ⟨r, ['.'], hr, .inr rfl, rfl⟩, by simp⟩, rfl⟩, rfl⟩

/-! ## Quoted strings -/

theorem means_dquote : Means Q env (.t .DQuote) (.quiet fun t => t = ['"']) :=
  Means.qlit (by decide) (by decide +kernel) (by decide)

theorem means_qtext : Means Q env Gr.qtext fun t f => ∃ c, t = [c] ∧ isQtext c ∧ f = deliver (.qtext (utf8 [c])) := by
  have body : Means anyK env (match Gr.qtext with | .rule _ a => a | g => g) (.char isQtext) :=
    Means.class (B := qtextToks) rfl (by decide) anyTok_qtext
  exact (Means.push (Q := Q) (Q' := anyK) (r := .qtext) (mk := fun t => .qtext (utf8 t)) rfl (fun _ => rfl) trivial body
    (fun t f ts w _ h => by simp [enterRule, h])).congr fun t f => by
    constructor
    · rintro ⟨g, ⟨c, rfl, h, rfl⟩, rfl⟩; exact ⟨c, rfl, h, rfl⟩
    · rintro ⟨c, rfl, h, rfl⟩; exact ⟨id, ⟨c, rfl, h, rfl⟩, rfl⟩

/-- One character or quoted pair of a quoted string and its value. -/
inductive QItem : List Char → Bytes → Prop where
  | char {c} : isQtext c → QItem [c] (utf8 [c])
  | pair {t v} : Pair t v → QItem t v

/-- Appending to the value of a quoted string. -/
def addQuoted (v : Bytes) : Node → Node
  | .quotedValue x => .quotedValue (x ++ v)
  | p => p

theorem addQuoted_nil {p} : addQuoted [] p = p := by cases p <;> simp [addQuoted]
theorem addQuoted_add {u v p} : addQuoted v (addQuoted u p) = addQuoted (u ++ v) p := by cases p <;> simp [addQuoted]
theorem deliver_quotedContent {v} : deliver (.quotedContent v) = addQuoted v := by
  funext p; cases p <;> rfl
theorem deliver_fws {v} : deliver (.fws v) = addQuoted v := by
  funext p; cases p <;> rfl

theorem means_quotedContent : Means Q env Gr.quotedContent (.value QItem addQuoted) := by
  refine (Means.push₀ (Q := Q) (Q' := (· = .quotedContent)) (r := .quotedContent) (mk := .quotedContent []) rfl rfl rfl
    (means_qtext.alt means_quotedPair) (fun _ _ => rfl)).congr fun t f => ?_
  constructor
  · rintro ⟨g, ⟨c, rfl, hc, rfl⟩ | ⟨v, hv, rfl⟩, rfl⟩
    · exact ⟨_, .char hc, deliver_quotedContent⟩
    · exact ⟨_, .pair hv, deliver_quotedContent⟩
  · rintro ⟨v, ⟨hc⟩ | ⟨hv⟩, rfl⟩
    · exact ⟨_, .inl ⟨_, rfl, hc, rfl⟩, deliver_quotedContent.symm⟩
    · exact ⟨_, .inr ⟨_, hv, rfl⟩, deliver_quotedContent.symm⟩

theorem quotedText_star {t f} : Lang.star (.seq (.alt (fun t f => Fws t ∧ f = deliver (.fws (utf8 t))) .eps)
    (.value QItem addQuoted)) t f ↔ ∃ v, QuotedText t v ∧ f = addQuoted v := by
  constructor
  · intro h
    induction h with
    | nil => exact ⟨[], .nil, by funext p; simp [addQuoted_nil]⟩
    | cons h _ ih =>
      obtain ⟨v, ih, rfl⟩ := ih
      obtain ⟨w, fw, u, _, hw, ⟨x, hx, rfl⟩, rfl, rfl⟩ := h
      have hw' : OptFws w ∧ fw = addQuoted (utf8 w) := by
        rcases hw with ⟨h, rfl⟩ | ⟨rfl, rfl⟩
        · exact ⟨.inr h, deliver_fws⟩
        · exact ⟨.inl rfl, by funext p; simp [utf8_nil, addQuoted_nil]⟩
      obtain ⟨hw', rfl⟩ := hw'
      simp only [addQuoted_add]
      refine ⟨_, ?_, rfl⟩
      cases hx with
      | char hc => simpa [utf8_append] using QuotedText.char hw' hc ih
      | pair hp => cases hp with
        | char hc => simpa [utf8_append, utf8_single] using QuotedText.pair hw' hc ih
        | obs hc => simpa using QuotedText.obsPair hw' hc ih
  · rintro ⟨v, h, rfl⟩
    have fws : ∀ {w}, OptFws w → Lang.alt (fun t f => Fws t ∧ f = deliver (.fws (utf8 t))) .eps w (addQuoted (utf8 w)) := by
      rintro w (rfl | h)
      · exact .inr ⟨rfl, by funext p; simp [utf8_nil, addQuoted_nil]⟩
      · exact .inl ⟨h, deliver_fws.symm⟩
    induction h with
    | nil => exact (show addQuoted [] = id by funext p; simp [addQuoted_nil]) ▸ .nil
    | @char f c r v hf hc _ ih =>
      have := Lang.star.cons (A := .seq (.alt (fun t f => Fws t ∧ f = deliver (.fws (utf8 t))) .eps)
        (.value QItem addQuoted)) ⟨f, _, [c], _, fws hf, ⟨_, .char hc, rfl⟩, rfl, rfl⟩ ih
      simpa [addQuoted_add, utf8_append] using this
    | @pair f c r v hf hc _ ih =>
      have := Lang.star.cons (A := .seq (.alt (fun t f => Fws t ∧ f = deliver (.fws (utf8 t))) .eps)
        (.value QItem addQuoted)) ⟨f, _, ['\\', c], _, fws hf, ⟨_, .pair (.char hc), rfl⟩, rfl, rfl⟩ ih
      simpa [addQuoted_add, utf8_append, utf8_single] using this
    | @obsPair f c r v hf hc _ ih =>
      have := Lang.star.cons (A := .seq (.alt (fun t f => Fws t ∧ f = deliver (.fws (utf8 t))) .eps)
        (.value QItem addQuoted)) ⟨f, _, ['\\', c], _, fws hf, ⟨_, .pair (.obs hc), rfl⟩, rfl, rfl⟩ ih
      simpa [addQuoted_add, utf8_append] using this

theorem means_quotedValue : Means Q env Gr.quotedValue (.value QuotedText fun v => deliver (.quotedValue v)) :=
  (Means.push₀ (Q := Q) (Q' := anyK) (r := .quotedValue) (mk := .quotedValue []) rfl rfl trivial
    (means_fws.opt.seq means_quotedContent).star (fun _ _ => rfl)).congr fun t f => by
    simp only [quotedText_star]
    constructor
    · rintro ⟨_, ⟨v, hv, rfl⟩, rfl⟩; exact ⟨v, hv, rfl⟩
    · rintro ⟨v, hv, rfl⟩; exact ⟨_, ⟨v, hv, rfl⟩, rfl⟩

theorem means_quotedString : Means Q env Gr.quotedString (.value QuotedString fun v => deliver (.quotedString v)) := by
  have body : Means plainK env (.t .DQuote ⬝ Gr.quotedValue ⬝ .opt Gr.fws ⬝ .t .DQuote) _ :=
    means_dquote.seq (means_quotedValue.seq (means_optFws.qseq means_dquote))
  refine (Means.push₀ (Q := Q) (r := .quotedString) (mk := .quotedString []) rfl rfl ⟨by decide, by decide⟩
    body (fun _ _ => rfl)).congr fun t f => ?_
  constructor
  · rintro ⟨_, ⟨_, _, _, _, ⟨rfl, rfl⟩, ⟨x, _, _, _, ⟨v, hv, rfl⟩, ⟨⟨w, _, hw, rfl, rfl⟩, rfl⟩, rfl, rfl⟩, rfl, rfl⟩, rfl⟩
    exact ⟨v, ⟨x, w, hv, hw, by simp⟩, rfl⟩
  · rintro ⟨v, ⟨x, w, hv, hw, rfl⟩, rfl⟩
    exact ⟨_, ⟨_, _, _, _, ⟨rfl, rfl⟩, ⟨x, _, _, _, ⟨v, hv, rfl⟩, ⟨⟨w, _, hw, rfl, rfl⟩, rfl⟩, rfl, rfl⟩, by simp, rfl⟩, rfl⟩

/-! ## Encoded words -/

theorem means_encodedWord :
    Means Q env Gr.encodedWord fun t f => EncodedWord t ∧ f = deliver (.encodedWord (decoded env t)) := by
  have eq : Means anyK env (.t .Equal) (.quiet fun t => t = ['=']) :=
    Means.qlit (by decide) (by decide +kernel) (by decide)
  have qu : Means anyK env (.t .Question) (.quiet fun t => t = ['?']) :=
    Means.qlit (by decide) (by decide +kernel) (by decide)
  have tok : Means anyK env Gr.token _ := means_tokenChar.qplus_char.silent rfl
  have cs : Means anyK env Gr.charset _ := tok.silent rfl
  have en : Means anyK env Gr.encoding _ := tok.silent rfl
  have tx : Means anyK env Gr.encodedText _ := means_encodedChar.qplus_char.silent rfl
  have body := eq.qseq (qu.qseq (cs.qseq (qu.qseq (en.qseq (qu.qseq (tx.qseq (qu.qseq eq)))))))
  refine (Means.push (Q := Q) (r := .encodedWord) (mk := fun t => .encodedWord (decoded env t)) rfl (fun _ => rfl) trivial
    body ?_).congr fun t f => ?_
  · intro t f ts w _ h
    simp only [enterRule, enterEncodedWord, h, decoded]
    cases env.decode (utf8 t) <;> rfl
  · constructor
    · rintro ⟨_, ⟨⟨_, _, rfl, ⟨_, _, rfl, ⟨cs, _, ⟨h1, h2⟩, ⟨_, _, rfl, ⟨en, _, ⟨h3, h4⟩, ⟨_, _, rfl, ⟨tx, _, ⟨h5, h6⟩,
        ⟨_, _, rfl, rfl, rfl⟩, rfl⟩, rfl⟩, rfl⟩, rfl⟩, rfl⟩, rfl⟩, rfl⟩, rfl⟩, rfl⟩
      exact ⟨⟨cs, en, tx, h1, h3, h5, h2, h4, h6, by simp⟩, rfl⟩
    · rintro ⟨⟨cs, en, tx, h1, h3, h5, h2, h4, h6, rfl⟩, rfl⟩
      exact ⟨id, ⟨⟨_, _, rfl, ⟨_, _, rfl, ⟨cs, _, ⟨h1, h2⟩, ⟨_, _, rfl, ⟨en, _, ⟨h3, h4⟩, ⟨_, _, rfl, ⟨tx, _, ⟨h5, h6⟩,
        ⟨_, _, rfl, rfl, rfl⟩, rfl⟩, rfl⟩, rfl⟩, rfl⟩, rfl⟩, rfl⟩, by simp⟩, rfl⟩, rfl⟩

/-! ## Words -/

/-- A value surrounded by optional CFWS. -/
def Around {α : Type} (S : List Char → α → Prop) (t : List Char) (v : α) : Prop :=
  ∃ a u b, OptCfws a ∧ S u v ∧ OptCfws b ∧ t = a ++ (u ++ b)

theorem Means.around {α : Type} {g} {S : List Char → α → Prop} {h : α → Node → Node}
    (hg : Means plainK env g (.value S h)) :
    Means plainK env (.opt Gr.cfws ⬝ g ⬝ .opt Gr.cfws) (.value (Around S) h) :=
  (means_optCfws.seq (hg.seq means_optCfws)).congr fun t f => by
    constructor
    · rintro ⟨a, _, _, _, ⟨ha, rfl⟩, ⟨u, _, b, _, ⟨v, hv, rfl⟩, ⟨hb, rfl⟩, rfl, rfl⟩, rfl, rfl⟩
      exact ⟨v, ⟨a, u, b, ha, hv, hb, rfl⟩, rfl⟩
    · rintro ⟨v, ⟨a, u, b, ha, hv, hb, rfl⟩, rfl⟩
      exact ⟨a, _, _, _, ⟨ha, rfl⟩, ⟨u, _, b, _, ⟨v, hv, rfl⟩, ⟨hb, rfl⟩, rfl, rfl⟩, rfl, rfl⟩

/-- Texts that are their own value. -/
def Itself (S : List Char → Prop) (t : List Char) (v : Bytes) : Prop := S t ∧ v = utf8 t

theorem means_atom' : Means Q env Gr.atom (.value (Itself Atom) fun v => deliver (.atom v)) :=
  means_atom.congr fun t f => by
    constructor
    · rintro ⟨h, rfl⟩; exact ⟨_, ⟨h, rfl⟩, rfl⟩
    · rintro ⟨_, ⟨h, rfl⟩, rfl⟩; exact ⟨h, rfl⟩

theorem means_dotAtom' : Means Q env Gr.dotAtom (.value (Itself DotAtom) fun v => deliver (.dotAtom v)) :=
  means_dotAtom.congr fun t f => by
    constructor
    · rintro ⟨h, rfl⟩; exact ⟨_, ⟨h, rfl⟩, rfl⟩
    · rintro ⟨_, ⟨h, rfl⟩, rfl⟩; exact ⟨h, rfl⟩

/-- Encoded words and their value. -/
def EncValue (env : Env) (t : List Char) (v : Bytes) : Prop := EncodedWord t ∧ v = decoded env t

/-- Appending to the value of a word. -/
def addEnc (v : Bytes) : Node → Node
  | .word x => .word (x ++ v)
  | p => p

theorem addEnc_add {u v p} : addEnc v (addEnc u p) = addEnc (u ++ v) p := by cases p <;> simp [addEnc]
theorem deliver_encodedWord {v} : deliver (.encodedWord v) = addEnc v := by funext p; cases p <;> rfl

theorem means_encodedWord' : Means Q env Gr.encodedWord (.value (EncValue env) addEnc) :=
  means_encodedWord.congr fun t f => by
    rw [deliver_encodedWord]
    constructor
    · rintro ⟨h, rfl⟩; exact ⟨_, ⟨h, rfl⟩, rfl⟩
    · rintro ⟨_, ⟨h, rfl⟩, rfl⟩; exact ⟨h, rfl⟩

theorem encodedWords_plus {t f} :
    Lang.seq (.value (Around (EncValue env)) addEnc)
      (.star (.value (Around (EncValue env)) addEnc)) t f ↔
    ∃ v, EncodedWords env t v ∧ f = addEnc v := by
  constructor
  · rintro ⟨t₁, f₁, t₂, f₂, h1, h2, rfl, rfl⟩
    induction h2 generalizing t₁ f₁ with
    | nil =>
      obtain ⟨_, ⟨a, u, b, ha, ⟨hu, rfl⟩, hb, rfl⟩, rfl⟩ := h1
      exact ⟨_, by simpa using EncodedWords.one ha hu hb, rfl⟩
    | cons h _ ih =>
      obtain ⟨v, hv, e⟩ := ih _ _ h
      obtain ⟨_, ⟨a, u, b, ha, ⟨hu, rfl⟩, hb, rfl⟩, rfl⟩ := h1
      refine ⟨_, by simpa using EncodedWords.cons ha hu hb hv, ?_⟩
      funext p
      have := congrFun e (addEnc (decoded env u) p)
      dsimp only at this ⊢
      rw [this, addEnc_add]
  · rintro ⟨v, h, rfl⟩
    induction h with
    | @one a t b ha ht hb =>
      exact ⟨_, _, [], id, ⟨_, ⟨a, t, b, ha, ⟨ht, rfl⟩, hb, rfl⟩, rfl⟩, .nil, by simp, rfl⟩
    | @cons a t b r v ha ht hb _ ih =>
      obtain ⟨t₁, f₁, t₂, f₂, h1, h2, rfl, e⟩ := ih
      refine ⟨_, _, _, _, ⟨_, ⟨a, t, b, ha, ⟨ht, rfl⟩, hb, rfl⟩, rfl⟩, .cons h1 h2, by simp, ?_⟩
      funext p
      have := congrFun e (addEnc (decoded env t) p)
      rw [← this, addEnc_add]

theorem plainK_of {r : Rule} (h : (r != .quotedValue && r != .quotedContent) = true) : plainK r := by
  simp at h; exact h

theorem means_word : Means Q env Gr.word (.value (Word env) fun v => deliver (.word v)) := by
  have body := (means_encodedWord' (Q := plainK) (env := env)).around.plus.alt
    (((means_atom' (Q := plainK)).around).alt (means_quotedString (Q := plainK)).around)
  refine (Means.push₀ (Q := Q) (r := .word) (mk := .word []) rfl rfl (plainK_of rfl) body (fun _ _ => rfl)).congr
    fun t f => ?_
  constructor
  · rintro ⟨g, h | h | h, rfl⟩
    · obtain ⟨v, hv, rfl⟩ := encodedWords_plus.mp h
      exact ⟨v, .encoded hv, rfl⟩
    · obtain ⟨_, ⟨a, u, b, ha, ⟨hu, rfl⟩, hb, rfl⟩, rfl⟩ := h
      exact ⟨_, .atom ha hu hb, rfl⟩
    · obtain ⟨_, ⟨a, u, b, ha, hu, hb, rfl⟩, rfl⟩ := h
      exact ⟨_, .quoted ha hu hb, rfl⟩
  · rintro ⟨v, h, rfl⟩
    cases h with
    | encoded h => exact ⟨_, .inl (encodedWords_plus.mpr ⟨_, h, rfl⟩), rfl⟩
    | @atom a u b ha hu hb => exact ⟨_, .inr (.inl ⟨_, ⟨a, u, b, ha, ⟨hu, rfl⟩, hb, rfl⟩, rfl⟩), rfl⟩
    | @quoted a u b _ ha hu hb => exact ⟨_, .inr (.inr ⟨_, ⟨a, u, b, ha, hu, hb, rfl⟩, rfl⟩), rfl⟩

end Rfc5322
