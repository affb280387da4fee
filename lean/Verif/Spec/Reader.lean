import Verif.Spec.Address
import Verif.Model.Effects

/-!
# Specification: when the `CharsetReader` is called

The calls are described by the words that are found in the text and by `wordDecode`, which says how the value of a word depends on a `CharsetReader` without side effects.
-/

namespace Rfc5322.Spec

variable {σ : Type}

/-- An item of a list of addresses ends here, perhaps behind a semicolon: white space and comments, and then a separator or the end. -/
def ItemEnds (s : List Char) : Prop :=
  ∃ e c r, (e = [] ∨ e = [';']) ∧ OptCfws c ∧ (r = [] ∨ ∃ r', r = ',' :: r' ∨ r = ';' :: r') ∧ s = e ++ (c ++ r)

/-- `Found ws s s'`: these encoded words are found, one behind the other, in the text `s` before the rest `s'`: outside of comments, quoted strings and domain literals.  A
quotation mark may also stand by itself in front of the name of a group, and at the end of the group. -/
inductive Found : List (List Char) → List Char → List Char → Prop where
  | done {s} : Found [] s s
  | word {w ws s s'} : EncodedWord w → Found ws s s' → Found (w :: ws) (w ++ s) s'
  | char {c ws s s'} : c ∉ c!"(\"[" → Found ws s s' → Found ws (c :: s) s'
  | comment {t ws s s'} : Comment t → Found ws s s' → Found ws (t ++ s) s'
  | quoted {t v ws s s'} : QuotedString t v → Found ws s s' → Found ws (t ++ s) s'
  | literal {t ws s s'} : DomainLiteral t → Found ws s s' → Found ws (t ++ s) s'
  | opening {n r v ws s s' env} : DisplayName env n v → s = n ++ ':' :: r → Found ws s s' → Found ws ('"' :: s) s'
  | closing {ws s s'} : ItemEnds s → Found ws s s' → Found ws ('"' :: s) s'

example : Found [c!"=?a?q?b?=", c!"=?a?q?c?="] c!"x =?a?q?b?= =?a?q?c?= <y@z>" [] :=
  have w : ∀ {c : Char}, isEncodedChar c = true → EncodedWord ['=', '?', 'a', '?', 'q', '?', c, '?', '='] := fun {c} h =>
    ⟨c!"a", c!"q", [c], by decide, by decide, by simp, by decide, by decide, by simpa using h, by simp⟩
  .char (by decide) (.char (by decide) (.word (s := c!" =?a?q?c?= <y@z>") (w (by decide)) (.char (by decide) (.word (s := c!" <y@z>") (w (by decide))
    (.char (by decide) (.char (by decide) (.char (by decide) (.char (by decide) (.char (by decide) (.char (by decide) .done))))))))))

/-- What a word stands for: its decoded text, or the word itself. -/
def value (cr : CharsetReader) (w : Bytes) : Bytes := (wordDecode cr w).getD w

/-- A word that stands for `v`, whatever the `CharsetReader`. -/
def Settled (w v : Bytes) : Prop := ∀ cr, value cr w = v

/-- A word that stands for whatever the `CharsetReader` makes of the bytes `content` in the given character set. -/
def Asks (w charset content : Bytes) : Prop := ∀ f, wordDecode (some f) w = f charset content

/-- `Answers R ws s vs s'`: the `CharsetReader`, if there is one at that moment, is called for the words that ask for it, from left to right, once for each, beginning in state `s`
and ending in `s'`; the words have the values `vs`.  A panic ends this (`none`). -/
inductive Answers (R : ReaderVar σ) : List Bytes → σ → Option (List Bytes) → σ → Prop where
  | nil {s} : Answers R [] s (some []) s
  | settled {w v ws s vs s'} : Settled w v → Answers R ws s vs s' → Answers R (w :: ws) s (vs.map (v :: ·)) s'
  | nobody {w charset content ws s vs s'} : Asks w charset content → R s = none → Answers R ws s vs s' → Answers R (w :: ws) s (vs.map (w :: ·)) s'
  | asks {w charset content ws s f a s₁ vs s'} : Asks w charset content → R s = some f → f charset content s = (some a, s₁) → Answers R ws s₁ vs s' →
      Answers R (w :: ws) s (vs.map (a.getD w :: ·)) s'
  | panics {w charset content ws s f s'} : Asks w charset content → R s = some f → f charset content s = (none, s') → Answers R (w :: ws) s none s'

end Rfc5322.Spec
