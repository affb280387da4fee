import Verif.Spec.Address

/-!
# Specification: clear-cut address lists

The forms in which mailboxes are written in practice, with the value each one must have.  Every `OptCfws` below is a
place where white space, line folds and (nested) comments may be put.  Unlike `Spec.AddressList`, which gives every
reading an input may have, a clear-cut text is meant to have a single value.
-/

namespace Rfc5322.Spec

/-- Encoded words, each followed by optional CFWS; the value is the concatenation of the decoded words. -/
inductive EncodedRun (env : Env) : List Char → Bytes → Prop where
  | one {t b} : EncodedWord t → OptCfws b → EncodedRun env (t ++ b) (decoded env t)
  | cons {t b r v} : EncodedWord t → OptCfws b → EncodedRun env r v →
      EncodedRun env (t ++ (b ++ r)) (decoded env t ++ v)

/-- A sequence of words, each followed by optional CFWS, and the values of the words: an atom is its own value, a
quoted string denotes its content, and a run of encoded words counts as one word.  Atoms must not begin like an encoded
word, and two atoms must be separated. -/
inductive Phrase (env : Env) : List Char → List Bytes → Prop where
  | nil : Phrase env [] []
  | atom {t b x vs} : Atom t → ¬ c!"=?" <+: t → OptCfws b → (b = [] → ∀ c ∈ x.head?, isAtext c = false) →
      Phrase env x vs → Phrase env (t ++ (b ++ x)) (utf8 t :: vs)
  | quoted {t b x v vs} : QuotedString t v → OptCfws b → Phrase env x vs → Phrase env (t ++ (b ++ x)) (v :: vs)
  | encoded {t x v vs} : EncodedRun env t v → ¬ c!"=?" <+: x → Phrase env x vs → Phrase env (t ++ x) (v :: vs)

/-- The name denoted by a sequence of words: their values, separated by single spaces (nothing is put in front of the
first word that is not empty). -/
def wordsName (vs : List Bytes) : Bytes := renderName (vs.map .word)

/-- The text does not contain the beginning of an encoded word. -/
def NoMark (t : List Char) : Prop := ¬ c!"=?" <:+: t

/-- Encoded words made of atom characters, as RFC 2047 asks for in names, each followed by optional CFWS. -/
inductive AtomRun (env : Env) : List Char → Bytes → Prop where
  | one {t b} : EncodedWord t → (∀ c ∈ t, isAtext c) → OptCfws b → AtomRun env (t ++ b) (decoded env t)
  | cons {t b r v} : EncodedWord t → (∀ c ∈ t, isAtext c) → OptCfws b → AtomRun env r v →
      AtomRun env (t ++ (b ++ r)) (decoded env t ++ v)

/-- A sequence of words and bare `.` and `@`, each followed by optional CFWS, and the pieces it stands for.  Words are as in
`Phrase`, but `=?` occurs in encoded words only. -/
inductive NamePieces (env : Env) : List Char → List Piece → Prop where
  | nil : NamePieces env [] []
  | atom {t b x ps} : Atom t → NoMark t → OptCfws b → (b = [] → ∀ c ∈ x.head?, isAtext c = false) →
      NamePieces env x ps → NamePieces env (t ++ (b ++ x)) (.word (utf8 t) :: ps)
  | quoted {t b x v ps} : QuotedString t v → OptCfws b → NamePieces env x ps → NamePieces env (t ++ (b ++ x)) (.word v :: ps)
  | encoded {t x v ps} : AtomRun env t v → ¬ c!"=?" <+: x → (t.getLast? = some '=' → x.head? ≠ some '?') → NamePieces env x ps →
      NamePieces env (t ++ x) (.word v :: ps)
  | dot {b x ps} : OptCfws b → NamePieces env x ps → NamePieces env ('.' :: (b ++ x)) (.punct b!"." :: ps)
  | at {b x ps} : OptCfws b → NamePieces env x ps → NamePieces env ('@' :: (b ++ x)) (.punct b!"@" :: ps)

/-- A dot-atom with optional CFWS around it. -/
def PlainDotAtom (t : List Char) : Prop := ∃ a d b, OptCfws a ∧ DotAtom d ∧ OptCfws b ∧ t = a ++ (d ++ b)

/-- Encoded words in a local part, each followed by optional CFWS.  They must not contain `@` or `(`. -/
inductive LocalRun (env : Env) : List Char → Bytes → Prop where
  | one {t b} : EncodedWord t → (∀ c ∈ t, c ≠ '@' ∧ c ≠ '(') → OptCfws b → LocalRun env (t ++ b) (decoded env t)
  | cons {t b r v} : EncodedWord t → (∀ c ∈ t, c ≠ '@' ∧ c ≠ '(') → OptCfws b → LocalRun env r v →
      LocalRun env (t ++ (b ++ r)) (decoded env t ++ v)

/-- A word of an obsolete local part, with CFWS around it. -/
inductive LocalWord (env : Env) : List Char → Bytes → Prop where
  | atom {a t b} : OptCfws a → Atom t → ¬ c!"=?" <+: t → OptCfws b → LocalWord env (a ++ (t ++ b)) (utf8 t)
  | quoted {a t b v} : OptCfws a → QuotedString t v → OptCfws b → LocalWord env (a ++ (t ++ b)) v
  | encoded {a t v} : OptCfws a → LocalRun env t v → LocalWord env (a ++ t) v

/-- An obsolete local part: words separated by periods.  The value is that of the words, joined by periods. -/
inductive LocalWords (env : Env) : List Char → Bytes → Prop where
  | one {t v} : LocalWord env t v → LocalWords env t v
  | cons {t v r u} : LocalWord env t v → LocalWords env r u → LocalWords env (t ++ '.' :: r) (v ++ (b!"." ++ u))

/-- A dot-atom or a quoted string with CFWS around it, or words separated by periods. -/
inductive ClearLocal (env : Env) : List Char → Bytes → Prop where
  | dotAtom {a t b} : OptCfws a → DotAtom t → OptCfws b → ClearLocal env (a ++ (t ++ b)) (utf8 t)
  | quoted {a t b v} : OptCfws a → QuotedString t v → OptCfws b → ClearLocal env (a ++ (t ++ b)) v
  | words {t v} : LocalWords env t v → ¬ PlainDotAtom t → ClearLocal env t v

/-- addr-spec, with an optional port. -/
inductive ClearAddr (env : Env) : List Char → Bytes → Prop where
  | plain {l lv d dv} : ClearLocal env l lv → Domain d dv → ClearAddr env (l ++ '@' :: d) (lv ++ (b!"@" ++ dv))
  | port {l lv d dv p} : ClearLocal env l lv → Domain d dv → p ≠ [] → (∀ c ∈ p, isDigit c) →
      ClearAddr env (l ++ '@' :: (d ++ ':' :: p)) (lv ++ (b!"@" ++ (dv ++ (b!":" ++ utf8 p))))

/-- The address in angle brackets: `<>`, `<addr>` or `<@route:addr>`. -/
inductive ClearAngle (env : Env) : List Char → Bytes → Prop where
  | null {b} : OptCfws b → ClearAngle env ('<' :: '>' :: b) []
  | addr {t v b} : ClearAddr env t v → OptCfws b → ClearAngle env ('<' :: (t ++ '>' :: b)) v
  | routed {q t v b} : Route q → ClearAddr env t v → OptCfws b → ClearAngle env ('<' :: (q ++ (t ++ '>' :: b))) v

/-- The parts of an addr-spec that stands on its own, i.e. without angle brackets: its dot-atoms must not contain the
beginning of an encoded word. -/
inductive BareWord : List Char → Bytes → Prop where
  | atom {a t b} : OptCfws a → Atom t → NoMark t → OptCfws b → BareWord (a ++ (t ++ b)) (utf8 t)
  | quoted {a t b v} : OptCfws a → QuotedString t v → OptCfws b → BareWord (a ++ (t ++ b)) v

inductive BareWords : List Char → Bytes → Prop where
  | one {t v} : BareWord t v → BareWords t v
  | cons {t v r u} : BareWord t v → BareWords r u → BareWords (t ++ '.' :: r) (v ++ (b!"." ++ u))

inductive BareLocal : List Char → Bytes → Prop where
  | dotAtom {a t b} : OptCfws a → DotAtom t → NoMark t → OptCfws b → BareLocal (a ++ (t ++ b)) (utf8 t)
  | quoted {a t b v} : OptCfws a → QuotedString t v → OptCfws b → BareLocal (a ++ (t ++ b)) v
  | words {t v} : BareWords t v → BareLocal t v

inductive BareDomain : List Char → Bytes → Prop where
  | dotAtom {a t b} : OptCfws a → DotAtom t → NoMark t → OptCfws b → BareDomain (a ++ (t ++ b)) (utf8 t)
  | literal {a t b} : OptCfws a → DomainLiteral t → OptCfws b → BareDomain (a ++ (t ++ b)) (utf8 t)

inductive BareAddr : List Char → Bytes → Prop where
  | plain {l lv d dv} : BareLocal l lv → BareDomain d dv → BareAddr (l ++ '@' :: d) (lv ++ (b!"@" ++ dv))
  | port {l lv d dv p} : BareLocal l lv → BareDomain d dv → p ≠ [] → (∀ c ∈ p, isDigit c) →
      BareAddr (l ++ '@' :: (d ++ ':' :: p)) (lv ++ (b!"@" ++ (dv ++ (b!":" ++ utf8 p))))

/-- A mailbox. -/
inductive ClearBox (env : Env) : List Char → Addr → Prop where
  | named {a n vs t v} : OptCfws a → Phrase env n vs → vs ≠ [] → ClearAngle env t v →
      ClearBox env (a ++ (n ++ t)) ⟨wordsName vs, v⟩
  | pieces {a n w ps t v} : OptCfws a → NamePieces env n (.word w :: ps) → ClearAngle env t v →
      ClearBox env (a ++ (n ++ t)) ⟨renderName (.word w :: ps), v⟩
  | angle {a t v} : OptCfws a → ClearAngle env t v → ClearBox env (a ++ t) ⟨[], v⟩
  | bare {t v} : BareAddr t v → ClearBox env t ⟨[], v⟩

/-- Mailboxes separated by commas. -/
inductive ClearBoxes (env : Env) : List Char → List Addr → Prop where
  | one {t a} : ClearBox env t a → ClearBoxes env t [a]
  | cons {t a r as} : ClearBox env t a → ClearBoxes env r as → ClearBoxes env (t ++ ',' :: r) (a :: as)

/-- The name of a group: words and periods, beginning with a word. -/
def GroupName (env : Env) (n : List Char) : Prop := ∃ w ps, NamePieces env n (.word w :: ps) ∧ Piece.punct b!"@" ∉ ps

/-- The members of a group: mailboxes separated by commas, or nothing. -/
inductive Members (env : Env) : List Char → List Addr → Prop where
  | boxes {t as} : ClearBoxes env t as → Members env t as
  | none {w} : OptCfws w → Members env w []

/-- A group up to its terminating semicolon.  Its name must not start with a quotation mark. -/
inductive ClearGroup (env : Env) : List Char → List Addr → Prop where
  | mk {a n m as} : OptCfws a → GroupName env n → (a ++ n).head? ≠ some '"' → Members env m as →
      ClearGroup env (a ++ (n ++ ':' :: m)) as

/-- A list item that may be followed by a separator: a mailbox or a terminated group. -/
inductive ClearItem (env : Env) : List Char → List Addr → Prop where
  | box {t a} : ClearBox env t a → ClearItem env t [a]
  | group {g as w} : ClearGroup env g as → OptCfws w → ClearItem env (g ++ ';' :: w) as

/-- An address list: items separated by `,` or `;`.  The semicolon of a group at the end may be left out. -/
inductive ClearList (env : Env) : List Char → List Addr → Prop where
  | one {t as} : ClearItem env t as → ClearList env t as
  | last {t as} : ClearGroup env t as → ClearList env t as
  | cons {t as sep r bs} : ClearItem env t as → (sep = ',' ∨ sep = ';') → ClearList env r bs →
      ClearList env (t ++ sep :: r) (as ++ bs)

end Rfc5322.Spec
