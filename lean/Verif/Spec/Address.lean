import Verif.Spec.Chars
import Verif.Model.Walker

/-!
# Specification: the address-list language and the value each text denotes

Predicates on lists of characters, written from RFC 5322 §3.2–3.4 and §4, RFC 2047 and the relaxations documented in
RFC5322Parser.g4 (optional trailing period, port, `;` separators, `.` and `@` in display names, unclosed or
quoted groups).  They mention neither the grammar expressions of the model nor its trees or walker; `Addr`, `Bytes`,
`utf8` and the decoder parameter `Env.decode` are the only things shared.
-/

namespace Rfc5322.Spec

/-! ## White space and comments -/

/-- FWS: white space containing at most one CRLF, which must be followed by white space. -/
inductive Fws : List Char → Prop where
  | plain {w} : w ≠ [] → (∀ c ∈ w, isWsp c) → Fws w
  | folded {v w} : (∀ c ∈ v, isWsp c) → w ≠ [] → (∀ c ∈ w, isWsp c) → Fws (v ++ '\r' :: '\n' :: w)

/-- [FWS] -/
def OptFws (f : List Char) : Prop := f = [] ∨ Fws f

/-- Content of a comment: characters, quoted pairs and nested comments, each optionally preceded by white space. -/
inductive CommentItems : List Char → Prop where
  | nil : CommentItems []
  | char {f c r} : OptFws f → isCtext c → CommentItems r → CommentItems (f ++ c :: r)
  | pair {f c r} : OptFws f → (isQuotable c || isObsQuoted c) → CommentItems r → CommentItems (f ++ '\\' :: c :: r)
  | nested {f xs g r} : OptFws f → CommentItems xs → OptFws g → CommentItems r →
      CommentItems (f ++ '(' :: (xs ++ (g ++ ')' :: r)))

/-- A parenthesised comment. -/
def Comment (t : List Char) : Prop :=
  ∃ xs f, CommentItems xs ∧ OptFws f ∧ t = '(' :: (xs ++ (f ++ [')']))

/-- Comments, each optionally preceded by white space. -/
inductive Comments : List Char → Prop where
  | nil : Comments []
  | cons {f t r} : OptFws f → Comment t → Comments r → Comments (f ++ (t ++ r))

/-- [CFWS]: comments and white space, possibly nothing. -/
def OptCfws (t : List Char) : Prop := ∃ r f, Comments r ∧ OptFws f ∧ t = r ++ f

/-- CFWS: at least one comment or white space. -/
def Cfws (t : List Char) : Prop := OptCfws t ∧ t ≠ []

/-! ## Words -/

/-- atom -/
def Atom (t : List Char) : Prop := t ≠ [] ∧ ∀ c ∈ t, isAtext c

/-- Atoms separated by single periods. -/
inductive Dotted : List Char → Prop where
  | one {a} : Atom a → Dotted a
  | cons {a r} : Atom a → Dotted r → Dotted (a ++ '.' :: r)

/-- dot-atom; a trailing period is allowed. -/
def DotAtom (t : List Char) : Prop := Dotted t ∨ ∃ r, Dotted r ∧ t = r ++ ['.']

/-- Content of a quoted string and the text it denotes: white space is kept as it is (including line breaks), quoted
pairs lose their backslash, and obsolete quoted pairs vanish. -/
inductive QuotedText : List Char → Bytes → Prop where
  | nil : QuotedText [] []
  | char {f c r v} : OptFws f → isQtext c → QuotedText r v → QuotedText (f ++ c :: r) (utf8 (f ++ [c]) ++ v)
  | pair {f c r v} : OptFws f → isQuotable c → QuotedText r v →
      QuotedText (f ++ '\\' :: c :: r) (utf8 (f ++ [c]) ++ v)
  | obsPair {f c r v} : OptFws f → isObsQuoted c → QuotedText r v →
      QuotedText (f ++ '\\' :: c :: r) (utf8 f ++ v)

/-- quoted-string: white space before the closing quote is not part of the value. -/
def QuotedString (t : List Char) (v : Bytes) : Prop :=
  ∃ x f, QuotedText x v ∧ OptFws f ∧ t = '"' :: (x ++ (f ++ ['"']))

/-- RFC 2047 encoded-word `=?charset?encoding?text?=`. -/
def EncodedWord (t : List Char) : Prop :=
  ∃ cs en tx, cs ≠ [] ∧ en ≠ [] ∧ tx ≠ [] ∧ (∀ c ∈ cs, isTokenChar c) ∧ (∀ c ∈ en, isTokenChar c) ∧
    (∀ c ∈ tx, isEncodedChar c) ∧ t = '=' :: '?' :: (cs ++ '?' :: (en ++ '?' :: (tx ++ ['?', '='])))

/-- The value of an encoded word: what the decoder says, or the text itself when it reports an error. -/
def decoded (env : Env) (t : List Char) : Bytes := (env.decode (utf8 t)).getD (utf8 t)

/-- One or more encoded words, with optional CFWS around each; values are concatenated. -/
inductive EncodedWords (env : Env) : List Char → Bytes → Prop where
  | one {a t b} : OptCfws a → EncodedWord t → OptCfws b → EncodedWords env (a ++ (t ++ b)) (decoded env t)
  | cons {a t b r v} : OptCfws a → EncodedWord t → OptCfws b → EncodedWords env r v →
      EncodedWords env (a ++ (t ++ (b ++ r))) (decoded env t ++ v)

/-- word (with surrounding CFWS) and its value. -/
inductive Word (env : Env) : List Char → Bytes → Prop where
  | encoded {t v} : EncodedWords env t v → Word env t v
  | atom {a t b} : OptCfws a → Atom t → OptCfws b → Word env (a ++ (t ++ b)) (utf8 t)
  | quoted {a t b v} : OptCfws a → QuotedString t v → OptCfws b → Word env (a ++ (t ++ b)) v

/-! ## Display names -/

/-- Pieces of a display name. -/
inductive Piece where
  /-- a word and its value -/
  | word (v : Bytes)
  /-- a bare `.` or `@` -/
  | punct (v : Bytes)

/-- Add a piece to the name built so far; `glue` says that the last piece was a `.` or `@`.
Words are separated by one space, except after `.`/`@` and at the beginning. -/
def addPiece : Bytes × Bool → Piece → Bytes × Bool
  | (name, _), .punct v => (name ++ v, true)
  | (name, glue), .word v => (if glue || name.isEmpty then name ++ v else name ++ b!" " ++ v, false)

/-- The name denoted by a sequence of pieces. -/
def renderName (ps : List Piece) : Bytes := (ps.foldl addPiece ([], false)).1

/-- What may follow the first word of a display name. -/
inductive NameTail (env : Env) : List Char → List Piece → Prop where
  | nil : NameTail env [] []
  | word {t v r ps} : Word env t v → NameTail env r ps → NameTail env (t ++ r) (.word v :: ps)
  | dot {r ps} : NameTail env r ps → NameTail env ('.' :: r) (.punct b!"." :: ps)
  | at {r ps} : NameTail env r ps → NameTail env ('@' :: r) (.punct b!"@" :: ps)
  | cfws {t r ps} : Cfws t → NameTail env r ps → NameTail env (t ++ r) ps

/-- display-name -/
def DisplayName (env : Env) (t : List Char) (name : Bytes) : Prop :=
  ∃ w v r ps, Word env w v ∧ NameTail env r ps ∧ t = w ++ r ∧ name = renderName (.word v :: ps)

/-! ## Addresses -/

/-- obs-local-part: words separated by periods. -/
inductive DottedWords (env : Env) : List Char → Bytes → Prop where
  | one {t v} : Word env t v → DottedWords env t v
  | cons {t v r u} : Word env t v → DottedWords env r u → DottedWords env (t ++ '.' :: r) (v ++ (b!"." ++ u))

/-- local-part -/
inductive LocalPart (env : Env) : List Char → Bytes → Prop where
  | dotAtom {a t b} : OptCfws a → DotAtom t → OptCfws b → LocalPart env (a ++ (t ++ b)) (utf8 t)
  | quoted {a t b v} : OptCfws a → QuotedString t v → OptCfws b → LocalPart env (a ++ (t ++ b)) v
  | obs {t v} : DottedWords env t v → LocalPart env t v

/-- Content of a domain literal. -/
inductive LiteralItems : List Char → Prop where
  | nil : LiteralItems []
  | char {f c r} : OptFws f → isDtext c → LiteralItems r → LiteralItems (f ++ c :: r)

/-- domain-literal -/
def DomainLiteral (t : List Char) : Prop :=
  ∃ x f, LiteralItems x ∧ OptFws f ∧ t = '[' :: (x ++ (f ++ [']']))

/-- domain: the value is the text without the surrounding CFWS. -/
inductive Domain : List Char → Bytes → Prop where
  | dotAtom {a t b} : OptCfws a → DotAtom t → OptCfws b → Domain (a ++ (t ++ b)) (utf8 t)
  | literal {a t b} : OptCfws a → DomainLiteral t → OptCfws b → Domain (a ++ (t ++ b)) (utf8 t)

/-- addr-spec with an optional port; the value is `local@domain[:port]`. -/
inductive AddrSpec (env : Env) : List Char → Bytes → Prop where
  | plain {l lv d dv} : LocalPart env l lv → Domain d dv → AddrSpec env (l ++ '@' :: d) (lv ++ (b!"@" ++ dv))
  | port {l lv d dv p} : LocalPart env l lv → Domain d dv → p ≠ [] → (∀ c ∈ p, isDigit c) →
      AddrSpec env (l ++ '@' :: (d ++ ':' :: p)) (lv ++ (b!"@" ++ (dv ++ (b!":" ++ utf8 p))))

/-- Leading part of a route: CFWS and commas. -/
inductive RouteHead : List Char → Prop where
  | nil : RouteHead []
  | comma {r} : RouteHead r → RouteHead (',' :: r)
  | cfws {t r} : Cfws t → RouteHead r → RouteHead (t ++ r)

/-- Further hops of a route. -/
inductive RouteTail : List Char → Prop where
  | nil : RouteTail []
  | empty {t r} : OptCfws t → RouteTail r → RouteTail (',' :: (t ++ r))
  | hop {t d v r} : OptCfws t → Domain d v → RouteTail r → RouteTail (',' :: (t ++ '@' :: (d ++ r)))

/-- obs-route: `@a,@b,...:`, denoting nothing. -/
def Route (t : List Char) : Prop :=
  ∃ h d v r, RouteHead h ∧ Domain d v ∧ RouteTail r ∧ t = h ++ '@' :: (d ++ (r ++ [':']))

/-- angle-addr; `<>` denotes the empty address. -/
inductive AngleAddr (env : Env) : List Char → Bytes → Prop where
  | null {a b} : OptCfws a → OptCfws b → AngleAddr env (a ++ '<' :: '>' :: b) []
  | addr {a t v b} : OptCfws a → AddrSpec env t v → OptCfws b → AngleAddr env (a ++ '<' :: (t ++ '>' :: b)) v
  | routed {a q t v b} : OptCfws a → Route q → AddrSpec env t v → OptCfws b →
      AngleAddr env (a ++ '<' :: (q ++ (t ++ '>' :: b))) v

/-- mailbox -/
inductive Mailbox (env : Env) : List Char → Addr → Prop where
  | named {n nv a av} : DisplayName env n nv → AngleAddr env a av → Mailbox env (n ++ a) ⟨nv, av⟩
  | angle {a av} : AngleAddr env a av → Mailbox env a ⟨[], av⟩
  | bare {t v} : AddrSpec env t v → Mailbox env t ⟨[], v⟩

/-- Leading empty list items: optional CFWS and a comma, repeated. -/
inductive Commas : List Char → Prop where
  | nil : Commas []
  | cons {t r} : OptCfws t → Commas r → Commas (t ++ ',' :: r)

/-- Items after the first one of a comma separated list, empty ones allowed. -/
inductive CommaTail (Item : List Char → List Addr → Prop) : List Char → List Addr → Prop where
  | nil : CommaTail Item [] []
  | item {t as r bs} : Item t as → CommaTail Item r bs → CommaTail Item (',' :: (t ++ r)) (as ++ bs)
  | empty {t r bs} : OptCfws t → CommaTail Item r bs → CommaTail Item (',' :: (t ++ r)) bs

/-- A mailbox as a list item. -/
def MailboxItem (env : Env) (t : List Char) (as : List Addr) : Prop := ∃ a, Mailbox env t a ∧ as = [a]

/-- mailbox-list, with empty items allowed. -/
def MailboxList (env : Env) (t : List Char) (as : List Addr) : Prop :=
  ∃ h m a r bs, Commas h ∧ Mailbox env m a ∧ CommaTail (MailboxItem env) r bs ∧ t = h ++ (m ++ r) ∧ as = a :: bs

/-- Content of a group. -/
inductive GroupBody (env : Env) : List Char → List Addr → Prop where
  | list {t as} : MailboxList env t as → GroupBody env t as
  | empty {h t} : Commas h → OptCfws t → GroupBody env (h ++ t) []

/-- group: its name is not part of the value; a `"` is tolerated before the name and after the list, and the closing
semicolon is optional. -/
def Group (env : Env) (t : List Char) (as : List Addr) : Prop :=
  ∃ q n nv b q' e c, (q = [] ∨ q = ['"']) ∧ DisplayName env n nv ∧ GroupBody env b as ∧
    (q' = [] ∨ q' = ['"']) ∧ (e = [] ∨ e = [';']) ∧ OptCfws c ∧ t = q ++ (n ++ ':' :: (b ++ (q' ++ (e ++ c))))

/-- address -/
inductive Address (env : Env) : List Char → List Addr → Prop where
  | mailbox {t a} : Mailbox env t a → Address env t [a]
  | group {t as} : Group env t as → Address env t as

/-- Items after the first one of a list separated by commas or semicolons. -/
inductive SepTail (env : Env) : List Char → List Addr → Prop where
  | nil : SepTail env [] []
  | item {sep t as r bs} : (sep = ',' ∨ sep = ';') → Address env t as → SepTail env r bs →
      SepTail env (sep :: (t ++ r)) (as ++ bs)

/-- address-list: either addresses separated by commas or semicolons, or addresses separated by commas only, with
empty items allowed. -/
inductive AddressList (env : Env) : List Char → List Addr → Prop where
  | strict {t as r bs} : Address env t as → SepTail env r bs → AddressList env (t ++ r) (as ++ bs)
  | obs {h t as r bs} : Commas h → Address env t as → CommaTail (Address env) r bs →
      AddressList env (h ++ (t ++ r)) (as ++ bs)

end Rfc5322.Spec
