import Verif.Model.GoStd

/-!
# Specification: the grammar of RFC 5322

ABNF (RFC 5234) as data, what it derives, and the rules of RFC 5322 for dates and addresses, copied from the RFC with its rule names; then the
changes to these rules that turn the grammar of the RFC into the language this package accepts.  Nothing here refers to the grammar
of the repository or to any other specification.

The rules are quoted from memory of the RFC: no copy of it comes with the repository.
-/

namespace Rfc5322.Rfc

/-- Rule names: RFC 5234 B.1, RFC 5322 sections 3.2, 3.3, 3.4 and 4, RFC 2047 section 2, RFC 6532. -/
inductive Name where
  | ALPHA | CR | CRLF | DIGIT | DQUOTE | HTAB | LF | SP | VCHAR | WSP
  | «quoted-pair» | FWS | ctext | ccontent | comment | CFWS | atext | atom | «dot-atom-text» | «dot-atom» | qtext | qcontent | «quoted-string»
  | word | phrase
  | «date-time» | «day-of-week» | «day-name» | date | day | month | year | time | «time-of-day» | hour | minute | second | zone
  | address | mailbox | «name-addr» | «angle-addr» | group | «display-name» | «mailbox-list» | «address-list» | «group-list»
  | «addr-spec» | «local-part» | domain | «domain-literal» | dtext
  | «obs-NO-WS-CTL» | «obs-ctext» | «obs-qtext» | «obs-qp» | «obs-phrase» | «obs-FWS»
  | «obs-day-of-week» | «obs-day» | «obs-year» | «obs-hour» | «obs-minute» | «obs-second» | «obs-zone»
  | «obs-angle-addr» | «obs-route» | «obs-domain-list» | «obs-mbox-list» | «obs-addr-list» | «obs-group-list» | «obs-local-part» | «obs-domain» | «obs-dtext»
  | «encoded-word» | charset | encoding | token | «encoded-text»
  | «UTF8-non-ascii»
  deriving DecidableEq

/-- ABNF. -/
inductive Abnf where
  /-- `%d33-39` -/
  | range (lo hi : Nat)
  /-- `"Mon"`, in upper or lower case -/
  | text (s : List Char)
  /-- the name of a rule -/
  | rule (n : Name)
  /-- `a b` -/
  | seq (a b : Abnf)
  /-- `a / b` -/
  | alt (a b : Abnf)
  /-- `min*max a` -/
  | rep (min : Nat) (max : Option Nat) (a : Abnf)

/-- The texts derived from an expression, with the rules `g`. -/
inductive Derivable (g : Name → Abnf) : Abnf → List Char → Prop where
  | range {lo hi c} : lo ≤ c.toNat → c.toNat ≤ hi → Derivable g (.range lo hi) [c]
  | text {s x} : x.map Char.toLower = s.map Char.toLower → Derivable g (.text s) x
  | rule {n x} : Derivable g (g n) x → Derivable g (.rule n) x
  | seq {a b x y} : Derivable g a x → Derivable g b y → Derivable g (.seq a b) (x ++ y)
  | left {a b x} : Derivable g a x → Derivable g (.alt a b) x
  | right {a b x} : Derivable g b x → Derivable g (.alt a b) x
  | rep {min max a} {xs : List (List Char)} : min ≤ xs.length → (∀ m ∈ max, xs.length ≤ m) → (∀ x ∈ xs, Derivable g a x) → Derivable g (.rep min max a) xs.flatten

/-! ## Notation -/

scoped infixr:68 " ⬝ " => Abnf.seq
scoped infixr:66 " / " => Abnf.alt
instance : Coe Name Abnf := ⟨.rule⟩
/-- A single code. -/
def code (n : Nat) : Abnf := .range n n
/-- `*a` -/
def many (a : Abnf) : Abnf := .rep 0 none a
/-- `1*a` -/
def some1 (a : Abnf) : Abnf := .rep 1 none a
/-- `[a]` -/
def opt (a : Abnf) : Abnf := .rep 0 (some 1) a
/-- `n a`, as in `2DIGIT` -/
def times (n : Nat) (a : Abnf) : Abnf := .rep n (some n) a
/-- Nothing can be derived from this. -/
def nothing : Abnf := .range 1 0

open Name Abnf

/-- The rules of RFC 5322 (and of RFC 5234, RFC 2047, RFC 6532 for the names that are theirs). -/
def rfc : Name → Abnf
  -- RFC 5234, B.1
  | ALPHA => range 65 90 / range 97 122
  | CR => code 13
  | CRLF => CR ⬝ LF
  | DIGIT => range 48 57
  | DQUOTE => code 34
  | HTAB => code 9
  | LF => code 10
  | SP => code 32
  | VCHAR => range 33 126
  | WSP => SP / HTAB
  -- RFC 5322, 3.2.1
  | «quoted-pair» => (text c!"\\" ⬝ (VCHAR / WSP)) / «obs-qp»
  -- 3.2.2
  | FWS => (opt (many WSP ⬝ CRLF) ⬝ some1 WSP) / «obs-FWS»
  | ctext => range 33 39 / range 42 91 / range 93 126 / «obs-ctext»
  | ccontent => ctext / «quoted-pair» / comment
  | comment => text c!"(" ⬝ many (opt FWS ⬝ ccontent) ⬝ opt FWS ⬝ text c!")"
  | CFWS => (some1 (opt FWS ⬝ comment) ⬝ opt FWS) / FWS
  -- 3.2.3
  | atext => ALPHA / DIGIT / text c!"!" / text c!"#" / text c!"$" / text c!"%" / text c!"&" / text c!"'" / text c!"*" / text c!"+" / text c!"-" / text c!"/" /
      text c!"=" / text c!"?" / text c!"^" / text c!"_" / text c!"`" / text c!"{" / text c!"|" / text c!"}" / text c!"~"
  | atom => opt CFWS ⬝ some1 atext ⬝ opt CFWS
  | «dot-atom-text» => some1 atext ⬝ many (text c!"." ⬝ some1 atext)
  | «dot-atom» => opt CFWS ⬝ «dot-atom-text» ⬝ opt CFWS
  -- 3.2.4
  | qtext => code 33 / range 35 91 / range 93 126 / «obs-qtext»
  | qcontent => qtext / «quoted-pair»
  | «quoted-string» => opt CFWS ⬝ DQUOTE ⬝ many (opt FWS ⬝ qcontent) ⬝ opt FWS ⬝ DQUOTE ⬝ opt CFWS
  -- 3.2.5
  | word => atom / «quoted-string»
  | phrase => some1 word / «obs-phrase»
  -- 3.3
  | «date-time» => opt («day-of-week» ⬝ text c!",") ⬝ date ⬝ time ⬝ opt CFWS
  | «day-of-week» => (opt FWS ⬝ «day-name») / «obs-day-of-week»
  | «day-name» => text c!"Mon" / text c!"Tue" / text c!"Wed" / text c!"Thu" / text c!"Fri" / text c!"Sat" / text c!"Sun"
  | date => day ⬝ month ⬝ year
  | day => (opt FWS ⬝ .rep 1 (some 2) DIGIT ⬝ FWS) / «obs-day»
  | month => text c!"Jan" / text c!"Feb" / text c!"Mar" / text c!"Apr" / text c!"May" / text c!"Jun" / text c!"Jul" / text c!"Aug" / text c!"Sep" / text c!"Oct" /
      text c!"Nov" / text c!"Dec"
  | year => (FWS ⬝ .rep 4 none DIGIT ⬝ FWS) / «obs-year»
  | time => «time-of-day» ⬝ zone
  | «time-of-day» => hour ⬝ text c!":" ⬝ minute ⬝ opt (text c!":" ⬝ second)
  | hour => times 2 DIGIT / «obs-hour»
  | minute => times 2 DIGIT / «obs-minute»
  | second => times 2 DIGIT / «obs-second»
  | zone => (FWS ⬝ (text c!"+" / text c!"-") ⬝ times 4 DIGIT) / «obs-zone»
  -- 3.4
  | address => mailbox / group
  | mailbox => «name-addr» / «addr-spec»
  | «name-addr» => opt «display-name» ⬝ «angle-addr»
  | «angle-addr» => (opt CFWS ⬝ text c!"<" ⬝ «addr-spec» ⬝ text c!">" ⬝ opt CFWS) / «obs-angle-addr»
  | group => «display-name» ⬝ text c!":" ⬝ opt «group-list» ⬝ text c!";" ⬝ opt CFWS
  | «display-name» => phrase
  | «mailbox-list» => (mailbox ⬝ many (text c!"," ⬝ mailbox)) / «obs-mbox-list»
  | «address-list» => (address ⬝ many (text c!"," ⬝ address)) / «obs-addr-list»
  | «group-list» => «mailbox-list» / CFWS / «obs-group-list»
  -- 3.4.1
  | «addr-spec» => «local-part» ⬝ text c!"@" ⬝ domain
  | «local-part» => «dot-atom» / «quoted-string» / «obs-local-part»
  | domain => «dot-atom» / «domain-literal» / «obs-domain»
  | «domain-literal» => opt CFWS ⬝ text c!"[" ⬝ many (opt FWS ⬝ dtext) ⬝ opt FWS ⬝ text c!"]" ⬝ opt CFWS
  | dtext => range 33 90 / range 94 126 / «obs-dtext»
  -- 4.1
  | «obs-NO-WS-CTL» => range 1 8 / code 11 / code 12 / range 14 31 / code 127
  | «obs-ctext» => «obs-NO-WS-CTL»
  | «obs-qtext» => «obs-NO-WS-CTL»
  | «obs-qp» => text c!"\\" ⬝ (code 0 / «obs-NO-WS-CTL» / LF / CR)
  | «obs-phrase» => word ⬝ many (word / text c!"." / CFWS)
  -- 4.2
  | «obs-FWS» => some1 WSP ⬝ many (CRLF ⬝ some1 WSP)
  -- 4.3
  | «obs-day-of-week» => opt CFWS ⬝ «day-name» ⬝ opt CFWS
  | «obs-day» => opt CFWS ⬝ .rep 1 (some 2) DIGIT ⬝ opt CFWS
  | «obs-year» => opt CFWS ⬝ .rep 2 none DIGIT ⬝ opt CFWS
  | «obs-hour» => opt CFWS ⬝ times 2 DIGIT ⬝ opt CFWS
  | «obs-minute» => opt CFWS ⬝ times 2 DIGIT ⬝ opt CFWS
  | «obs-second» => opt CFWS ⬝ times 2 DIGIT ⬝ opt CFWS
  | «obs-zone» => text c!"UT" / text c!"GMT" / text c!"EST" / text c!"EDT" / text c!"CST" / text c!"CDT" / text c!"MST" / text c!"MDT" / text c!"PST" / text c!"PDT" /
      range 65 73 / range 75 90 / range 97 105 / range 107 122
  -- 4.4
  | «obs-angle-addr» => opt CFWS ⬝ text c!"<" ⬝ «obs-route» ⬝ «addr-spec» ⬝ text c!">" ⬝ opt CFWS
  | «obs-route» => «obs-domain-list» ⬝ text c!":"
  | «obs-domain-list» => many (CFWS / text c!",") ⬝ text c!"@" ⬝ domain ⬝ many (text c!"," ⬝ opt CFWS ⬝ opt (text c!"@" ⬝ domain))
  | «obs-mbox-list» => many (opt CFWS ⬝ text c!",") ⬝ mailbox ⬝ many (text c!"," ⬝ opt (mailbox / CFWS))
  | «obs-addr-list» => many (opt CFWS ⬝ text c!",") ⬝ address ⬝ many (text c!"," ⬝ opt (address / CFWS))
  | «obs-group-list» => some1 (opt CFWS ⬝ text c!",") ⬝ opt CFWS
  | «obs-local-part» => word ⬝ many (text c!"." ⬝ word)
  | «obs-domain» => atom ⬝ many (text c!"." ⬝ atom)
  | «obs-dtext» => «obs-NO-WS-CTL» / «quoted-pair»
  -- RFC 2047, 2: tokens are printable ASCII without especials, encoded text is printable ASCII without the question mark
  | «encoded-word» => text c!"=?" ⬝ charset ⬝ text c!"?" ⬝ encoding ⬝ text c!"?" ⬝ «encoded-text» ⬝ text c!"?="
  | charset => token
  | encoding => token
  | token => some1 (code 33 / range 35 39 / code 42 / code 43 / code 45 / range 48 57 / range 65 90 / range 94 126)
  | «encoded-text» => some1 (range 33 62 / range 64 126)
  -- RFC 6532, 3.1; there are none in RFC 5322
  | «UTF8-non-ascii» => nothing

/-- What this package does not accept: the rules of the RFC that have to be restricted, and how. -/
def restrictions : Name → Option Abnf
  -- at most one line break, not several
  | «obs-FWS» => some (some1 WSP ⬝ opt (CRLF ⬝ some1 WSP))
  -- no CFWS around the periods of a domain
  | «obs-domain» => some nothing
  -- no control characters and quoted pairs in domain literals
  | «obs-dtext» => some nothing
  -- exactly four digits in a year, or exactly two
  | year => some ((FWS ⬝ times 4 DIGIT ⬝ FWS) / «obs-year»)
  | «obs-year» => some (opt CFWS ⬝ times 2 DIGIT ⬝ opt CFWS)
  -- no military zones
  | «obs-zone» => some (text c!"UT" / text c!"GMT" / text c!"EST" / text c!"EDT" / text c!"CST" / text c!"CDT" / text c!"MST" / text c!"MDT" / text c!"PST" / text c!"PDT")
  | _ => none

/-- What this package accepts beyond the RFC: the rules of the RFC that have to be extended, and how. -/
def extensions : Name → Option Abnf
  -- UTF-8 text, as in RFC 6532, but only up to U+FFFF
  | «UTF8-non-ascii» => some (range 128 0xFFFF)
  | VCHAR => some (range 33 126 / «UTF8-non-ascii»)
  | ctext => some (range 33 39 / range 42 91 / range 93 126 / «obs-ctext» / «UTF8-non-ascii»)
  | atext => some (ALPHA / DIGIT / text c!"!" / text c!"#" / text c!"$" / text c!"%" / text c!"&" / text c!"'" / text c!"*" / text c!"+" / text c!"-" / text c!"/" /
      text c!"=" / text c!"?" / text c!"^" / text c!"_" / text c!"`" / text c!"{" / text c!"|" / text c!"}" / text c!"~" / «UTF8-non-ascii»)
  | qtext => some (code 33 / range 35 91 / range 93 126 / «obs-qtext» / «UTF8-non-ascii»)
  | dtext => some (range 33 90 / range 94 126 / «obs-dtext» / «UTF8-non-ascii»)
  -- a period at the end of a dot-atom
  | «dot-atom-text» => some (some1 atext ⬝ many (text c!"." ⬝ some1 atext) ⬝ opt (text c!"."))
  -- encoded words (RFC 2047), wherever a word may be
  | word => some (some1 (opt CFWS ⬝ «encoded-word» ⬝ opt CFWS) / atom / «quoted-string»)
  -- a backslash in a token
  | token => some (some1 (code 33 / range 35 39 / code 42 / code 43 / code 45 / range 48 57 / range 65 90 / code 92 / range 94 126))
  -- at signs in names
  | «obs-phrase» => some (word ⬝ many (word / text c!"." / text c!"@" / CFWS))
  -- nothing between the angle brackets
  | «angle-addr» => some ((opt CFWS ⬝ text c!"<" ⬝ opt «addr-spec» ⬝ text c!">" ⬝ opt CFWS) / «obs-angle-addr»)
  -- groups without a semicolon, and with quotation marks around them
  | group => some (opt DQUOTE ⬝ «display-name» ⬝ text c!":" ⬝ opt «group-list» ⬝ opt DQUOTE ⬝ opt (text c!";") ⬝ opt CFWS)
  -- semicolons instead of commas
  | «address-list» => some ((address ⬝ many ((text c!"," / text c!";") ⬝ address)) / «obs-addr-list»)
  -- ports
  | «addr-spec» => some («local-part» ⬝ text c!"@" ⬝ domain ⬝ opt (text c!":" ⬝ some1 DIGIT))
  -- one digit for the hour
  | «obs-hour» => some (opt CFWS ⬝ .rep 1 (some 2) DIGIT ⬝ opt CFWS)
  -- no zone, no sign in the zone, UTC
  | time => some («time-of-day» ⬝ opt zone)
  | zone => some ((FWS ⬝ opt (text c!"+" / text c!"-") ⬝ times 4 DIGIT) / «obs-zone» / text c!"UTC")
  | _ => none

/-- The rules of the RFC, restricted. -/
def restricted (n : Name) : Abnf := (restrictions n).getD (rfc n)

/-- The rules of the RFC, restricted and extended. -/
def accepted (n : Name) : Abnf := (extensions n).getD (restricted n)

/-- The rules of the RFC without the obsolete syntax (which must not be generated), and with years of four digits. -/
def current : Name → Abnf
  | «obs-NO-WS-CTL» | «obs-ctext» | «obs-qtext» | «obs-qp» | «obs-phrase» | «obs-FWS»
  | «obs-day-of-week» | «obs-day» | «obs-year» | «obs-hour» | «obs-minute» | «obs-second» | «obs-zone»
  | «obs-angle-addr» | «obs-route» | «obs-domain-list» | «obs-mbox-list» | «obs-addr-list» | «obs-group-list» | «obs-local-part» | «obs-domain» | «obs-dtext» => nothing
  | year => (FWS ⬝ times 4 DIGIT ⬝ FWS) / «obs-year»
  | n => rfc n

end Rfc5322.Rfc
