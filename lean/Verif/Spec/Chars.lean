import Verif.Model.GoStd

/-!
# Specification: character classes

Written from RFC 5322 §3.2, RFC 2047 §2 and the extensions stated in the comments of RFC5322Parser.g4
(UTF-8 text allowed wherever printable text is).  No reference to tokens or to the grammar of the model.
-/

namespace Rfc5322.Spec

/-- Non-ASCII code points of the basic multilingual plane. -/
def nonAscii (c : Char) : Bool := decide (0x80 ≤ c.toNat) && decide (c.toNat ≤ 0xFFFF)

/-- WSP: space or tab. -/
def isWsp (c : Char) : Bool := c == ' ' || c == '\t'

/-- Printable ASCII or non-ASCII (VCHAR, RFC 5234 / RFC 6532). -/
def isVchar (c : Char) : Bool := (decide (0x21 ≤ c.toNat) && decide (c.toNat ≤ 0x7E)) || nonAscii c

/-- obs-NO-WS-CTL: US-ASCII control characters that are not NUL, tab, CR or LF. -/
def isCtl (c : Char) : Bool :=
  decide (1 ≤ c.toNat) && decide (c.toNat ≤ 8) || c.toNat == 11 || c.toNat == 12 ||
  decide (14 ≤ c.toNat) && decide (c.toNat ≤ 31) || c.toNat == 127

/-- atext: printable characters except specials. -/
def isAtext (c : Char) : Bool := isVchar c && !(c!"()<>[]:;@\\,.\"").contains c

/-- ctext (with obs-ctext): printable characters except `(`, `)`, `\`; control characters. -/
def isCtext (c : Char) : Bool := isVchar c && !(c!"()\\").contains c || isCtl c

/-- qtext (with obs-qtext): printable characters except `"` and `\`; control characters. -/
def isQtext (c : Char) : Bool := isVchar c && !(c!"\"\\").contains c || isCtl c

/-- dtext: printable characters except `[`, `]`, `\`. -/
def isDtext (c : Char) : Bool := isVchar c && !(c!"[]\\").contains c

/-- Characters of an RFC 2047 token, i.e. of a charset or encoding name: printable ASCII except especials
(`\` is accepted here although it is an especial). -/
def isTokenChar (c : Char) : Bool :=
  isVchar c && !nonAscii c && !(c!"()<>@,;:\"/[]?.=").contains c

/-- Characters of an RFC 2047 encoded text: printable ASCII except `?`. -/
def isEncodedChar (c : Char) : Bool := isVchar c && !nonAscii c && c != '?'

/-- Decimal digit. -/
def isDigit (c : Char) : Bool := decide ('0' ≤ c) && decide (c ≤ '9')

/-- Characters that may follow a backslash and are kept: printable or white space. -/
def isQuotable (c : Char) : Bool := isVchar c || isWsp c

/-- Characters that may follow a backslash and are dropped (obs-qp): NUL, controls, CR, LF. -/
def isObsQuoted (c : Char) : Bool := c.toNat == 0 || isCtl c || c == '\n' || c == '\r'

end Rfc5322.Spec
