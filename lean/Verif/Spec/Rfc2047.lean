import Verif.Spec.Address
import Verif.Spec.Text

/-!
# Specification: the encodings of RFC 2047

Written from RFC 2047 §4 and RFC 4648 §4.
-/

namespace Rfc5322.Spec

/-- The encoded word `=?charset?encoding?text?=`. -/
def encodedWord (charset encoding text : List Char) : List Char :=
  c!"=?" ++ (charset ++ c!"?" ++ (encoding ++ c!"?" ++ (text ++ c!"?=")))

/-- A hexadecimal digit of either case. -/
def IsHex (n : Nat) (c : Char) : Prop :=
  c!"0123456789ABCDEF"[n]? = some c ∨ c!"0123456789abcdef"[n]? = some c

/-- `QText bs t`: in the Q encoding, `t` stands for the bytes `bs`. -/
inductive QText : Bytes → List Char → Prop where
  | nil : QText [] []
  /-- printable ASCII stands for itself -/
  | char {c bs t} : isEncodedChar c = true → c ≠ '_' → c ≠ '=' → QText bs t → QText (encode [c] ++ bs) (c :: t)
  /-- `_` is the space -/
  | space {bs t} : QText bs t → QText (0x20 :: bs) ('_' :: t)
  /-- `=XX` is any byte -/
  | hex {b hi lo bs t} : IsHex (b.toNat / 16) hi → IsHex (b.toNat % 16) lo → QText bs t → QText (b :: bs) ('=' :: hi :: lo :: t)

/-- The digit for `n < 64` in base 64. -/
def b64Digit (n : Nat) : Char := c!"ABCDEFGHIJKLMNOPQRSTUVWXYZabcdefghijklmnopqrstuvwxyz0123456789+/".getD n '='

/-- Base 64. -/
def b64 : Bytes → List Char
  | [] => []
  | [a] => [b64Digit (a.toNat / 4), b64Digit (a.toNat % 4 * 16), '=', '=']
  | [a, b] => [b64Digit (a.toNat / 4), b64Digit (a.toNat % 4 * 16 + b.toNat / 16), b64Digit (b.toNat % 16 * 4), '=']
  | a :: b :: c :: r =>
    b64Digit (a.toNat / 4) :: b64Digit (a.toNat % 4 * 16 + b.toNat / 16) ::
      b64Digit (b.toNat % 16 * 4 + c.toNat / 64) :: b64Digit (c.toNat % 64) :: b64 r

/-- A digit of base 16, upper case. -/
def hexDigit (n : Nat) : Char := c!"0123456789ABCDEF".getD n '0'

/-- The Q encoding that encodes every byte as `=XX`. -/
def qEncode : Bytes → List Char
  | [] => []
  | b :: bs => '=' :: hexDigit (b.toNat / 16) :: hexDigit (b.toNat % 16) :: qEncode bs

example : b64 b!"Hello" = c!"SGVsbG8=" ∧ b64 b!"Hell" = c!"SGVsbA==" ∧ b64 b!"Hel" = c!"SGVs" := by decide
example : qEncode b!"a\r" = c!"=61=0D" := by decide

/-- The name of a charset or an encoding, in any mixture of cases. -/
def Spells (t : List Char) (name : List Char) : Prop := t.map Char.toLower = name

instance (t name : List Char) : Decidable (Spells t name) := inferInstanceAs (Decidable (_ = _))

/-- `Carries en tx bs`: with the encoding named `en`, the text `tx` stands for the bytes `bs`. -/
inductive Carries : List Char → List Char → Bytes → Prop where
  | q {en tx bs} : Spells en c!"q" → QText bs tx → Carries en tx bs
  | b {en bs} : Spells en c!"b" → Carries en (b64 bs) bs

/-- The charsets that need no `CharsetReader`. -/
def KnownCharset (cs : List Char) : Prop := Spells cs c!"utf-8" ∨ Spells cs c!"iso-8859-1" ∨ Spells cs c!"us-ascii"

end Rfc5322.Spec
