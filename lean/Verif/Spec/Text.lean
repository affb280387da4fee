import Verif.Model.Utf8

/-!
# Specification: from bytes to text

`String.utf8EncodeChar` is Lean's own UTF-8 encoder of one character.
-/

namespace Rfc5322.Spec

/-- UTF-8 encoding of a text. -/
def encode (t : List Char) : Bytes := t.flatMap String.utf8EncodeChar

/-- `ReadsAs s t`: the bytes `s` are read as the text `t`: well-formed sequences are decoded, and each byte at which no
well-formed sequence begins is read as U+FFFD. -/
inductive ReadsAs : Bytes → List Char → Prop where
  | nil : ReadsAs [] []
  | char {c s t} : ReadsAs s t → ReadsAs (String.utf8EncodeChar c ++ s) (c :: t)
  | bad {b s t} : (∀ c, ¬ String.utf8EncodeChar c <+: b :: s) → ReadsAs s t → ReadsAs (b :: s) ('\uFFFD' :: t)

/-- Characters of the basic multilingual plane (U+0000 to U+FFFF). -/
def bmp (c : Char) : Bool := decide (c.toNat ≤ 0xFFFF)

/-- The text without the characters above U+FFFF. -/
def dropAstral (t : List Char) : List Char := t.filter bmp

end Rfc5322.Spec
