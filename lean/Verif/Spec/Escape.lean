import Verif.Spec.Chars

/-!
# Specification: quoting a text
-/

namespace Rfc5322.Spec

/-- Put a backslash before every quotation mark and backslash. -/
def escape (t : List Char) : List Char := t.flatMap fun c => if c = '"' ∨ c = '\\' then ['\\', c] else [c]

/-- The text as a quoted string. -/
def quote (t : List Char) : List Char := '"' :: (escape t ++ ['"'])

/-- Characters that can be written in a quoted string: everything printable (including non-ASCII up to U+FFFF), spaces,
tabs and control characters other than NUL, CR and LF. -/
def quoteOk (c : Char) : Bool := isVchar c || isWsp c || isCtl c

/-- The text without the spaces and tabs at its end. -/
def trimRight (t : List Char) : List Char := (t.reverse.dropWhile isWsp).reverse

end Rfc5322.Spec
