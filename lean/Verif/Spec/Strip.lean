import Verif.Spec.Date

/-!
# Specification: removing comments and white space
-/

namespace Rfc5322.Spec

/-- White space and line ends. -/
def isBlank (c : Char) : Bool := c == ' ' || c == '\t' || c == '\r' || c == '\n'

/-- Remove comments and white space everywhere.  `d` is the current nesting depth of comments; `esc` says that the
previous character was a backslash inside a comment. -/
def stripFrom : Nat → Bool → List Char → List Char
  | _, _, [] => []
  | d, true, _ :: r => stripFrom d false r
  | 0, false, c :: r =>
    if isBlank c then stripFrom 0 false r else if c = '(' then stripFrom 1 false r else c :: stripFrom 0 false r
  | d + 1, false, c :: r =>
    if c = '\\' then stripFrom (d + 1) true r
    else if c = '(' then stripFrom (d + 2) false r
    else if c = ')' then stripFrom d false r
    else stripFrom (d + 1) false r

/-- The text without comments and white space. -/
def strip (t : List Char) : List Char := stripFrom 0 false t

/-- Remove comments and white space at the beginning only. -/
def skipFrom : Nat → Bool → List Char → List Char
  | _, _, [] => []
  | d, true, _ :: r => skipFrom d false r
  | 0, false, c :: r => if isBlank c then skipFrom 0 false r else if c = '(' then skipFrom 1 false r else c :: r
  | d + 1, false, c :: r =>
    if c = '\\' then skipFrom (d + 1) true r
    else if c = '(' then skipFrom (d + 2) false r
    else if c = ')' then skipFrom d false r
    else skipFrom (d + 1) false r

/-- The text without the comments and white space at its beginning. -/
def skip (t : List Char) : List Char := skipFrom 0 false t

end Rfc5322.Spec
