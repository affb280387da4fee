import Verif.Spec.Strip
import Verif.Spec.Address

/-!
# Specification: the items of a list

The text is read from left to right without any grammar: comments, white space, and the contents of quoted strings and
domain literals are removed, and what remains is split at its commas and semicolons.
-/

namespace Rfc5322.Spec

/-- Where we are: outside, in a comment (nested `d + 1` times), in a quoted string or in a domain literal; the flag says
that the previous character was a backslash. -/
inductive Mode where
  | top
  | comment (d : Nat) (esc : Bool)
  | quoted (esc : Bool)
  | literal
deriving DecidableEq

/-- Remove comments, white space and the contents of quoted strings and domain literals; of the latter two only the
opening `"` or `[` is kept. -/
def skeletonFrom : Mode → List Char → List Char
  | _, [] => []
  | .top, c :: r =>
    if isBlank c then skeletonFrom .top r
    else if c = '(' then skeletonFrom (.comment 0 false) r
    else if c = '"' then '"' :: skeletonFrom (.quoted false) r
    else if c = '[' then '[' :: skeletonFrom .literal r
    else c :: skeletonFrom .top r
  | .comment d true, _ :: r => skeletonFrom (.comment d false) r
  | .comment d false, c :: r =>
    if c = '\\' then skeletonFrom (.comment d true) r
    else if c = '(' then skeletonFrom (.comment (d + 1) false) r
    else if c = ')' then (match d with | 0 => skeletonFrom .top r | d + 1 => skeletonFrom (.comment d false) r)
    else skeletonFrom (.comment d false) r
  | .quoted true, _ :: r => skeletonFrom (.quoted false) r
  | .quoted false, c :: r =>
    if c = '\\' then skeletonFrom (.quoted true) r
    else if c = '"' then skeletonFrom .top r
    else skeletonFrom (.quoted false) r
  | .literal, c :: r => if c = ']' then skeletonFrom .top r else skeletonFrom .literal r

/-- The skeleton of a text. -/
def skeleton (t : List Char) : List Char := skeletonFrom .top t

/-- Commas and semicolons separate the items of a list. -/
def isSep (c : Char) : Bool := c == ',' || c == ';'

/-- Split at the separators. -/
def splitSeps : List Char → List (List Char)
  | [] => [[]]
  | c :: r =>
    if isSep c then [] :: splitSeps r
    else match splitSeps r with
      | [] => [[c]]
      | s :: ss => (c :: s) :: ss

/-- The items of a list, empty ones included. -/
def items (t : List Char) : List (List Char) := splitSeps (skeleton t)

/-- Every encoded word that can be found in the text is free of separators and of characters that open a comment, a quoted
string or a domain literal.  (The words RFC 2047 allows in names are.) -/
def TameWords (t : List Char) : Prop := ∀ w, EncodedWord w → w <:+: t → ∀ c ∈ w, c ∉ c!",;(\"["

/-- Every encoded word that can be found in the text consists of characters of atoms.  (RFC 2047 only allows such words in names.) -/
def AtomWords (t : List Char) : Prop := ∀ w, EncodedWord w → w <:+: t → ∀ c ∈ w, isAtext c = true

/-- Whenever a quote at the very beginning (`lead`) or directly behind a comma or semicolon is ignored, the skeleton of what follows has no colon.
(This parser tolerates such a quote in front of the name of a group, with or without a matching one.) -/
def hiddenAfterQuotes : Bool → List Char → Bool
  | _, [] => true
  | lead, c :: r => (!(lead && c == '"') || !(skeleton r).contains ':') && hiddenAfterQuotes (isSep c) r

/-- All colons are hidden inside comments, quoted strings and domain literals, even if a quote as above is ignored. -/
def HiddenColons (t : List Char) : Prop := ':' ∉ skeleton t ∧ hiddenAfterQuotes true t = true

instance (t : List Char) : Decidable (HiddenColons t) := by unfold HiddenColons; infer_instance

example : HiddenColons c!"\"A, B\" <a@[IPv6:::1]> (x:y),\"C\"@d" ∧ HiddenColons c!"a@b; \"Lunch: 12:30\" <c@d>" := by decide
example : ¬ HiddenColons c!"g: a@b;" ∧ ¬ HiddenColons c!"a@b:25" ∧ ¬ HiddenColons c!"a@b,\"Lunch: 12:30\" <c@d>" := by decide

example : items c!"Joe (a, b) <a@b> , , \"x;y\" c@[1,2]" = [c!"Joe<a@b>", [], c!"\"c@["] := by decide

end Rfc5322.Spec
