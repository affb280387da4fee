import Verif.Spec.Skeleton

/-!
# Specification: cutting a text at its separators

Like `items`, but the items are returned as they stand in the text, with their white space, comments, quoted strings and
domain literals.
-/

namespace Rfc5322.Spec

/-- Where we are after one more character; the same automaton as in `skeletonFrom`. -/
def Mode.next : Mode → Char → Mode
  | .top, c =>
    if c = '(' then .comment 0 false
    else if c = '"' then .quoted false
    else if c = '[' then .literal
    else .top
  | .comment d true, _ => .comment d false
  | .comment d false, c =>
    if c = '\\' then .comment d true
    else if c = '(' then .comment (d + 1) false
    else if c = ')' then (match d with | 0 => .top | d + 1 => .comment d false)
    else .comment d false
  | .quoted true, _ => .quoted false
  | .quoted false, c =>
    if c = '\\' then .quoted true
    else if c = '"' then .top
    else .quoted false
  | .literal, c => if c = ']' then .top else .literal

/-- Where we are after a text. -/
def Mode.after : Mode → List Char → Mode
  | m, [] => m
  | m, c :: r => (m.next c).after r

/-- Outside comments, quoted strings and domain literals. -/
def Mode.isTop : Mode → Bool
  | .top => true
  | _ => false

/-- Cut at the separators found outside comments, quoted strings and domain literals. -/
def piecesFrom : Mode → List Char → List (List Char)
  | _, [] => [[]]
  | m, c :: r =>
    if m.isTop && isSep c then [] :: piecesFrom .top r
    else match piecesFrom (m.next c) r with
      | [] => [[c]]
      | p :: ps => (c :: p) :: ps

/-- The pieces of a text, empty ones included. -/
def pieces (t : List Char) : List (List Char) := piecesFrom .top t

/-- Nothing but white space and comments. -/
def isEmptyPiece (p : List Char) : Bool := (skeleton p).isEmpty

/-- The pieces that are not just white space and comments. -/
def fullPieces (t : List Char) : List (List Char) := (pieces t).filter fun p => !isEmptyPiece p

example : pieces c!"Joe (a, b) <a@b> , , \"x;y\" c@[1,2]" = [c!"Joe (a, b) <a@b> ", c!" ", c!" \"x;y\" c@[1,2]"] := by decide
example : fullPieces c!"Joe (a, b) <a@b> , , \"x;y\" c@[1,2]" = [c!"Joe (a, b) <a@b> ", c!" \"x;y\" c@[1,2]"] := by decide

end Rfc5322.Spec
