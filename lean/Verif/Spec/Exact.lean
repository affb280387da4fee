import Verif.Spec.Clear
import Verif.Spec.Skeleton

/-!
# Specification: lists of mailboxes without encoded words

The lists that consist of mailboxes only, with the value each one must have.  No decoder is involved.
-/

namespace Rfc5322.Spec

/-- A name: atoms, quoted strings and bare `.` and `@`, each followed by optional CFWS, and the pieces it stands for.  Two atoms
must be separated. -/
inductive PlainName : List Char → List Piece → Prop where
  | nil : PlainName [] []
  | atom {t b x ps} : Atom t → NoMark t → OptCfws b → (b = [] → ∀ c ∈ x.head?, isAtext c = false) → PlainName x ps →
      PlainName (t ++ (b ++ x)) (.word (utf8 t) :: ps)
  | quoted {t b x v ps} : QuotedString t v → OptCfws b → PlainName x ps → PlainName (t ++ (b ++ x)) (.word v :: ps)
  | dot {b x ps} : OptCfws b → PlainName x ps → PlainName ('.' :: (b ++ x)) (.punct b!"." :: ps)
  | at {b x ps} : OptCfws b → PlainName x ps → PlainName ('@' :: (b ++ x)) (.punct b!"@" :: ps)

/-- The address in angle brackets. -/
inductive PlainAngle : List Char → Bytes → Prop where
  | null {b} : OptCfws b → PlainAngle ('<' :: '>' :: b) []
  | addr {t v b} : BareAddr t v → OptCfws b → PlainAngle ('<' :: (t ++ '>' :: b)) v
  | routed {q t v b} : Route q → BareAddr t v → OptCfws b → PlainAngle ('<' :: (q ++ (t ++ '>' :: b))) v

/-- A mailbox: a name that begins with a word and an address in angle brackets, or one of them alone. -/
inductive PlainBox : List Char → Addr → Prop where
  | named {a n w ps t v} : OptCfws a → PlainName n (.word w :: ps) → PlainAngle t v →
      PlainBox (a ++ (n ++ t)) ⟨renderName (.word w :: ps), v⟩
  | angle {a t v} : OptCfws a → PlainAngle t v → PlainBox (a ++ t) ⟨[], v⟩
  | bare {t v} : BareAddr t v → PlainBox t ⟨[], v⟩

/-- Further mailboxes, each after a comma or semicolon. -/
inductive SepBoxes : List Char → List Addr → Prop where
  | nil : SepBoxes [] []
  | cons {sep t a r as} : (sep = ',' ∨ sep = ';') → PlainBox t a → SepBoxes r as → SepBoxes (sep :: (t ++ r)) (a :: as)

/-- Further mailboxes and empty items, each after a comma. -/
inductive CommaBoxes : List Char → List Addr → Prop where
  | nil : CommaBoxes [] []
  | cons {t a r as} : PlainBox t a → CommaBoxes r as → CommaBoxes (',' :: (t ++ r)) (a :: as)
  | empty {t r as} : OptCfws t → CommaBoxes r as → CommaBoxes (',' :: (t ++ r)) as

/-- A list of mailboxes: separated by commas or semicolons, or by commas only and with empty items. -/
inductive BoxList : List Char → List Addr → Prop where
  | strict {t a r as} : PlainBox t a → SepBoxes r as → BoxList (t ++ r) (a :: as)
  | padded {h t a r as} : Commas h → PlainBox t a → CommaBoxes r as → BoxList (h ++ (t ++ r)) (a :: as)

/-- No line consists of white space only (RFC 5322, 3.2.2, forbids such lines). -/
def NoBlankLines (t : List Char) : Prop := ∀ w, (∀ c ∈ w, isWsp c) → ¬ '\r' :: '\n' :: (w ++ c!"\r\n") <:+: t

/-- Replace every run of comments and white space by a single space.  The contents of quoted strings and domain literals are kept.
`gap` says that a space has been written for the present run. -/
def oneSpaceFrom : Mode → (gap : Bool) → List Char → List Char
  | _, _, [] => []
  | .top, gap, c :: r =>
    if isBlank c then (if gap then [] else [' ']) ++ oneSpaceFrom .top true r
    else if c = '(' then (if gap then [] else [' ']) ++ oneSpaceFrom (.comment 0 false) true r
    else if c = '"' then '"' :: oneSpaceFrom (.quoted false) false r
    else if c = '[' then '[' :: oneSpaceFrom .literal false r
    else c :: oneSpaceFrom .top false r
  | .comment d true, gap, _ :: r => oneSpaceFrom (.comment d false) gap r
  | .comment d false, gap, c :: r =>
    if c = '\\' then oneSpaceFrom (.comment d true) gap r
    else if c = '(' then oneSpaceFrom (.comment (d + 1) false) gap r
    else if c = ')' then (match d with | 0 => oneSpaceFrom .top gap r | d + 1 => oneSpaceFrom (.comment d false) gap r)
    else oneSpaceFrom (.comment d false) gap r
  | .quoted true, gap, c :: r => c :: oneSpaceFrom (.quoted false) gap r
  | .quoted false, gap, c :: r =>
    c :: (if c = '\\' then oneSpaceFrom (.quoted true) gap r
      else if c = '"' then oneSpaceFrom .top gap r
      else oneSpaceFrom (.quoted false) gap r)
  | .literal, gap, c :: r => c :: (if c = ']' then oneSpaceFrom .top gap r else oneSpaceFrom .literal gap r)

/-- The text with every run of comments and white space replaced by a single space. -/
def oneSpace (t : List Char) : List Char := oneSpaceFrom .top false t

example : oneSpace c!"  Joe\t(a (b, c) \\) d)\r\n Q. \"x  (y)\" < a@[1  2] >(e)" = c!" Joe Q. \"x  (y)\" < a@[1  2] > " := by decide

end Rfc5322.Spec
