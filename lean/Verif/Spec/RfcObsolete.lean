import Verif.Spec.RfcMeaning

/-!
# Specification: what RFC 5322 says that addresses in the obsolete syntax mean

Address lists with or without the obsolete syntax of section 4.4, each with the meaning sections 3.2 to 3.4 and 4 give it.  The pieces are those derived from the rules of
the RFC with the restrictions of this package (`restricted`, in `Verif/Spec/Rfc5322.lean`): periods in phrases, comments and white space around the periods of a
local part, routes, empty items in lists, control characters.  Only `SureQuotes`, at the end, has to do with this package.
-/

namespace Rfc5322.Rfc.Old

open Name Abnf

/-- Derived from the rules of the RFC, restricted. -/
abbrev Is (e : Abnf) (x : List Char) : Prop := Derivable restricted e x

/-- What becomes of white space in quoted strings (as in `Blanks`), and of control characters behind a backslash. -/
structure Style extends Blanks where
  control : Char → List Char → Prop

/-- RFC 5322: only the backslash is invisible. -/
def rfcStyle : Style := ⟨rfcBlanks, fun c v => v = [c]⟩

/-- This package: such a character vanishes. -/
def goStyle : Style := ⟨goBlanks, fun _ v => v = []⟩

/-- No difference: there are none. -/
def tidyStyle : Style := ⟨tidyBlanks, fun _ _ => False⟩

section
variable (S : Style)

/-- The content of a quoted string (3.2.4, 4.1). -/
inductive Quoted : List Char → List Char → Prop where
  | char {f u c x v} : Is (opt FWS) f → S.inner f u → Is qtext [c] → Quoted x v → Quoted (f ++ c :: x) (u ++ c :: v)
  | pair {f u c x v} : Is (opt FWS) f → S.inner f u → Is (VCHAR / WSP) [c] → Quoted x v → Quoted (f ++ '\\' :: c :: x) (u ++ c :: v)
  | control {f u c w x v} : Is (opt FWS) f → S.inner f u → Is «obs-qp» ['\\', c] → S.control c w → Quoted x v → Quoted (f ++ '\\' :: c :: x) (u ++ (w ++ v))
  | done {f u} : Is (opt FWS) f → S.last f u → Quoted f u

/-- A word (3.2.5): an atom, or a quoted string, which stands for its content. -/
inductive Word : List Char → List Char → Prop where
  | atom {a t b} : Is (opt CFWS) a → Is (some1 atext) t → Is (opt CFWS) b → Word (a ++ (t ++ b)) t
  | quoted {a q v b} : Is (opt CFWS) a → Quoted S q v → Is (opt CFWS) b → Word (a ++ ('"' :: (q ++ '"' :: b))) v

/-- What a phrase consists of. -/
inductive Part where
  | word (v : List Char)
  | period
  deriving DecidableEq

/-- Two pieces of text that touch: the end of an atom and the beginning of another one. -/
def Touch (t r : List Char) : Prop := ∃ c ∈ t.getLast?, ∃ d ∈ r.head?, Is atext [c] ∧ Is atext [d]

/-- Words, periods, comments and white space.  Atoms are as long as possible. -/
inductive Parts : List Char → List Part → Prop where
  | nil : Parts [] []
  | word {t v r ps} : Word S t v → ¬ Touch t r → Parts r ps → Parts (t ++ r) (.word v :: ps)
  | period {r ps} : Parts r ps → Parts ('.' :: r) (.period :: ps)
  | cfws {t r ps} : Is CFWS t → Parts r ps → Parts (t ++ r) ps

/-- A phrase (3.2.5, 4.1): the first part is a word. -/
inductive Phrase : List Char → List Part → Prop where
  | mk {t v r ps} : Word S t v → ¬ Touch t r → Parts S r ps → Phrase (t ++ r) (.word v :: ps)

/-- The parts one after the other, with a space between two words. -/
def spell : List Part → List Char
  | [] => []
  | [.word v] => v
  | .word v :: .word w :: r => v ++ ' ' :: spell (.word w :: r)
  | .word v :: r => v ++ spell r
  | .period :: r => '.' :: spell r

/-- The name that a phrase stands for.  (Empty quoted strings in front do not count.)  The RFC does not say what becomes of the white space around periods. -/
def phraseName (ps : List Part) : List Char := spell (ps.dropWhile (· == .word []))

/-- The local part of an address (3.4.1, 4.4): words with periods between them. -/
inductive LocalPart : List Char → List Char → Prop where
  | one {t v} : Word S t v → LocalPart t v
  | more {t v r u} : Word S t v → LocalPart r u → LocalPart (t ++ '.' :: r) (v ++ '.' :: u)

/-- The domain (3.4.1); a domain literal stands for itself. -/
inductive Domain : List Char → List Char → Prop where
  | dotAtom {a t b} : Is (opt CFWS) a → Is «dot-atom-text» t → Is (opt CFWS) b → Domain (a ++ (t ++ b)) t
  | literal {a t b} : Is (opt CFWS) a → Is (many (opt FWS ⬝ dtext) ⬝ opt FWS) t → Is (opt CFWS) b → Domain (a ++ ('[' :: (t ++ ']' :: b))) ('[' :: (t ++ [']']))

/-- An addr-spec (3.4.1). -/
inductive AddrSpec : List Char → List Char → Prop where
  | mk {l u d v} : LocalPart S l u → Domain d v → AddrSpec (l ++ '@' :: d) (u ++ '@' :: v)

/-- A mailbox (3.4, 4.4): with or without a display name.  Routes are ignored. -/
inductive Mailbox : List Char → Box → Prop where
  | named {n ps a r t v b} : Phrase S n ps → Is (opt CFWS) a → Is (opt «obs-route») r → AddrSpec S t v → Is (opt CFWS) b →
      Mailbox (n ++ (a ++ '<' :: (r ++ (t ++ '>' :: b)))) ⟨phraseName ps, v⟩
  | angle {a r t v b} : Is (opt CFWS) a → Is (opt «obs-route») r → AddrSpec S t v → Is (opt CFWS) b → Mailbox (a ++ '<' :: (r ++ (t ++ '>' :: b))) ⟨[], v⟩
  | bare {t v} : AddrSpec S t v → Mailbox t ⟨[], v⟩

/-- Items separated by commas, where items may be missing (4.4). -/
def Slots (Item : List Char → List Box → Prop) (text : List Char) (l : List (List Char × List Box)) : Prop :=
  l ≠ [] ∧ (∀ i ∈ l, Item i.1 i.2 ∨ Is (opt CFWS) i.1 ∧ i.2 = []) ∧ text = [','].intercalate (l.map (·.1))

/-- An address (3.4): a mailbox, or a group, which stands for its members. -/
inductive Address : List Char → List Box → Prop where
  | box {t v} : Mailbox S t v → Address t [v]
  | group {n ps m l b} : Phrase S n ps → Slots (fun t vs => ∃ v, Mailbox S t v ∧ vs = [v]) m l → Is (opt CFWS) b → Address (n ++ ':' :: (m ++ ';' :: b)) (l.flatMap (·.2))

/-- An address list: addresses separated by commas, each with the mailboxes it stands for. -/
def AddressList (text : List Char) (l : List (List Char × List Box)) : Prop := Slots (Address S) text l ∧ ∃ i ∈ l, Address S i.1 i.2

end

/-- Quotation marks cannot be misunderstood: if one at the beginning, or right behind a comma or semicolon, is overlooked, no colon is visible from there on (outside comments,
quoted strings and domain literals); and none has, apart from comments and white space, a comma, a semicolon or the end of the text behind it. -/
def SureQuotes (text : List Char) : Prop :=
  (∀ x y, text = x ++ '"' :: y → (∀ c ∈ x.getLast?, c = ',' ∨ c = ';') → ':' ∉ Spec.skeleton y) ∧
  (∀ x w y, text = x ++ '"' :: (w ++ y) → Spec.OptCfws w → ∃ c ∈ y.head?, c ≠ ',' ∧ c ≠ ';')

end Rfc5322.Rfc.Old
