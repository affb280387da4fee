import Verif.Spec.Rfc5322
import Verif.Spec.Skeleton

/-!
# Specification: what RFC 5322 says that addresses mean

The texts that RFC 5322 allows to generate, each with the meaning sections 3.2 to 3.4 give it.  The pieces are those derived from the rules of the RFC without its
obsolete syntax (`current`, in `Verif/Spec/Rfc5322.lean`).  Only `FirmGroups`, at the end, has to do with this package.
-/

namespace Rfc5322.Rfc

open Name Abnf

/-- A mailbox: the display name (empty if there is none) and the addr-spec, without comments, folding white space and quotation. -/
structure Box where
  name : List Char
  addr : List Char
  deriving DecidableEq

/-- What becomes of white space in quoted strings: in front of a character or quoted pair, and at the end. -/
structure Blanks where
  inner : List Char → List Char → Prop
  last : List Char → List Char → Prop

/-- White space without its line breaks (RFC 5322, 3.2.2: unfolding removes the CRLF). -/
def unfolded (f : List Char) : List Char := f.filter fun c => c != '\r' && c != '\n'

/-- RFC 5322, 3.2.4: the CRLF in any FWS within a quoted string is invisible, the rest is not. -/
def rfcBlanks : Blanks := ⟨fun f v => v = unfolded f, fun f v => v = unfolded f⟩

/-- This package: line breaks stay, white space at the end goes. -/
def goBlanks : Blanks := ⟨fun f v => v = f, fun _ v => v = []⟩

/-- No difference: there are no line breaks, and no white space at the end. -/
def tidyBlanks : Blanks := ⟨fun f v => '\r' ∉ f ∧ '\n' ∉ f ∧ v = f, fun f v => f = [] ∧ v = []⟩

section
variable (B : Blanks)

/-- The content of a quoted string (3.2.4): the backslash of a quoted pair is invisible. -/
inductive Quoted : List Char → List Char → Prop where
  | char {f u c x v} : Derivable current (opt FWS) f → B.inner f u → Derivable current qtext [c] → Quoted x v → Quoted (f ++ c :: x) (u ++ c :: v)
  | pair {f u c x v} : Derivable current (opt FWS) f → B.inner f u → Derivable current «quoted-pair» ['\\', c] → Quoted x v → Quoted (f ++ '\\' :: c :: x) (u ++ c :: v)
  | done {f u} : Derivable current (opt FWS) f → B.last f u → Quoted f u

/-- A word (3.2.5): an atom, or a quoted string, which stands for its content.  The surrounding comments and white space are not part of it. -/
inductive Word : List Char → List Char → Prop where
  | atom {a t b} : Derivable current (opt CFWS) a → Derivable current (some1 atext) t → Derivable current (opt CFWS) b → Word (a ++ (t ++ b)) t
  | quoted {a q v b} : Derivable current (opt CFWS) a → Quoted B q v → Derivable current (opt CFWS) b → Word (a ++ ('"' :: (q ++ '"' :: b))) v

/-- A phrase (3.2.5) and its words.  Atoms are as long as possible. -/
inductive Phrase : List Char → List (List Char) → Prop where
  | one {t v} : Word B t v → Phrase t [v]
  | cons {t v r vs} : Word B t v → (¬ ∃ c ∈ t.getLast?, ∃ d ∈ r.head?, Derivable current atext [c] ∧ Derivable current atext [d]) → Phrase r vs → Phrase (t ++ r) (v :: vs)

/-- The name that a phrase stands for: its words with single spaces between them.  (Empty quoted strings in front do not count.) -/
def phraseName (vs : List (List Char)) : List Char := [' '].intercalate (vs.dropWhile (· == []))

/-- The local part of an address (3.4.1). -/
inductive LocalPart : List Char → List Char → Prop where
  | dotAtom {a t b} : Derivable current (opt CFWS) a → Derivable current «dot-atom-text» t → Derivable current (opt CFWS) b → LocalPart (a ++ (t ++ b)) t
  | quoted {a q v b} : Derivable current (opt CFWS) a → Quoted B q v → Derivable current (opt CFWS) b → LocalPart (a ++ ('"' :: (q ++ '"' :: b))) v

/-- The domain (3.4.1); a domain literal stands for itself. -/
inductive Domain : List Char → List Char → Prop where
  | dotAtom {a t b} : Derivable current (opt CFWS) a → Derivable current «dot-atom-text» t → Derivable current (opt CFWS) b → Domain (a ++ (t ++ b)) t
  | literal {a t b} : Derivable current (opt CFWS) a → Derivable current (many (opt FWS ⬝ dtext) ⬝ opt FWS) t → Derivable current (opt CFWS) b →
      Domain (a ++ ('[' :: (t ++ ']' :: b))) ('[' :: (t ++ [']']))

/-- An addr-spec (3.4.1). -/
inductive AddrSpec : List Char → List Char → Prop where
  | mk {l u d v} : LocalPart B l u → Domain d v → AddrSpec (l ++ '@' :: d) (u ++ '@' :: v)

/-- A mailbox (3.4): with or without a display name. -/
inductive Mailbox : List Char → Box → Prop where
  | named {n vs a t v b} : Phrase B n vs → Derivable current (opt CFWS) a → AddrSpec B t v → Derivable current (opt CFWS) b →
      Mailbox (n ++ (a ++ '<' :: (t ++ '>' :: b))) ⟨phraseName vs, v⟩
  | angle {a t v b} : Derivable current (opt CFWS) a → AddrSpec B t v → Derivable current (opt CFWS) b → Mailbox (a ++ '<' :: (t ++ '>' :: b)) ⟨[], v⟩
  | bare {t v} : AddrSpec B t v → Mailbox t ⟨[], v⟩

/-- Mailboxes separated by commas. -/
inductive Mailboxes : List Char → List Box → Prop where
  | one {t v} : Mailbox B t v → Mailboxes t [v]
  | cons {t v r vs} : Mailbox B t v → Mailboxes r vs → Mailboxes (t ++ ',' :: r) (v :: vs)

/-- The members of a group: mailboxes, or nothing but comments and white space. -/
inductive Members : List Char → List Box → Prop where
  | boxes {t vs} : Mailboxes B t vs → Members t vs
  | none {t} : Derivable current (opt CFWS) t → Members t []

/-- An address (3.4): a mailbox, or a group, which stands for its members. -/
inductive Address : List Char → List Box → Prop where
  | box {t v} : Mailbox B t v → Address t [v]
  | group {n ws m vs b} : Phrase B n ws → Members B m vs → Derivable current (opt CFWS) b → Address (n ++ ':' :: (m ++ ';' :: b)) vs

/-- An address list: addresses separated by commas, each with the mailboxes it stands for. -/
def AddressList (text : List Char) (l : List (List Char × List Box)) : Prop :=
  l ≠ [] ∧ (∀ i ∈ l, Address B i.1 i.2) ∧ text = [','].intercalate (l.map (·.1))

/-- If a group begins with a quotation mark, and this mark is overlooked, then no colon is visible from there on (outside comments, quoted strings and domain literals). -/
def FirmGroups (l : List (List Char × List Box)) : Prop :=
  ∀ l₁ i l₂, l = l₁ ++ i :: l₂ → (∃ v, Mailbox B i.1 v ∧ i.2 = [v]) ∨ ∀ x, [','].intercalate ((i :: l₂).map (·.1)) = '"' :: x → ':' ∉ Spec.skeleton x

end

end Rfc5322.Rfc
