import Verif.Spec.RfcObsolete
import Verif.Spec.Rfc2047
import Verif.Spec.Clear
import Verif.Model.Mime

/-!
# Specification: what RFC 2047 says that names with encoded words mean

Addresses as in `Verif/Spec/RfcObsolete.lean`, in whose display names and names of groups there may also be encoded words.
-/

namespace Rfc5322.Rfc.Mime

open Name Abnf
open Old (Is Style)
open Spec (encode Spells Carries KnownCharset NoMark)

/-- The text that bytes stand for, in a character set. -/
abbrev Charsets := List Char → Bytes → List Char → Prop

/-- The character sets that everyone knows, and those that the installed `CharsetReader` converts to UTF-8. -/
inductive Known (cr : CharsetReader) : Charsets where
  | utf8 {cs v} : Spells cs c!"utf-8" → Known cr cs (encode v) v
  | latin1 {cs bs} : Spells cs c!"iso-8859-1" → Known cr cs bs (bs.map fun b => Char.ofNat b.toNat)
  | ascii {cs bs} : Spells cs c!"us-ascii" → (∀ b ∈ bs, b.toNat < 128) → Known cr cs bs (bs.map fun b => Char.ofNat b.toNat)
  | other {cs bs f v} : ¬ KnownCharset cs → cr = some f → f (encode (cs.map Char.toLower)) bs = some (encode v) → Known cr cs bs v

/-- RFC 2047, section 2: the characters of the name of a character set. -/
def Token (t : List Char) : Prop := t ≠ [] ∧ ∀ c ∈ t, '!' ≤ c ∧ c ≤ '~' ∧ c ∉ c!"()<>@,;:\"/[]?.="

/-- An encoded word in a phrase, and what it stands for (RFC 2047, sections 2, 4, and 5 (3), which only allows characters of atoms). -/
inductive Encoded (C : Charsets) : List Char → List Char → Prop where
  | mk {cs en tx bs v} : Token cs → Carries en tx bs → tx ≠ [] → (∀ c ∈ cs ++ tx, Is atext [c]) → C cs bs v → Encoded C (Spec.encodedWord cs en tx) v

/-- What a phrase consists of. -/
inductive Part where
  | word (v : List Char)
  | encoded (v : List Char)
  | period
  deriving DecidableEq

section
variable (S : Style) (C : Charsets)

/-- Words, encoded words, periods, comments and white space.  Atoms are as long as possible; encoded words are separated from atoms and from each other (5 (3)).
`=?` occurs in encoded words only. -/
inductive Parts : List Char → List Part → Prop where
  | nil : Parts [] []
  | word {t v r ps} : Old.Word S t v → NoMark t → ¬ Old.Touch t r → Parts r ps → Parts (t ++ r) (.word v :: ps)
  | encoded {t v r ps} : Encoded C t v → ¬ Old.Touch t r → Parts r ps → Parts (t ++ r) (.encoded v :: ps)
  | period {r ps} : Parts r ps → Parts ('.' :: r) (.period :: ps)
  | cfws {t r ps} : Is CFWS t → Parts r ps → Parts (t ++ r) ps

/-- A phrase: the first part is a word or an encoded word. -/
inductive Phrase : List Char → List Part → Prop where
  | word {t v r ps} : Old.Word S t v → NoMark t → ¬ Old.Touch t r → Parts S C r ps → Phrase (t ++ r) (.word v :: ps)
  | encoded {a t v r ps} : Is (opt CFWS) a → Encoded C t v → ¬ Old.Touch t r → Parts S C r ps → Phrase (a ++ (t ++ r)) (.encoded v :: ps)

/-- Encoded words one after the other are one word: what separates them is ignored (RFC 2047, 6.2). -/
def words : List Part → List Old.Part
  | [] => []
  | .word v :: r => .word v :: words r
  | .period :: r => .period :: words r
  | .encoded v :: r =>
    match r, words r with
    | .encoded _ :: _, .word u :: ps => .word (v ++ u) :: ps
    | _, ps => .word v :: ps

example : words [.word c!"a", .encoded c!"b", .encoded c!"c", .encoded c!"d", .word c!"e", .encoded c!"f", .period, .encoded c!"g"] =
    [.word c!"a", .word c!"bcd", .word c!"e", .word c!"f", .period, .word c!"g"] := by decide

/-- A mailbox. -/
inductive Mailbox : List Char → Box → Prop where
  | named {n ps r t v b} : Phrase S C n ps → Is (opt «obs-route») r → Old.AddrSpec S t v → NoMark t → Is (opt CFWS) b →
      Mailbox (n ++ '<' :: (r ++ (t ++ '>' :: b))) ⟨Old.phraseName (words ps), v⟩
  | angle {a r t v b} : Is (opt CFWS) a → Is (opt «obs-route») r → Old.AddrSpec S t v → NoMark t → Is (opt CFWS) b → Mailbox (a ++ '<' :: (r ++ (t ++ '>' :: b))) ⟨[], v⟩
  | bare {t v} : Old.AddrSpec S t v → NoMark t → Mailbox t ⟨[], v⟩

/-- Mailboxes separated by commas. -/
inductive Mailboxes : List Char → List Box → Prop where
  | one {t v} : Mailbox S C t v → Mailboxes t [v]
  | cons {t v r vs} : Mailbox S C t v → Mailboxes r vs → Mailboxes (t ++ ',' :: r) (v :: vs)

/-- The members of a group, none missing: mailboxes, or nothing but comments and white space. -/
inductive Members : List Char → List Box → Prop where
  | boxes {t vs} : Mailboxes S C t vs → Members t vs
  | none {t} : Is (opt CFWS) t → Members t []

/-- An address: a mailbox, or a group, which stands for its members. -/
inductive Address : List Char → List Box → Prop where
  | box {t v} : Mailbox S C t v → Address t [v]
  | group {n ps m vs b} : Phrase S C n ps → Members S C m vs → Is (opt CFWS) b → Address (n ++ ':' :: (m ++ ';' :: b)) vs

/-- An address list without missing items: addresses separated by commas, each with the mailboxes it stands for. -/
def AddressList (text : List Char) (l : List (List Char × List Box)) : Prop :=
  l ≠ [] ∧ (∀ i ∈ l, Address S C i.1 i.2) ∧ text = [','].intercalate (l.map (·.1))

/-- An address, with or without missing members. -/
inductive OldAddress : List Char → List Box → Prop where
  | box {t v} : Mailbox S C t v → OldAddress t [v]
  | group {n ps m l b} : Phrase S C n ps → Old.Slots (fun t vs => ∃ v, Mailbox S C t v ∧ vs = [v]) m l → Is (opt CFWS) b → OldAddress (n ++ ':' :: (m ++ ';' :: b)) (l.flatMap (·.2))

/-- An address list, with or without missing items. -/
def OldAddressList (text : List Char) (l : List (List Char × List Box)) : Prop := Old.Slots (OldAddress S C) text l ∧ ∃ i ∈ l, OldAddress S C i.1 i.2

/-- If a group begins with a quotation mark, and this mark is overlooked, then from there on no colon is visible (outside comments, quoted strings and domain
literals), and there are no encoded words. -/
def FirmGroups (l : List (List Char × List Box)) : Prop :=
  ∀ l₁ i l₂, l = l₁ ++ i :: l₂ → (∃ v, Mailbox S C i.1 v ∧ i.2 = [v]) ∨ ∀ x, [','].intercalate ((i :: l₂).map (·.1)) = '"' :: x → ':' ∉ Spec.skeleton x ∧ NoMark x

end

end Rfc5322.Rfc.Mime
