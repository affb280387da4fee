import Verif.Model.G4

/-!
# Specification: the meaning of grammar files

What the rules of a grammar file derive: sequences of characters in a lexer grammar, sequences of tokens in a parser grammar.
-/

namespace Rfc5322.G4

/-- Sequences of `α` derived from an expression, with the rules `g`; `is e a` says that the single symbol `a` is an `e`. -/
inductive Derives {α : Type} (g : List (Name × Ebnf)) (is : Ebnf → α → Prop) : Ebnf → List α → Prop where
  | symbol {e a} : is e a → Derives g is e [a]
  | rule {n e x} : (n, e) ∈ g → Derives g is e x → Derives g is (.ref n) x
  | seq {a b x y} : Derives g is a x → Derives g is b y → Derives g is (.seq a b) (x ++ y)
  | left {a b x} : Derives g is a x → Derives g is (.alt a b) x
  | right {a b x} : Derives g is b x → Derives g is (.alt a b) x
  | none {a} : Derives g is (.opt a) []
  | some {a x} : Derives g is a x → Derives g is (.opt a) x
  | stop {a} : Derives g is (.star a) []
  | again {a x y} : Derives g is a x → Derives g is (.star a) y → Derives g is (.star a) (x ++ y)
  | plus {a x y} : Derives g is a x → Derives g is (.star a) y → Derives g is (.plus a) (x ++ y)

/-- The symbols of a lexer grammar are characters. -/
def isChar : Ebnf → Char → Prop
  | .range lo hi, c => lo ≤ c.toNat ∧ c.toNat ≤ hi
  | _, _ => False

/-- Tokens have a name and a text. -/
structure Token where
  name : Name
  text : List Char
  deriving DecidableEq

/-- The token at the end of every input. -/
def EOF : Token := ⟨c!"EOF", []⟩

/-- The symbols of a parser grammar are tokens. -/
def isToken : Ebnf → Token → Prop
  | .ref n, t => t.name = n
  | _, _ => False

/-- The text `x` can be a token of the rule number `i`. -/
def Matches (L : Grammar) (i : Nat) (x : List Char) : Prop := ∃ r, L.rules[i]? = some r ∧ Derives L.rules isChar r.2 x

/-- From characters to tokens: the longest non-empty beginning of the text that can be a token is the next one; its name is that of the first rule it
can be a token of.  If there is none, a character is skipped. -/
inductive Lexes (L : Grammar) : List Char → List Token → Prop where
  | nil : Lexes L [] []
  | token {i r x y ts} : L.rules[i]? = some r → x ≠ [] → Matches L i x → (∀ j z w, x ++ y = z ++ w → Matches L j z → z.length ≤ x.length) → (∀ j < i, ¬ Matches L j x) →
      Lexes L y ts → Lexes L (x ++ y) (⟨r.1, x⟩ :: ts)
  | skip {c y ts} : (∀ j z w, c :: y = z ++ w → z ≠ [] → ¬ Matches L j z) → Lexes L y ts → Lexes L (c :: y) ts

/-- The text is, with the tokens of `L`, something that the rule `n` of `P` derives. -/
def Accepted (L P : Grammar) (n : Name) (text : List Char) : Prop := ∃ ts, Lexes L text ts ∧ Derives P.rules isToken (.ref n) (ts ++ [EOF])

/-! ## Which derivation -/

/-- Parse trees. -/
inductive Parse where
  | token (t : Token)
  | rule (n : Name) (children : List Parse)

/-- The beginning of `s` can be derived from `e` so that the rest is in `K`. -/
def Completes (g : List (Name × Ebnf)) (e : Ebnf) (K : List Token → Prop) (s : List Token) : Prop := ∃ x s', s = x ++ s' ∧ Derives g isToken e x ∧ K s'

/-- The derivation of a beginning of `s` that takes, from left to right, the first alternative (with options and repetitions: once more rather than not) which
still leaves a way to bring the rest into `K`; its trees, and the rest. -/
inductive Prefers (g : List (Name × Ebnf)) : (List Token → Prop) → Ebnf → List Token → List Parse → List Token → Prop where
  | symbol {K e t s} : isToken e t → K s → Prefers g K e (t :: s) [.token t] s
  | rule {K n e s ts s'} : (n, e) ∈ g → Prefers g K e s ts s' → Prefers g K (.ref n) s [.rule n ts] s'
  | seq {K a b s ts s' us s''} : Prefers g (Completes g b K) a s ts s' → Prefers g K b s' us s'' → Prefers g K (.seq a b) s (ts ++ us) s''
  | first {K a b s ts s'} : Prefers g K a s ts s' → Prefers g K (.alt a b) s ts s'
  | second {K a b s ts s'} : ¬ Completes g a K s → Prefers g K b s ts s' → Prefers g K (.alt a b) s ts s'
  | some {K a s ts s'} : Prefers g K a s ts s' → Prefers g K (.opt a) s ts s'
  | none {K a s} : ¬ Completes g a K s → K s → Prefers g K (.opt a) s [] s
  | again {K a s ts s' us s''} : Prefers g (Completes g (.star a) K) a s ts s' → Prefers g K (.star a) s' us s'' → Prefers g K (.star a) s (ts ++ us) s''
  | stop {K a s} : ¬ Completes g (.plus a) K s → K s → Prefers g K (.star a) s [] s
  | plus {K a s ts s' us s''} : Prefers g (Completes g (.star a) K) a s ts s' → Prefers g K (.star a) s' us s'' → Prefers g K (.plus a) s (ts ++ us) s''

end Rfc5322.G4
