import Verif.Spec.Address

/-!
# Specification: addresses that can be written down and read back
-/

namespace Rfc5322.Spec

/-- What can stand before the `@` of an address: printable characters (non-ASCII up to U+FFFF), spaces and tabs, but no
white space at the end. -/
def LocalText (l : List Char) : Prop :=
  l ≠ [] ∧ (∀ c ∈ l, isVchar c || isWsp c) ∧ ∀ c ∈ l.getLast?, isWsp c = false

/-- What can stand after it: a dot-atom or a domain literal, possibly with a port. -/
inductive HostText : List Char → Prop where
  | dotAtom {d} : DotAtom d → HostText d
  | literal {d} : DomainLiteral d → HostText d
  | dotAtomPort {d p} : DotAtom d → p ≠ [] → (∀ c ∈ p, isDigit c) → HostText (d ++ ':' :: p)
  | literalPort {d p} : DomainLiteral d → p ≠ [] → (∀ c ∈ p, isDigit c) → HostText (d ++ ':' :: p)

/-- Nothing but printable ASCII characters, spaces and tabs. -/
def printable (name : Bytes) : Bool := name.all fun b => decide (0x20 ≤ b.toNat) && decide (b.toNat ≤ 0x7E) || b == 0x09

/-- The bytes without the spaces and tabs at the end. -/
def trimEnd (name : Bytes) : Bytes := (name.reverse.dropWhile fun b => b == 0x20 || b == 0x09).reverse

end Rfc5322.Spec
