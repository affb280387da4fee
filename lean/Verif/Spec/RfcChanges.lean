import Verif.Spec.Rfc5322

/-!
# Specification: the changes one by one

`Verif/Spec/Rfc5322.lean` lists what this package restricts and what it adds to the rules of RFC 5322.  Here are the rules with one of these changes undone.
-/

namespace Rfc5322.Rfc

/-- The rules accepted, but without the extension of the rule `n`. -/
def without (n m : Name) : Abnf := if m = n then restricted m else accepted m

/-- The rules accepted, but without the restriction of the rule `n`. -/
def relaxed (n m : Name) : Abnf := if m = n then rfc m else accepted m

end Rfc5322.Rfc
