import Verif.Model.Recovery
import Verif.Proofs.GenCheck

/-!
# What the functions do as long as they make no headway

Sets of token types are numbers: bit 0 is the end of the input, bit 1 a token of no type, bit `k` + 1 a token of type `k`.  `stay c` are the types which may still be that of the
next token when the statement ends; `fine X c` says that functions called without headway, if the next token is in `X`, are of smaller rank; `brisk c` that no loop
goes round without headway, and some things about the states and decisions mentioned.
-/

namespace Rfc5322.Recovery

open Atn Gen AllStar

/-- The bit of a value of `_la`. -/
def bitOf (x : Int) : Nat := (x + 1).toNat

/-- All types. -/
def full : Nat := 2 ^ 72 - 1

/-- The other types. -/
def other (m : Nat) : Nat := full ^^^ m

/-- The type of a token. -/
def tokMask (k : Tok) : Nat := 1 <<< (typeOf k + 1)

/-- The types of some tokens. -/
def toksMask (ks : List Tok) : Nat := ks.foldr (fun k m => m ||| tokMask k) 0

/-- The types that pass a test. -/
def testMask : Test → Nat
  | .eq k => tokMask k
  | .bits base ks => ks.foldr (fun k m => if typeOf k - base < 32 then m ||| 1 <<< (typeOf k - base + base + 1) else m) 0
  | .or a b => testMask a ||| testMask b

/-- The types in an entry of the lookahead table; all of them if the rule can end. -/
def lookMask (m : Nat) : Nat := if m.testBit nullBit then full else (m &&& 1) ||| (m &&& (2 ^ 71 - 2)) <<< 1

section
variable (A : Nat → List Nat) (T : Rule → Nat)

/-- With these types, alternative number `n` (counted from 1) may be predicted. -/
def mayBe (d n : Nat) : Nat := if n = 0 then 0 else (A d).getD (n - 1) 0

/-- With these types, a loop may be left. -/
def mayLeave : Ask → Nat
  | .alt d => mayBe A d 2
  | .la t => other (testMask t)

/-- With these types, a round may begin. -/
def mayEnter : Ask → Nat
  | .alt d => mayBe A d 1
  | .la t => testMask t

/-- All of these. -/
def union (n : Nat) (f : Nat → Nat) : Nat := (List.range n).foldr (fun i m => m ||| f i) 0

mutual
/-- The statement may end without headway. -/
def stay : Code → Nat
  | .skip => full
  | .seq a b => stay a &&& stay b
  | .tok _ k => other (tokMask k)
  | .eof _ => full
  | .set _ t => other (testMask t)
  | .call _ r => T r
  | .switchAlt _ d cs => union (A d).length fun i => mayBe A d (i + 1) &&& stayAlt (i + 1) cs
  | .ifLa _ t c => other (testMask t) ||| stay c
  | .switchLa _ cs => stayLa cs
  | .star _ _ a _ => mayLeave A a
  | .plus _ _ a c => stay c &&& mayLeave A a
/-- The case with number `a` may end without headway. -/
def stayAlt (a : Nat) : Cases → Nat
  | .nil => full
  | .alt m c cs => if a = m then stay c else stayAlt a cs
  | .toks _ _ cs => stayAlt a cs
/-- The case with the type of the next token may end without headway. -/
def stayLa : Cases → Nat
  | .nil => 0
  | .alt _ _ cs => stayLa cs
  | .toks ks c cs => toksMask ks &&& stay c ||| stayLa cs
end

mutual
/-- Functions called without headway are below `lt`. -/
def fine (lt : Rule → Nat) : Nat → Code → Bool
  | _, .skip => true
  | X, .seq a b => fine lt X a && fine lt (X &&& stay A T a) b
  | _, .tok _ _ => true
  | _, .eof _ => true
  | _, .set _ _ => true
  | X, .call _ r => X &&& lt r == X
  | X, .switchAlt _ d cs => (List.range (A d).length).all fun i => fineAlt lt (X &&& mayBe A d (i + 1)) (i + 1) cs
  | X, .ifLa _ t c => fine lt (X &&& testMask t) c
  | X, .switchLa _ cs => fineLa lt X cs
  | X, .star _ _ a c => fine lt (X &&& mayEnter A a) c
  | X, .plus _ _ _ c => fine lt X c
/-- The same for the case with number `a`. -/
def fineAlt (lt : Rule → Nat) (X : Nat) (a : Nat) : Cases → Bool
  | .nil => true
  | .alt m c cs => if a = m then fine lt X c else fineAlt lt X a cs
  | .toks _ _ cs => fineAlt lt X a cs
/-- The same for the case with the type of the next token. -/
def fineLa (lt : Rule → Nat) (X : Nat) : Cases → Bool
  | .nil => true
  | .alt _ _ cs => fineLa lt X cs
  | .toks ks c cs => fine lt (X &&& toksMask ks) c && fineLa lt X cs
end

/-- No round of the loop goes without headway, and the decision is one between going on and leaving. -/
def askBrisk (c : Code) (a : Ask) : Bool := (mayEnter A a &&& stay A T c == 0) && match a with
  | .alt d => (A d).length == 2
  | .la _ => true

mutual
/-- No loop goes round without headway, and states are less than `K`. -/
def brisk (K : Nat) : Code → Bool
  | .skip => true
  | .seq a b => brisk K a && brisk K b
  | .tok st _ => decide (st < K)
  | .eof st => decide (st < K)
  | .set st _ => decide (st < K)
  | .call _ _ => true
  | .switchAlt st _ cs => decide (st < K) && briskCases K cs
  | .ifLa st _ c => decide (st < K) && brisk K c
  | .switchLa st cs => decide (st < K) && briskCases K cs
  | .star st st' a c => decide (st < K) && decide (st' < K) && askBrisk A T c a && brisk K c
  | .plus st st' a c => decide (st < K) && decide (st' < K) && askBrisk A T c a && brisk K c
/-- The same for cases. -/
def briskCases (K : Nat) : Cases → Bool
  | .nil => true
  | .alt _ c cs => brisk K c && briskCases K cs
  | .toks _ c cs => brisk K c && briskCases K cs
end

end

mutual
/-- The end of the input is not matched. -/
def noEof : Code → Bool
  | .skip => true
  | .seq a b => noEof a && noEof b
  | .tok _ _ => true
  | .eof _ => false
  | .set _ _ => true
  | .call _ _ => true
  | .switchAlt _ _ cs => noEofCases cs
  | .ifLa _ _ c => noEof c
  | .switchLa _ cs => noEofCases cs
  | .star _ _ _ c => noEof c
  | .plus _ _ _ c => noEof c
/-- The same for cases. -/
def noEofCases : Cases → Bool
  | .nil => true
  | .alt _ c cs => noEof c && noEofCases cs
  | .toks _ c cs => noEof c && noEofCases cs
end

mutual
/-- The end of the input is matched at the end only. -/
def eofLast : Code → Bool
  | .skip => true
  | .seq a b => noEof a && eofLast b
  | .tok _ _ => true
  | .eof _ => true
  | .set _ _ => true
  | .call _ _ => true
  | .switchAlt _ _ cs => eofLastCases cs
  | .ifLa _ _ c => eofLast c
  | .switchLa _ cs => eofLastCases cs
  | .star _ _ _ c => noEof c
  | .plus _ _ _ c => noEof c
/-- The same for cases. -/
def eofLastCases : Cases → Bool
  | .nil => true
  | .alt _ c cs => eofLast c && eofLastCases cs
  | .toks _ c cs => eofLast c && eofLastCases cs
end

end Rfc5322.Recovery
