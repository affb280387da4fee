import Verif.Model.Parser

/-!
# Specification: ordered choice

`Preferred K g s ts s'`: among the derivations of `g` from `s` whose remainder satisfies `K`, the one that at every
decision, from left to right, takes the earliest alternative — and repeats rather than stops — that still leaves a way
to reach `K`.  `K` says what may come after.
-/

namespace Rfc5322.Spec

/-- `g` can be matched from `s` with a remainder in `K`. -/
def Completes (g : G) (K : List Char → Prop) (s : List Char) : Prop := ∃ ts s', Derives g s ts s' ∧ K s'

/-- The derivation preferred by ordered choice. -/
inductive Preferred : (List Char → Prop) → G → List Char → List Tree → List Char → Prop where
  | eps {K s} : K s → Preferred K .eps s [] s
  | eof {K : List Char → Prop} : K [] → Preferred K .eof [] [.eof] []
  | t {K : List Char → Prop} {k c s} : k.matches c = true → K s → Preferred K (.t k) (c :: s) [.tok c] s
  | seq {K a b s ts s' us s''} : Preferred (Completes b K) a s ts s' → Preferred K b s' us s'' →
      Preferred K (a ⬝ b) s (ts ++ us) s''
  | first {K a b s ts s'} : Preferred K a s ts s' → Preferred K (a ‖ b) s ts s'
  | second {K a b s ts s'} : ¬ Completes a K s → Preferred K b s ts s' → Preferred K (a ‖ b) s ts s'
  | again {K a s ts s' us s''} : Preferred (Completes (.star a) K) a s ts s' → Preferred K (.star a) s' us s'' →
      Preferred K (.star a) s (ts ++ us) s''
  | stop {K a s} : ¬ Completes (a ⬝ .star a) K s → K s → Preferred K (.star a) s [] s
  | rule {K r a s ts s'} : Preferred K a s ts s' → Preferred K (.rule r a) s [.node r ts] s'
  | comment {K s ts s'} : Preferred K Gr.commentBody s ts s' → Preferred K .comment s [.node .comment ts] s'

end Rfc5322.Spec
