import Verif.Model.Grammar

/-!
# The parser

`descend` has the shape of the generated Go functions (/repo/parser/rfc5322_parser.go): a recursive descent which
at every decision asks a predictor which alternative to take.  `search` is an ordered exhaustive search.  They are
proved equal for every conforming predictor in `Verif/Proofs/Descend.lean`.
-/

namespace Rfc5322

/-- Parse trees built by the generated parser: terminal nodes, the EOF terminal, and rule nodes
(`antlr.ParserRuleContext`) with their children. -/
inductive Tree where
  | tok (c : Char)
  | eof
  | node (r : Rule) (ts : List Tree)

/-! ## Derivations: what a grammar expression means -/

/-- `Derives g s ts s'`: the expression `g` derives a prefix of the token list `s`, leaving `s'` and building the
trees `ts`.  This is the textbook meaning of the EBNF operators of RFC5322Parser.g4. -/
inductive Derives : G → List Char → List Tree → List Char → Prop where
  | eps {s} : Derives .eps s [] s
  | eof : Derives .eof [] [.eof] []
  | t {k c s} : k.matches c = true → Derives (.t k) (c :: s) [.tok c] s
  | seq {a b s ts s' us s''} : Derives a s ts s' → Derives b s' us s'' → Derives (a ⬝ b) s (ts ++ us) s''
  | altL {a b s ts s'} : Derives a s ts s' → Derives (a ‖ b) s ts s'
  | altR {a b s ts s'} : Derives b s ts s' → Derives (a ‖ b) s ts s'
  | starNil {a s} : Derives (.star a) s [] s
  | starCons {a s ts s' us s''} :
      Derives a s ts s' → Derives (.star a) s' us s'' → Derives (.star a) s (ts ++ us) s''
  | rule {r a s ts s'} : Derives a s ts s' → Derives (.rule r a) s [.node r ts] s'
  | comment {s ts s'} : Derives Gr.commentBody s ts s' → Derives .comment s [.node .comment ts] s'

/-- The stack of grammar symbols `γ` (what remains to be matched after the current point, up to the end of the start
rule) can match exactly the remaining tokens `s`. -/
inductive Viable : List G → List Char → Prop where
  | nil : Viable [] []
  | cons {g γ s ts s'} : Derives g s ts s' → Viable γ s' → Viable (g :: γ) s

/-! ## Prediction -/

/-- The decision procedure of the ANTLR runtime (`AdaptivePredict`, and the LL(1) tests the generator emits when one
token of lookahead suffices), *with the property proved of ALL(*)*: with the complete call stack as context it
chooses the smallest-numbered alternative that can still lead to a match of the whole remaining input, if there is
one.  When there is none its answer is unspecified.

`predict α β s` is `true` when the first alternative is chosen; `α` and `β` are the two alternatives, each followed by
everything that remains to be matched after the decision.  (An n-way decision is a right-nested chain of two-way
decisions; "least viable of n" is the same thing.)

The ANTLR runtime is not part of /repo: this is the assumption made about it. -/
structure Predictor where
  predict : List G → List G → List Char → Bool
  first : ∀ α β s, Viable α s → predict α β s = true
  second : ∀ α β s, ¬ Viable α s → Viable β s → predict α β s = false

/-- Result of running part of the generated parser: the children added to the current context and the remaining
tokens, or `none` when a syntax error was reported (`p.Match` failed). -/
abbrev Step := Option (List Tree × List Char)

/-- Loop of the generated code for `a*` and `a+`
(`for _alt != 2 … { …; _alt = p.GetInterpreter().AdaptivePredict(…) }`, e.g.
/repo/parser/rfc5322_parser.go:7996-8023).  `n` bounds the number of iterations; every iteration consumes at least one
token (`Proofs/Search.lean`), so more than the number of remaining
tokens is never needed. -/
def descendLoop (P : Predictor) (a : G) (body : List G → List Char → Step) (γ : List G) :
    Nat → List Char → Step
  | 0, s => some ([], s)
  | n + 1, s =>
    if P.predict (a :: .star a :: γ) γ s then
      match body (.star a :: γ) s with
      | none => none
      | some (ts, s') =>
        match descendLoop P a body γ n s' with
        | none => none
        | some (us, s'') => some (ts ++ us, s'')
    else some ([], s)

/-- The generated recursive-descent parser (/repo/parser/rfc5322_parser.go:872-14929), interpreted over the grammar
expression: sequence = consecutive `p.X()` / `p.Match(T)` calls, `‖` = a decision followed by the chosen branch,
`rule` = call of the rule's function (its children become one node).  `γ` is the call stack: everything still to be
matched afterwards.  `cm` is the function of the recursive rule `comment`. -/
def descendWith (P : Predictor) (cm : List G → List Char → Step) : G → List G → List Char → Step
  | .eps, _, s => some ([], s)
  | .eof, _, s => match s with
    | [] => some ([.eof], [])
    | _ :: _ => none
  | .t k, _, s => match s with
    | [] => none
    | c :: s' => if k.matches c then some ([.tok c], s') else none
  | .seq a b, γ, s =>
    match descendWith P cm a (b :: γ) s with
    | none => none
    | some (ts, s') =>
      match descendWith P cm b γ s' with
      | none => none
      | some (us, s'') => some (ts ++ us, s'')
  | .alt a b, γ, s =>
    if P.predict (a :: γ) (b :: γ) s then descendWith P cm a γ s else descendWith P cm b γ s
  | .star a, γ, s => descendLoop P a (descendWith P cm a) γ (s.length + 1) s
  | .rule r a, γ, s =>
    match descendWith P cm a γ s with
    | none => none
    | some (ts, s') => some ([.node r ts], s')
  | .comment, γ, s => cm γ s

/-- `p.Comment()` (/repo/parser/rfc5322_parser.go:2069-2144), which calls itself through `p.Ccontent()` (:1866-1919).
`d` bounds the recursion depth; every nested call consumes a `(` first, so the number of tokens is enough. -/
def descendComment (P : Predictor) : Nat → List G → List Char → Step
  | 0, _, _ => none
  | d + 1, γ, s =>
    match descendWith P (descendComment P d) Gr.commentBody γ s with
    | none => none
    | some (ts, s') => some ([.node .comment ts], s')

/-- Calling the function of a start rule on a token stream (`p.AddressList()`, /repo/parser.go:31;
`p.DateTime()`, /repo/parser.go:54).  `none`: at least one syntax error was reported to the walker. -/
def descend (P : Predictor) (g : G) (s : List Char) : Option (List Tree) :=
  match descendWith P (descendComment P s.length) g [] s with
  | some (ts, []) => some ts
  | _ => none

/-! ## Ordered search -/

/-- Continuations of the search: given the trees just built and the remaining tokens. -/
abbrev Cont (R : Type) := List Tree → List Char → Option R

/-- Repetition, longest first. -/
def searchLoop {R : Type} (body : List Char → Cont R → Option R) : Nat → List Char → Cont R → Option R
  | 0, s, k => k [] s
  | n + 1, s, k =>
    (body s fun ts s' => searchLoop body n s' fun us s'' => k (ts ++ us) s'').or (k [] s)

/-- Try all derivations of the expression in order — earlier alternatives first, longer repetitions first — and return
the first for which the continuation succeeds. -/
def searchWith {R : Type} (cm : List Char → Cont R → Option R) : G → List Char → Cont R → Option R
  | .eps, s, k => k [] s
  | .eof, s, k => match s with
    | [] => k [.eof] []
    | _ :: _ => none
  | .t x, s, k => match s with
    | [] => none
    | c :: s' => if x.matches c then k [.tok c] s' else none
  | .seq a b, s, k => searchWith cm a s fun ts s' => searchWith cm b s' fun us s'' => k (ts ++ us) s''
  | .alt a b, s, k => (searchWith cm a s k).or (searchWith cm b s k)
  | .star a, s, k => searchLoop (searchWith cm a) (s.length + 1) s k
  | .rule r a, s, k => searchWith cm a s fun ts s' => k [.node r ts] s'
  | .comment, s, k => cm s k

/-- Search for the recursive rule `comment`, nesting depth at most `d`. -/
def searchComment {R : Type} : Nat → List Char → Cont R → Option R
  | 0, _, _ => none
  | d + 1, s, k => searchWith (searchComment d) Gr.commentBody s fun ts s' => k [.node .comment ts] s'

/-- First complete derivation of the token list. -/
def search (g : G) (s : List Char) : Option (List Tree) :=
  searchWith (searchComment s.length) g s fun ts s' => if s'.isEmpty then some ts else none

end Rfc5322
