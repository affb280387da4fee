import Verif.Model.AllStar

/-!
# The lexer of the ANTLR runtime

`NewRFC5322Lexer` (/repo/parser/rfc5322_lexer.go) gives the serialized network of the lexer to the runtime named in /repo/go.mod:6, which does the rest.  `Lexes` in
`Verif/Model/Atn.lean` says what is expected of it: the longest match, and of those the one of the first rule.  Here is how the runtime does it, written down from
memory of `lexer.go` and `lexer_atn_simulator.go`; definitions cite their functions, with `L` for `LexerATNSimulator`.

Simplified: there are no predicates, actions, commands, modes but the first, and loops that are not greedy in the network, so what is done for them is left out.
-/

namespace Rfc5322.LexerSim

open Atn Gen AllStar

/-- A configuration (`LexerATNConfig`): the number of the rule (counted from 1), the state, and the states to go on with when rules are left. -/
structure Conf where
  alt : Nat
  state : Nat
  stack : List Nat
  deriving DecidableEq

/-- A set of configurations in the order in which they have been added (`OrderedATNConfigSet`). -/
abbrev Confs := List Conf

/-- `ATNConfigSet.Add`. -/
def add (C : Confs) (c : Conf) : Confs := if c ∈ C then C else C ++ [c]

/-- The transition needs this character; `none` is the end of the input (`Transition.Matches`). -/
def takes : Label → Option Char → Bool
  | .eof, none => true
  | .set is, some c => inSet is c.toNat
  | _, _ => false

section
variable (N : Net)

/-- `L.closure`, adding to `C`: configurations at which a character is needed, and those at the end of a rule that nothing has called.  `none`: not with recursion at most `n`
deep. -/
def closure (atEnd : Bool) : Nat → Conf → Confs → Option Confs
  | 0, _, _ => none
  | n + 1, c, C =>
    if isStop N c.state then
      match c.stack with
      | [] => some (add C c)
      | x :: st => closure atEnd n ⟨c.alt, x, st⟩ C
    else (N.out c.state).foldlM (fun C e => match e.1 with
      | .eps => closure atEnd n { c with state := e.2 } C
      | .call a _ => closure atEnd n ⟨c.alt, a, e.2 :: c.stack⟩ C
      | .eof => if atEnd then closure atEnd n { c with state := e.2 } C else some C
      | .set _ => some C) (if epsilonOnly N c.state then C else add C c)

/-- The configurations before the first character (`L.computeStartState`), for the first mode; rules are numbered from 1. -/
def startState (n : Nat) : Option Confs :=
  (N.out (N.modes.headD 0)).zipIdx.foldlM (fun C e => closure N false n ⟨e.2 + 1, e.1.2, []⟩ C) []

/-- The configurations after one more character (`L.getReachableConfigSet`). -/
def reach (n : Nat) (C : Confs) (t : Option Char) : Option Confs :=
  C.foldlM (fun R c => (N.out c.state).foldlM (fun R e => if takes e.1 t then closure N t.isNone n ⟨c.alt, e.2, c.stack⟩ R else some R) R) []

/-- The type of the token, if the text up to here is one: that of the rule of the first configuration at the end of a rule (`L.addDFAState`). -/
def accepts (C : Confs) : Option Nat := (C.find? fun c => isStop N c.state).map fun c => N.type (ruleAt N c.state)

/-- Tables in which results are kept (`DFAState.edges`), shared by all lexers of the process (/repo/parser/rfc5322_lexer.go, `lexerStaticData.decisionToDFA`). -/
abbrev Tables := Confs → Option Char → Option Confs

/-- An entry is added (`L.addDFAEdge`): for characters up to U+007F, if there are configurations left. -/
inductive Grows (n : Nat) : Tables → Tables → Prop where
  | edge {κ : Tables} {C R c} : c.toNat ≤ 0x7F → reach N n C (some c) = some R →
      Grows n κ fun C' t => if C' = C ∧ t = some c then some R else κ C' t

/-- Tables as they can be after any number of calls. -/
def Occurs (n : Nat) (κ : Tables) : Prop := Relation.ReflTransGen (Grows N n) (fun _ _ => none) κ

/-- The configurations after one more character: looked up, or computed (`L.getExistingTargetState`, `L.computeTargetState`). -/
def target (n : Nat) (κ : Tables) (C : Confs) (t : Option Char) : Option Confs :=
  match κ C t with
  | some R => some R
  | none => reach N n C t

/-- Results of `L.Match`. -/
inductive Match where
  /-- not within the number of steps allowed -/
  | timeout
  /-- a token of this type, and the remaining text -/
  | token (type : Nat) (rest : List Char)
  /-- the end of the input -/
  | eof
  /-- a panic with a `LexerNoViableAltException`, and the remaining text -/
  | noViable (rest : List Char)

/-- `L.failOrAccept`: the last token found, with the text after it; or none has been found, at `s`. -/
def failOrAccept (start s : List Char) : Option (Nat × List Char) → Match
  | some (ty, rest) => .token ty rest
  | none => if s = [] ∧ start = [] then .eof else .noViable s

/-- `L.execATN`, with the remaining text `s`; `start` is the text at the beginning, `κ start s` are the tables at this moment. -/
def exec (n : Nat) (κ : List Char → List Char → Tables) (start : List Char) : Confs → List Char → Option (Nat × List Char) → Match
  | C, [], prev =>
    match target N n (κ start []) C none with
    | none => .timeout
    | some [] => failOrAccept start [] prev
    | some (c :: C') =>
      match accepts N (c :: C') with
      | some ty => failOrAccept start [] (some (ty, []))
      | none => .timeout
  | C, t :: s, prev =>
    match target N n (κ start (t :: s)) C (some t) with
    | none => .timeout
    | some [] => failOrAccept start (t :: s) prev
    | some (c :: C') => exec n κ start (c :: C') s (match accepts N (c :: C') with
      | some ty => some (ty, s)
      | none => prev)

/-- `L.Match`. -/
def matchToken (n : Nat) (κ : List Char → List Char → Tables) (s : List Char) : Match :=
  match startState N n with
  | none => .timeout
  | some C => exec N n κ s C s ((accepts N C).map fun ty => (ty, s))

/-- The tokens, with type and text, of at most `m` rounds of `Lexer.NextToken`; after an error one character is skipped (`Lexer.safeMatch`, `Lexer.Recover`). -/
def lex (n : Nat) (κ : List Char → List Char → Tables) : Nat → List Char → Option (List (Nat × List Char))
  | 0, _ => none
  | m + 1, s =>
    match matchToken N n κ s with
    | .timeout => none
    | .eof => some []
    | .token ty rest => (if rest = [] then some [] else lex n κ m rest).map fun ts => (ty, s.take (s.length - rest.length)) :: ts
    | .noViable rest => if rest.tail = [] then some [] else lex n κ m rest.tail

end

end Rfc5322.LexerSim
