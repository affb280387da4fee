import Verif.Model.History

/-!
# Concurrent calls

Go programs call `ParseAddressList` and `ParseDateTime` from several goroutines.  Here a call is a state machine: it is
parsing, then walking the tree, then done.  The steps of all calls are interleaved in any order.  Calls share the package
variable `CharsetReader` (/repo/parser.go:16), the clock, and the prediction caches of the ANTLR runtime
(`decisionToDFA`, /repo/parser/rfc5322_parser.go:605-609); lexer, token stream, parser and walker belong to one call
(/repo/parser.go:24-29, :47-52).

A step is one prediction, one token, the start or end of a rule function, or one callback of the walker.  What the Go memory
model says about unsynchronised access is not modelled: assigning or reading `CharsetReader`, and one prediction, are
atomic.
-/

namespace Rfc5322

/-! ## The generated parser, one step at a time -/

/-- What a running parser still has to do: match an expression, or return from the function of a rule
(`p.ExitRule()`, e.g. /repo/parser/rfc5322_parser.go:2077-2079). -/
inductive Item where
  | sym (g : G)
  | close (r : Rule)

/-- The expressions still to be matched: the call stack as seen by a prediction. -/
def pending : List Item → List G
  | [] => []
  | .sym g :: st => g :: pending st
  | .close _ :: st => pending st

/-- A running parser: what is left to do, the remaining tokens, and the children collected so far for the innermost open
rule, the rule around it, and so on (`p.GetParserRuleContext()` and its parents). -/
structure Parse where
  stack : List Item
  toks : List Char
  out : List (List Tree)

/-- Append a child to the innermost open rule (`AddChild`). -/
def addChild (t : Tree) : List (List Tree) → List (List Tree)
  | [] => [[t]]
  | o :: os => (o ++ [t]) :: os

/-- One step of the generated parser (/repo/parser/rfc5322_parser.go:872-14929); `none` when a syntax error is reported.
The same code as `descendWith` (`Verif/Model/Parser.lean`), without Lean's recursion. -/
def Parse.step (P : Predictor) (p : Parse) : Option Parse :=
  match p.stack with
  | [] => none
  | .close r :: st => match p.out with
    | [] => none
    | o :: os => some ⟨st, p.toks, addChild (.node r o) os⟩
  | .sym g :: st => match g with
    | .eps => some ⟨st, p.toks, p.out⟩
    | .eof => match p.toks with
      | [] => some ⟨st, [], addChild .eof p.out⟩
      | _ :: _ => none
    | .t k => match p.toks with
      | [] => none
      | c :: s => if k.matches c then some ⟨st, s, addChild (.tok c) p.out⟩ else none
    | .seq a b => some ⟨.sym a :: .sym b :: st, p.toks, p.out⟩
    | .alt a b =>
      if P.predict (a :: pending st) (b :: pending st) p.toks then some ⟨.sym a :: st, p.toks, p.out⟩
      else some ⟨.sym b :: st, p.toks, p.out⟩
    | .star a =>
      if P.predict (a :: .star a :: pending st) (pending st) p.toks then some ⟨.sym a :: .sym (.star a) :: st, p.toks, p.out⟩
      else some ⟨st, p.toks, p.out⟩
    | .rule r a => some ⟨.sym a :: .close r :: st, p.toks, [] :: p.out⟩
    | .comment => some ⟨.sym Gr.commentBody :: .close .comment :: st, p.toks, [] :: p.out⟩

/-! ## The walker, one callback at a time -/

/-- Callbacks of the tree walker. -/
inductive Ev where
  | enter (r : Rule) (ts : List Tree)
  | exit (r : Rule)

mutual
/-- The callbacks `antlr.ParseTreeWalkerDefault.Walk(w, tree)` makes, in order (/repo/parser.go:36, :59). -/
def events : Tree → List Ev
  | .tok _ => []
  | .eof => []
  | .node r ts => .enter r ts :: (eventsList ts ++ [.exit r])
/-- … for the children of a node. -/
def eventsList : List Tree → List Ev
  | [] => []
  | t :: ts => events t ++ eventsList ts
end

/-- One callback. -/
def Ev.apply (env : Env) : Ev → Walker → Except Panic Walker
  | .enter r ts, w => enterRule env r ts w
  | .exit r, w => exitRule r w

/-! ## Calls -/

/-- Which function was called. -/
inductive Fn where
  | addresses
  | date
  deriving DecidableEq

/-- The start rule (/repo/parser.go:31, :54). -/
def Fn.rule : Fn → G
  | .addresses => Gr.addressList
  | .date => Gr.dateTime

/-- The result after a syntax error (/repo/parser.go:32-34, :55-57). -/
def Fn.syntaxError : Fn → Obs
  | .addresses => .addresses (.ok (none, some .syntaxError))
  | .date => .date (.ok (zeroTime, some .syntaxError))

/-- A panic. -/
def Fn.panic (p : Panic) : Fn → Obs
  | .addresses => .addresses (.error p)
  | .date => .date (.error p)

/-- The result for the empty input (/repo/parser.go:20-22, :43-45). -/
def Fn.empty : Fn → Obs
  | .addresses => .addresses (.ok (some [], none))
  | .date => .date (.ok (zeroTime, none))

/-- `return w.res.(…), w.err` (/repo/parser.go:38, :61). -/
def Fn.finish : Fn → Walker → Obs
  | .addresses, w => match w.res with
    | some (.addrs l) => .addresses (.ok (goSlice l, w.err))
    | _ => .addresses (.error .typeAssertion)
  | .date, w => match w.res with
    | some (.time t) => .date (.ok (t, w.err))
    | _ => .date (.error .typeAssertion)

/-- How far a call has got. -/
inductive Phase where
  | parsing (p : Parse)
  | walking (es : List Ev) (w : Walker)
  | done (o : Obs)

def Phase.isDone : Phase → Bool
  | .done _ => true
  | _ => false

/-- A call of one of the functions. -/
structure Call where
  fn : Fn
  input : Bytes
  phase : Phase

/-- The call begins (/repo/parser.go:19-29, :42-52). -/
def Call.start (fn : Fn) (input : Bytes) : Call :=
  ⟨fn, input, if input.length = 0 then .done fn.empty else .parsing ⟨[.sym fn.rule], tokens input, [[]]⟩⟩

/-- The next step of a call (/repo/parser.go:31-38, :54-61). -/
def Call.step (P : Predictor) (env : Env) (c : Call) : Call :=
  match c.phase with
  | .parsing p => match p.stack with
    | [] => match p.toks, p.out with
      | [], [ts] => { c with phase := .walking (eventsList ts) Walker.init }
      | _, _ => { c with phase := .done c.fn.syntaxError }
    | _ :: _ => match p.step P with
      | none => { c with phase := .done c.fn.syntaxError }
      | some p' => { c with phase := .parsing p' }
  | .walking [] w => { c with phase := .done (c.fn.finish w) }
  | .walking (e :: es) w => match e.apply env w with
    | .error p => { c with phase := .done (c.fn.panic p) }
    | .ok w' => { c with phase := .walking es w' }
  | .done _ => c

/-! ## The program -/

/-- What the calls share, and the calls made so far. -/
structure Program where
  env : Env
  predictor : Predictor
  calls : List Call

/-- What can happen next. -/
inductive Action where
  /-- a goroutine calls one of the functions -/
  | call (fn : Fn) (input : Bytes)
  /-- `CharsetReader` is assigned, or time passes -/
  | environment (env : Env)
  /-- call number `k` takes a step -/
  | step (k : Nat)

/-- One action.  A step of a call may leave the prediction caches in any state. -/
inductive Program.Acts : Program → Action → Program → Prop where
  | call {s fn input} : Acts s (.call fn input) { s with calls := s.calls ++ [Call.start fn input] }
  | environment {s env} : Acts s (.environment env) { s with env := env }
  | step {s k c} (P' : Predictor) : s.calls[k]? = some c → c.phase.isDone = false →
      Acts s (.step k) { s with calls := s.calls.set k (c.step s.predictor s.env), predictor := P' }

/-- An execution: the states and the actions between them, for ever.  A program that stops is covered: assigning to
`CharsetReader` the value it has changes nothing. -/
structure Execution where
  state : Nat → Program
  action : Nat → Action
  start : (state 0).calls = []
  acts : ∀ i, (state i).Acts (action i) (state (i + 1))

/-- Call number `k` has been made and has not returned yet at time `t`. -/
def Execution.Running (x : Execution) (k t : Nat) : Prop :=
  ∃ c, (x.state t).calls[k]? = some c ∧ c.phase.isDone = false

/-- At time `t` call number `k`, which is a call of `fn` with argument `input`, has returned `o`. -/
def Execution.Returned (x : Execution) (k t : Nat) (fn : Fn) (input : Bytes) (o : Obs) : Prop :=
  (x.state t).calls[k]? = some ⟨fn, input, .done o⟩

/-! ## Measuring a call -/

/-- How many steps call number `k` has made before time `j`. -/
def Execution.steps (x : Execution) (k : Nat) : Nat → Nat
  | 0 => 0
  | j + 1 => x.steps k j + (match x.action j with | .step k' => if k' = k then 1 else 0 | _ => 0)

/-- Rule functions of the parser that have been entered and not left: each is a stack frame
(e.g. /repo/parser/rfc5322_parser.go:2069-2144 calls itself through `Ccontent`). -/
def openRules : List Item → Nat
  | [] => 0
  | .sym _ :: st => openRules st
  | .close _ :: st => openRules st + 1

/-- Nodes that the walker has entered and not left (`es` are the callbacks to come): each is a stack frame of
`antlr.ParseTreeWalker.Walk`, which calls itself for the children of a node (/repo/parser.go:36, :59). -/
def openNodes : List Ev → Int
  | [] => 0
  | .enter _ _ :: es => openNodes es - 1
  | .exit _ :: es => openNodes es + 1

/-- The depth of the recursion. -/
def Phase.depth : Phase → Int
  | .parsing p => openRules p.stack
  | .walking es _ => openNodes es
  | .done _ => 0

end Rfc5322
