import Verif.Model.AtnNets

/-!
# The functions of the generated parser

/repo/parser/rfc5322_parser.go has one function per rule, all made of a few patterns.  `Code` has one constructor per pattern; the bodies of the 67
functions are in `Verif/Model/GeneratedData.lean`.  `run` executes them.  What the functions ask of the ANTLR runtime, `AdaptivePredict` and
`Sync`, is described by `Runtime` in terms of the transition network of the program, not in terms of a grammar.

The first error ends a run: /repo/parser.go:32 and :55 return an error as soon as one has been reported, and the tree is thrown away.  What the
runtime does to recover is modelled in `Verif/Model/Recovery.lean`.
-/

namespace Rfc5322.Gen

open Atn

/-! ## Syntax -/

/-- Tests of the type of the next token, `_la`. -/
inductive Test where
  /-- `_la == RFC5322Parser<k>` -/
  | eq (k : Tok)
  /-- `((_la-base)&-(0x1f+1)) == 0 && ((1<<uint(_la-base))&((1<<(RFC5322Parser<k>-base))|…)) != 0` -/
  | bits (base : Nat) (ks : List Tok)
  /-- `… || …` -/
  | or (a b : Test)

/-- How loops decide. -/
inductive Ask where
  /-- `_alt = p.GetInterpreter().AdaptivePredict(p.GetTokenStream(), d, p.GetParserRuleContext())`, and then `_alt` is compared with numbers -/
  | alt (d : Nat)
  /-- `_la = p.GetTokenStream().LA(1)`, and then `t` is tested -/
  | la (t : Test)

mutual
/-- Statements.  The first number is that of the last `p.SetState(…)` before. -/
inductive Code where
  /-- nothing -/
  | skip
  /-- one after the other -/
  | seq (a b : Code)
  /-- `p.SetState(st); p.Match(RFC5322Parser<k>)` -/
  | tok (st : Nat) (k : Tok)
  /-- `p.SetState(st); p.Match(RFC5322ParserEOF)` -/
  | eof (st : Nat)
  /-- `p.SetState(st); _la = p.GetTokenStream().LA(1); if !(t) { p.GetErrorHandler().RecoverInline(p) } else { p.GetErrorHandler().ReportMatch(p);
  p.Consume() }` -/
  | set (st : Nat) (t : Test)
  /-- `p.SetState(st); p.<R>()` -/
  | call (st : Nat) (r : Rule)
  /-- `p.SetState(st); p.GetErrorHandler().Sync(p); switch p.GetInterpreter().AdaptivePredict(p.GetTokenStream(), d, p.GetParserRuleContext()) { case 1:
  …; case 2: … }`, or `if p.GetInterpreter().AdaptivePredict(…) == 1 { … } else if p.GetInterpreter().AdaptivePredict(…) == 2 { … }` -/
  | switchAlt (st d : Nat) (cs : Cases)
  /-- `p.SetState(st); p.GetErrorHandler().Sync(p); _la = p.GetTokenStream().LA(1); if t { … }` -/
  | ifLa (st : Nat) (t : Test) (c : Code)
  /-- `p.SetState(st); p.GetErrorHandler().Sync(p); switch p.GetTokenStream().LA(1) { case …: …; default: panic(antlr.NewNoViableAltException(…)) }` -/
  | switchLa (st : Nat) (cs : Cases)
  /-- `p.SetState(st); p.GetErrorHandler().Sync(p); _alt = p.GetInterpreter().AdaptivePredict(…, d, …); for _alt != 2 && _alt != antlr.ATNInvalidAltNumber
  { if _alt == 1 { … }; p.SetState(st'); p.GetErrorHandler().Sync(p); _alt = p.GetInterpreter().AdaptivePredict(…, d, …) }`, or
  `p.SetState(st); p.GetErrorHandler().Sync(p); _la = p.GetTokenStream().LA(1); for t { …; p.SetState(st'); p.GetErrorHandler().Sync(p); _la =
  p.GetTokenStream().LA(1) }` -/
  | star (st st' : Nat) (a : Ask) (c : Code)
  /-- `p.SetState(st); p.GetErrorHandler().Sync(p); _alt = 1; for ok := true; ok; ok = _alt != 2 && _alt != antlr.ATNInvalidAltNumber { switch _alt {
  case 1: …; default: panic(antlr.NewNoViableAltException(…)) }; p.SetState(st'); p.GetErrorHandler().Sync(p); _alt =
  p.GetInterpreter().AdaptivePredict(…, d, …) }`, or `p.SetState(st); p.GetErrorHandler().Sync(p); _la = p.GetTokenStream().LA(1); for ok := true; ok; ok =
  t { …; p.SetState(st'); p.GetErrorHandler().Sync(p); _la = p.GetTokenStream().LA(1) }` -/
  | plus (st st' : Nat) (a : Ask) (c : Code)
/-- Cases of a `switch`. -/
inductive Cases where
  | nil
  /-- `case n: …` -/
  | alt (n : Nat) (c : Code) (cs : Cases)
  /-- `case RFC5322Parser<k>, …: …` -/
  | toks (ks : List Tok) (c : Code) (cs : Cases)
end

/-! ## The runtime -/

/-- The rule a state of the network belongs to. -/
def ruleAt (N : Net) (p : Nat) : Nat :=
  match N.states[p]? with
  | some (some (_, Int.ofNat i)) => i
  | _ => 0

/-- The state after the call which a state consists of. -/
def follow (N : Net) (p : Nat) : Nat :=
  match N.out p with
  | [(.call _ _, q)] => q
  | _ => 0

/-- After the current rule has returned, the network can go on through the callers to the end of the input.  A call stack is the list of the states in
which the calls have been made (`ctx.invokingState`), the innermost first. -/
def Rest (N : Net) : List Nat → List Char → Prop
  | [], s => s = []
  | st :: σ, s => Can ruleOf tokenType N (N.stop (ruleAt N st)) (Rest N σ) (follow N st) s

/-- From a state, and then through the callers, the network can go on to the end of the input. -/
def CanEnd (N : Net) (σ : List Nat) (p : Nat) (s : List Char) : Prop := Can ruleOf tokenType N (N.stop (ruleAt N p)) (Rest N σ) p s

/-- The same, beginning with transition number `i` (counted from 0). -/
def CanEndBy (N : Net) (σ : List Nat) (p i : Nat) (s : List Char) : Prop :=
  ∃ e, (N.out p)[i]? = some e ∧ CanBy ruleOf tokenType N (N.stop (ruleAt N p)) (Rest N σ) e s

/-- No transition calls the rule. -/
def Root (N : Net) (r : Nat) : Prop := ∀ e ∈ N.edges, ∀ a, e.label ≠ .call a r

/-- Call stacks of a rule: the innermost state calls this rule, every other state calls the rule of the one before, and the rule of the last one is not called by
any. -/
def Proper (N : Net) : List Nat → Nat → Prop
  | [], i => Root N i
  | st :: σ, i => (∃ q, N.out st = [(.call (N.start i) i, q)]) ∧ Proper N σ (ruleAt N st)

/-- What the generated functions need of the ANTLR runtime (which is not part of /repo).

`predict d σ s` is the value of `p.GetInterpreter().AdaptivePredict(p.GetTokenStream(), d, p.GetParserRuleContext())` with remaining tokens `s` and call
stack `σ`, which has to be one that can occur; `none` if it panics with a `RecognitionException`.  If the network can go on to the end of the input by some alternative of the
decision, the value is the smallest such alternative; otherwise it may panic or return any alternative.

`sync st σ s` is `true` if `p.GetErrorHandler().Sync(p)` returns without reporting an error, in state `st`.  It does so at least if the network
can go on to the end of the input. -/
structure Runtime (N : Net) where
  predict : Nat → List Nat → List Char → Option Nat
  sync : Nat → List Nat → List Char → Bool
  least : ∀ d p σ s i, N.decisions[d]? = some p → Proper N σ (ruleAt N p) → CanEndBy N σ p i s → (∀ j, j < i → ¬ CanEndBy N σ p j s) → predict d σ s = some (i + 1)
  range : ∀ d p σ s n, N.decisions[d]? = some p → predict d σ s = some n → 1 ≤ n ∧ n ≤ (N.out p).length
  sync_ok : ∀ st σ s, Proper N σ (ruleAt N st) → CanEnd N σ st s → sync st σ s = true

/-! ## Execution -/

/-- How a run ends: not within the number of steps allowed; with an error reported; or with subtrees and the remaining tokens. -/
inductive Outcome where
  | timeout
  | error
  | ok (ts : List Tree) (s : List Char)

/-- One after the other. -/
def Outcome.andThen : Outcome → (List Char → Outcome) → Outcome
  | .timeout, _ => .timeout
  | .error, _ => .error
  | .ok ts s, f =>
    match f s with
    | .timeout => .timeout
    | .error => .error
    | .ok us s' => .ok (ts ++ us) s'

/-- The type of the next token, `p.GetTokenStream().LA(1)`; `antlr.TokenEOF` is −1. -/
def la1 : List Char → Int
  | [] => -1
  | c :: _ => ((tokenType c).getD 0 : Nat)

/-- Value of a test.  In `bits` the first half of the test says that `_la-base` is between 0 and 31. -/
def Test.eval : Test → Int → Bool
  | .eq k, x => x == (typeOf k : Nat)
  | .bits base ks, x =>
    let y := x - (base : Nat)
    decide (0 ≤ y) && decide (y < 32) && (ks.foldr (fun k m => m ||| 1 <<< (typeOf k - base)) 0).testBit y.toNat
  | .or a b, x => a.eval x || b.eval x

section
variable {N : Net} (T : Runtime N) (σ : List Nat)

/-- `p.GetErrorHandler().Sync(p)`. -/
def synced (st : Nat) (s : List Char) (o : Outcome) : Outcome := if T.sync st σ s then o else .error

/-- Answers to `Ask`: go into the loop (`_alt == 1`, or the test is passed), leave it (`_alt` is 2 or `antlr.ATNInvalidAltNumber`, or the test is not
passed), another number, or a panic with a `RecognitionException`. -/
inductive Choice where
  | enter | leave | other | panic

/-- The answer. -/
def Ask.choose : Ask → List Char → Choice
  | .alt d, s =>
    match T.predict d σ s with
    | none => .panic
    | some a => if a = 2 ∨ a = 0 then .leave else if a = 1 then .enter else .other
  | .la t, s => if t.eval (la1 s) then .enter else .leave

/-- Loops that may have no round; at most `n` rounds. -/
def star (st st' : Nat) (a : Ask) (body : List Char → Outcome) : Nat → List Char → Outcome
  | 0, _ => .timeout
  | n + 1, s => synced T σ st s <|
    match a.choose T σ s with
    | .panic => .error
    | .leave => .ok [] s
    | .enter => (body s).andThen (star st' st' a body n)
    | .other => star st' st' a body n s

/-- Loops that have at least one round, after the first `Sync`; at most `n` rounds. -/
def plus (st' : Nat) (a : Ask) (body : List Char → Outcome) : Nat → List Char → Outcome
  | 0, _ => .timeout
  | n + 1, s => (body s).andThen fun s' => synced T σ st' s' <|
    match a.choose T σ s' with
    | .panic => .error
    | .leave => .ok [] s'
    | .enter => plus st' a body n s'
    | .other => .error

/-- The tokens after `p.Match(…)` or `p.Consume()`, if the test is passed; otherwise an error is reported. -/
def consume (test : Int → Bool) : List Char → Outcome
  | [] => .error
  | c :: s => if test (la1 (c :: s)) then .ok [.tok c] s else .error

mutual
/-- Execution of a statement with call stack `σ`; `rec` executes functions, loops have at most `n` rounds. -/
def run (rec : Rule → List Nat → List Char → Outcome) (n : Nat) : Code → List Char → Outcome
  | .skip, s => .ok [] s
  | .seq a b, s => (run rec n a s).andThen (run rec n b)
  | .tok _ k, s => consume (fun x => x == (typeOf k : Nat)) s
  | .eof _, s =>
    match s with
    | [] => .ok [.eof] []
    | _ :: _ => .error
  | .set _ t, s => consume t.eval s
  | .call st r, s =>
    match rec r (st :: σ) s with
    | .timeout => .timeout
    | .error => .error
    | .ok ts s' => .ok [.node r ts] s'
  | .switchAlt st d cs, s => synced T σ st s <|
    match T.predict d σ s with
    | none => .error
    | some a => runAlt rec n a cs s
  | .ifLa st t c, s => synced T σ st s <| if t.eval (la1 s) then run rec n c s else .ok [] s
  | .switchLa st cs, s => synced T σ st s <| runLa rec n cs s
  | .star st st' a c, s => star T σ st st' a (run rec n c) n s
  | .plus st st' a c, s => synced T σ st s <| plus T σ st' a (run rec n c) n s
/-- The case with number `a`; nothing if there is none. -/
def runAlt (rec : Rule → List Nat → List Char → Outcome) (n a : Nat) : Cases → List Char → Outcome
  | .nil, s => .ok [] s
  | .alt m c cs, s => if a = m then run rec n c s else runAlt rec n a cs s
  | .toks _ _ cs, s => runAlt rec n a cs s
/-- The case with the type of the next token; an error if there is none. -/
def runLa (rec : Rule → List Nat → List Char → Outcome) (n : Nat) : Cases → List Char → Outcome
  | .nil, _ => .error
  | .alt _ _ cs, s => runLa rec n cs s
  | .toks ks c cs, s => if ks.any (fun k => la1 s == (typeOf k : Nat)) then run rec n c s else runLa rec n cs s
end

end

/-- Execution of the function of a rule: calls are nested at most `n` deep, and every loop has at most `n` rounds. -/
def runRule {N : Net} (code : Rule → Code) (T : Runtime N) : Nat → Rule → List Nat → List Char → Outcome
  | 0, _, _, _ => .timeout
  | n + 1, r, σ, s => run T σ (runRule code T n) n (code r) s

end Rfc5322.Gen
