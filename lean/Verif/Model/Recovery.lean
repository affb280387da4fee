import Verif.Model.AllStar
import Verif.Model.GeneratedApi

/-!
# Recovery from errors

In `Verif/Model/Generated.lean` the first error ends a run.  The functions of /repo/parser/rfc5322_parser.go do not end then: an error inside a function is a panic
with a `RecognitionException`, which the deferred function at its beginning (e.g. /repo/parser/rfc5322_parser.go:8368-8378) turns into a report and a call of
`p.GetErrorHandler().Recover(p, v)`; the caller goes on as if nothing had happened.  Here this is modelled, with what the runtime's `DefaultErrorStrategy` does:
delete a token, make one up, or skip tokens until one is found that may come next somewhere.  `DefaultErrorStrategy` belongs to the runtime named in /repo/go.mod:6, which is
not part of /repo; definitions cite its functions, with `E` for `DefaultErrorStrategy`, and have been written down from memory.

Reports are recorded with what their messages are made of (`Verif/Model/Messages.lean` has the texts).

Simplified: trees are built for runs without errors only (/repo/parser.go:32 and :55 throw away all others), so tokens that are deleted, made up or
skipped leave no trace in them.
-/

namespace Rfc5322.Recovery

open Atn Gen AllStar

/-! ## What may come next -/

/-- The token can come next within the rule (`ATN.NextTokens(s, nil)` without `TokenEpsilon`); `none` is the end of the input. -/
def tokenNext (N : Net) (p : Nat) (t : Option Char) : Prop :=
  ∃ q st l x, Relation.ReflTransGen (Moves N true false) (p, []) (q, st) ∧ (l, x) ∈ N.out q ∧ takes l t

/-- The rule can end without a token (`ATN.NextTokens(s, nil)` contains `TokenEpsilon`). -/
def endNext (N : Net) (p : Nat) : Prop := ∃ q, Relation.ReflTransGen (Moves N true false) (p, []) (q, []) ∧ isStop N q = true

/-- The token can come next in state `p`, with the callers `σ` (`ATN.getExpectedTokens`, and `ATN.NextTokens(s, ctx)`). -/
def expected (N : Net) : List Nat → Nat → Option Char → Prop
  | [], p, t => tokenNext N p t ∨ endNext N p ∧ t = none
  | st :: σ, p, t => tokenNext N p t ∨ endNext N p ∧ expected N σ (follow N st) t

/-- The token can come after the current rule or one of its callers (`E.getErrorRecoverySet`). -/
def recoverySet (N : Net) (σ : List Nat) (t : Option Char) : Prop := ∃ st ∈ σ, tokenNext N (follow N st) t

/-! ## The state -/

/-- What can be reported. -/
inductive Trouble where
  /-- `E.ReportUnwantedToken` -/
  | unwanted
  /-- `E.ReportMissingToken` -/
  | missing
  /-- `E.ReportInputMisMatch` -/
  | mismatch
  /-- `E.ReportNoViableAlternative` -/
  | noViable

/-- A call of `p.NotifyErrorListeners`, hence of `(*walker).SyntaxError` (/repo/walker.go:43-45): what is reported, the callers of the function, the state, and the remaining tokens. -/
structure Report where
  kind : Trouble
  callers : List Nat
  state : Nat
  rest : List Char

/-- The remaining tokens, and the state of the error strategy. -/
structure St where
  /-- the remaining tokens -/
  rest : List Char
  /-- `errorRecoveryMode` -/
  mode : Bool
  /-- `lastErrorIndex`, as the number of tokens that remained there; −1 is `none` -/
  last : Option Nat
  /-- `lastErrorStates` -/
  seen : List Nat
  /-- the reports, the last one first -/
  log : List Report

/-- How often `(*walker).SyntaxError` has been called. -/
def St.errors (S : St) : Nat := S.log.length

/-- At the beginning. -/
def St.init (s : List Char) : St := ⟨s, false, none, [], []⟩

/-- `E.ReportError`, `E.ReportUnwantedToken` and `E.ReportMissingToken`: nothing is reported twice before a token has been matched. -/
def St.report (S : St) (k : Trouble) (σ : List Nat) (st : Nat) : St := if S.mode then S else { S with mode := true, log := ⟨k, σ, st, S.rest⟩ :: S.log }

/-- `E.ReportMatch` (`E.endErrorCondition`). -/
def St.matched (S : St) : St := { S with mode := false, last := none, seen := [] }

/-- `p.Consume()`; nothing happens at the end of the input. -/
def St.consume (S : St) : St := { S with rest := S.rest.tail }

open Classical in
/-- `E.consumeUntil`. -/
noncomputable def skipUntil (keep : Option Char → Prop) : List Char → List Char
  | [] => []
  | c :: s => if keep (some c) then c :: s else skipUntil keep s

/-- The same, for the state. -/
noncomputable def St.skip (S : St) (keep : Option Char → Prop) : St := { S with rest := skipUntil keep S.rest }

/-! ## The error strategy -/

section
variable (N : Net) (σ : List Nat)

/-- `E.Recover`, after an error in state `st`: if there has been one before in this state, with the same tokens remaining, a token is skipped at any rate. -/
noncomputable def recover (st : Nat) (S : St) : St :=
  let S := if S.last = some S.rest.length ∧ st ∈ S.seen then S.consume else S
  St.skip { S with last := some S.rest.length, seen := if st ∈ S.seen then S.seen else st :: S.seen } (recoverySet N σ)

open Classical in
/-- `E.SingleTokenDeletion`: if the token after the next can come next, the next is deleted. -/
noncomputable def deletion (st : Nat) (S : St) : Option St :=
  if expected N σ st S.rest.tail.head? then some (S.report .unwanted σ st).consume.matched else none

/-- The results of parts of functions: not within the number of steps allowed; a panic with a `RecognitionException` in state `st`; or the subtrees (if there has been
no error). -/
inductive Result where
  | timeout
  | panic (k : Trouble) (st : Nat) (S : St)
  | done (ts : List Tree) (S : St)

/-- One after the other. -/
def Result.andThen : Result → (St → Result) → Result
  | .timeout, _ => .timeout
  | .panic k st S, _ => .panic k st S
  | .done ts S, f =>
    match f S with
    | .timeout => .timeout
    | .panic k st S' => .panic k st S'
    | .done us S' => .done (ts ++ us) S'

open Classical in
/-- `E.RecoverInline`: delete the next token (and consume the one after), or make one up (`E.SingleTokenInsertion`), or panic. -/
noncomputable def recoverInline (st : Nat) (S : St) : Result :=
  match deletion N σ st S with
  | some S' => .done [] S'.consume
  | none => if ∃ e, (N.out st)[0]? = some e ∧ expected N σ e.2 S.rest.head? then .done [] (S.report .missing σ st) else .panic .mismatch st S

/-- What `Sync` does depends on the type of the state. -/
inductive Kind where
  /-- `ATNStateBlockStart`, `ATNStateStarBlockStart`, `ATNStatePlusBlockStart`, `ATNStateStarLoopEntry` -/
  | entry
  /-- `ATNStatePlusLoopBack`, `ATNStateStarLoopBack` -/
  | back
  /-- any other -/
  | other

/-- The kind of a state. -/
def kind (p : Nat) : Kind :=
  match N.states[p]? with
  | some (some (ty, _)) => if [3, 4, 5, 10].contains ty then .entry else if [9, 11].contains ty then .back else .other
  | _ => .other

open Classical in
/-- `E.Sync`, in state `st`; `none` is a panic with an `InputMisMatchException`. -/
noncomputable def sync (st : Nat) (S : St) : Option St :=
  if S.mode = true ∨ nextTokens N st S.rest.head? then some S
  else match kind N st with
    | .entry => deletion N σ st S
    | .back => some ((S.report .unwanted σ st).skip fun t => expected N σ st t ∨ recoverySet N σ t)
    | .other => some S

/-- `p.GetErrorHandler().Sync(p)`, and then. -/
noncomputable def synced (st : Nat) (S : St) (f : St → Result) : Result :=
  match sync N σ st S with
  | none => .panic .mismatch st S
  | some S' => f S'

/-! ## Execution -/

/-- `p.Match(…)`, or the test of a set: the next token is consumed if it is the right one. -/
noncomputable def matchTok (st : Nat) (test : Int → Bool) (S : St) : Result :=
  match S.rest with
  | [] => recoverInline N σ st S
  | c :: _ => if test (la1 S.rest) then .done [.tok c] S.matched.consume else recoverInline N σ st S

/-- `p.Match(RFC5322ParserEOF)`. -/
noncomputable def matchEof (st : Nat) (S : St) : Result :=
  match S.rest with
  | [] => .done [.eof] S.matched
  | _ :: _ => recoverInline N σ st S

variable (predict : Nat → List Nat → List Char → Option Nat)

/-- Answers to `Ask`, as in `Verif/Model/Generated.lean`. -/
def choose : Ask → List Char → Choice
  | .alt d, s =>
    match predict d σ s with
    | none => .panic
    | some a => if a = 2 ∨ a = 0 then .leave else if a = 1 then .enter else .other
  | .la t, s => if t.eval (la1 s) then .enter else .leave

/-- Loops that may have no round; at most `n` rounds. -/
noncomputable def star (st st' : Nat) (a : Ask) (body : St → Result) : Nat → St → Result
  | 0, _ => .timeout
  | n + 1, S => synced N σ st S fun S =>
    match choose σ predict a S.rest with
    | .panic => .panic .noViable st S
    | .leave => .done [] S
    | .enter => (body S).andThen (star st' st' a body n)
    | .other => star st' st' a body n S

/-- Loops that have at least one round, after the first `Sync`; at most `n` rounds. -/
noncomputable def plus (st' : Nat) (a : Ask) (body : St → Result) : Nat → St → Result
  | 0, _ => .timeout
  | n + 1, S => (body S).andThen fun S => synced N σ st' S fun S =>
    match choose σ predict a S.rest with
    | .panic => .panic .noViable st' S
    | .leave => .done [] S
    | .enter => plus st' a body n S
    | .other => .panic .noViable st' S

mutual
/-- Execution of a statement with call stack `σ`; `rec` executes functions, loops have at most `n` rounds. -/
noncomputable def run (rec : Rule → List Nat → St → Result) (n : Nat) : Code → St → Result
  | .skip, S => .done [] S
  | .seq a b, S => (run rec n a S).andThen (run rec n b)
  | .tok st k, S => matchTok N σ st (fun x => x == (typeOf k : Nat)) S
  | .eof st, S => matchEof N σ st S
  | .set st t, S => matchTok N σ st t.eval S
  | .call st r, S =>
    match rec r (st :: σ) S with
    | .timeout => .timeout
    | .panic k st S => .panic k st S
    | .done ts S => .done [.node r ts] S
  | .switchAlt st d cs, S => synced N σ st S fun S =>
    match predict d σ S.rest with
    | none => .panic .noViable st S
    | some a => runAlt rec n a cs S
  | .ifLa st t c, S => synced N σ st S fun S => if t.eval (la1 S.rest) then run rec n c S else .done [] S
  | .switchLa st cs, S => synced N σ st S fun S => runLa rec n st cs S
  | .star st st' a c, S => star N σ predict st st' a (run rec n c) n S
  | .plus st st' a c, S => synced N σ st S fun S => plus N σ predict st' a (run rec n c) n S
/-- The case with number `a`; nothing if there is none. -/
noncomputable def runAlt (rec : Rule → List Nat → St → Result) (n a : Nat) : Cases → St → Result
  | .nil, S => .done [] S
  | .alt m c cs, S => if a = m then run rec n c S else runAlt rec n a cs S
  | .toks _ _ cs, S => runAlt rec n a cs S
/-- The case with the type of the next token; a panic if there is none. -/
noncomputable def runLa (rec : Rule → List Nat → St → Result) (n st : Nat) : Cases → St → Result
  | .nil, S => .panic .noViable st S
  | .alt _ _ cs, S => runLa rec n st cs S
  | .toks ks c cs, S => if ks.any (fun k => la1 S.rest == (typeOf k : Nat)) then run rec n c S else runLa rec n st cs S
end

end

/-- Execution of the function of a rule: calls are nested at most `n` deep, and every loop has at most `n` rounds.  The deferred function reports the error, if there is one, and
recovers; then the function returns. -/
noncomputable def runRule (N : Net) (predict : Nat → List Nat → List Char → Option Nat) (code : Rule → Code) : Nat → Rule → List Nat → St → Result
  | 0, _, _, _ => .timeout
  | n + 1, r, σ, S =>
    match run N σ predict (runRule N predict code n) n (code r) S with
    | .panic k st S => .done [] (recover N σ st (S.report k σ st))
    | x => x

/-! ## The public functions -/

/-- `ParseAddressList` (/repo/parser.go:19-39), if the generated functions end with calls nested at most `n` deep and at most `n` rounds per loop; `none` if not, or if
a panic with a `RecognitionException` gets out. -/
noncomputable def parseAddressList (predict : Nat → List Nat → List Char → Option Nat) (n : Nat) (env : Env) (input : Bytes) :
    Option (Except Panic (AddrSlice × Option Err)) :=
  if input.length = 0 then some (.ok (some [], none))
  else match runRule parserNet predict code n .addressList [] (St.init (tokens input)) with
    | .timeout => none
    | .panic _ _ _ => none
    | .done ts S =>
      if 0 < S.errors then some (.ok (none, some .syntaxError))
      else match walkList env [.node .addressList ts] Walker.init with
        | .error p => some (.error p)
        | .ok w => match w.res with
          | some (.addrs l) => some (.ok (goSlice l, w.err))
          | _ => some (.error .typeAssertion)

/-- `ParseDateTime` (/repo/parser.go:42-62). -/
noncomputable def parseDateTime (predict : Nat → List Nat → List Char → Option Nat) (n : Nat) (env : Env) (input : Bytes) :
    Option (Except Panic (GoTime × Option Err)) :=
  if input.length = 0 then some (.ok (zeroTime, none))
  else match runRule parserNet predict code n .dateTime [] (St.init (tokens input)) with
    | .timeout => none
    | .panic _ _ _ => none
    | .done ts S =>
      if 0 < S.errors then some (.ok (zeroTime, some .syntaxError))
      else match walkList env [.node .dateTime ts] Walker.init with
        | .error p => some (.error p)
        | .ok w => match w.res with
          | some (.time t) => some (.ok (t, w.err))
          | _ => some (.error .typeAssertion)

end Rfc5322.Recovery
