import Verif.Model.LexerSim
import Verif.Model.AllStarCache
import Verif.Model.Recovery
import Verif.Model.Source

/-!
# Everything together

The hand-written package, statement by statement (`Verif/Model/GoCode.lean`), on the generated functions with recovery from errors (`Verif/Model/Recovery.lean`), on ALL(*) with tables
shared by all calls of the process (`Verif/Model/AllStarCache.lean`), on the lexer of the runtime with its tables (`Verif/Model/LexerSim.lean`), on the integers of the two
serialized networks (`Verif/Model/AtnData.lean`).
-/

namespace Rfc5322.Whole

open Atn Gen AllStar

/-- What the state of the process decides. -/
structure Process where
  /-- representation of sets of stacks -/
  graphs : Graphs
  /-- the tables of the lexer, by the text at the beginning of the token, and the remaining text -/
  lexerTables : List Char → List Char → LexerSim.Tables
  /-- the tables of the parser, by the prediction (decision, callers, remaining tokens) and the number of tokens looked at -/
  parserTables : Nat → List Nat → List Char → Nat → AllStar.Tables
  /-- `mime.WordDecoder.Decode` with the `CharsetReader` installed, `time.Now().Year()` -/
  env : Env
  /-- capacities chosen by `append` -/
  grow : Go.Heap → Nat → Nat → Nat
  grow_ge : ∀ h c n, n ≤ grow h c n
  /-- the text of the message for this report -/
  text : Recovery.Report → Bytes

/-- The tables have come about by calls like this one. -/
structure Process.Occurs (W : Process) : Prop where
  lexer : ∀ a b, LexerSim.Occurs lexerNet 3 (W.lexerTables a b)
  parser : ∀ d σ s n, AllStar.Occurs W.graphs parserNet (W.parserTables d σ s n)

/-- The tokens: `antlr.NewInputStream(input)`, `parser.NewRFC5322Lexer`, `antlr.NewCommonTokenStream` (/repo/parser.go:24-26, 47-49).  Recursion is at most three deep, and there
are as many rounds as characters and one more; `none` if that is not enough.  The parser sees the type of a token, and the listener (`GetText`) its text; here a token is its one character. -/
def scan (W : Process) (input : Bytes) : Option (List Char) :=
  (LexerSim.lex lexerNet 3 W.lexerTables ((runes input).length + 1) (runes input)).bind fun ts => ts.mapM fun t =>
    match t with
    | (ty, [c]) => if tokenType c = some ty then some c else none
    | _ => none

/-- `p.GetInterpreter().AdaptivePredict`. -/
noncomputable def predict (W : Process) (d : Nat) (σ : List Nat) (s : List Char) : Option Nat :=
  match predictWith W.graphs parserNet (W.parserTables d σ s) d σ s with
  | .alt n => some n
  | _ => none

/-- `p.AddressList()`, `p.DateTime()` (/repo/parser.go:31, 54): the tree and the reports to `SyntaxError`, the last one first.  `none`: not with 20000 · (number of tokens + 1) nested calls
and rounds per loop, or there is a panic. -/
noncomputable def parse (W : Process) (r : Rule) (input : Bytes) : Option (List Tree × List Recovery.Report) :=
  (scan W input).bind fun s =>
    match Recovery.runRule parserNet (predict W) code (20000 * (s.length + 1)) r [] (.init s) with
    | .done ts S => some ([.node r ts], S.log)
    | _ => none

/-- The tree, if nothing has been reported. -/
def flawless : Option (List Tree × List Recovery.Report) → Option (List Tree)
  | some (ts, []) => some ts
  | _ => none

/-- The messages, the first one first. -/
def said (text : Recovery.Report → Bytes) : Option (List Tree × List Recovery.Report) → List Bytes
  | some (_, log) => log.reverse.map text
  | none => []

/-- The tree, whatever has been reported. -/
def anyTree : Option (List Tree × List Recovery.Report) → List Tree
  | some (ts, _) => ts
  | none => []

/-- The world of the hand-written package.  In `Go.Setting` a parse that is not finished would be one with an error; `parse` is never `none` (C70). -/
noncomputable def Process.setting (W : Process) : Go.Setting where
  env := W.env
  grow := W.grow
  grow_ge := W.grow_ge
  parse r s := flawless (parse W r s)
  message r s := (said W.text (parse W r s)).headD []
  messages r s := (said W.text (parse W r s)).tail
  recovered r s := anyTree (parse W r s)

/-- `ParseAddressList(input)` (/repo/parser.go:19-39), on a heap; `n` bounds the nesting of calls in the hand-written package. -/
noncomputable def parseAddressList (W : Process) (n : Nat) (input : Bytes) : Go.M (List Go.Val) := Go.callFn Go.Code.program W.setting n Go.Code.ParseAddressList [.str input]

/-- `ParseDateTime(input)` (/repo/parser.go:42-62). -/
noncomputable def parseDateTime (W : Process) (n : Nat) (input : Bytes) : Go.M (List Go.Val) := Go.callFn Go.Code.program W.setting n Go.Code.ParseDateTime [.str input]

end Rfc5322.Whole
