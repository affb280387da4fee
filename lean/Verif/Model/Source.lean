import Verif.Model.GeneratedApi
import Verif.Model.GoCode

/-!
# The whole source

The hand-written package (`Verif/Model/GoCode.lean`) running on the functions of the generated parser (`Verif/Model/GeneratedData.lean`).
-/

namespace Rfc5322.Go

open Atn Gen

/-- `p.AddressList()`, `p.DateTime()` (/repo/parser/rfc5322_parser.go): the function of the rule is called on the tokens of the input; the tree, unless there
are errors.  12 · (number of tokens + 2) nested calls are always enough (C60). -/
def generatedParse (T : Runtime parserNet) (r : Rule) (s : Bytes) : Option (List Tree) :=
  match runRule code T (12 * ((tokens s).length + 2)) r [] (tokens s) with
  | .ok ts _ => some [.node r ts]
  | _ => none

/-- The world in which the source runs: an ANTLR runtime, the environment, a growth policy for slices, and the errors reported. -/
structure World where
  runtime : Runtime parserNet
  env : Env
  grow : Heap → Nat → Nat → Nat
  grow_ge : ∀ h c n, n ≤ grow h c n
  message : Rule → Bytes → Bytes
  messages : Rule → Bytes → List Bytes
  recovered : Rule → Bytes → List Tree

/-- With the functions of the generated parser. -/
def World.setting (W : World) : Setting := ⟨W.env, W.grow, W.grow_ge, generatedParse W.runtime, W.message, W.messages, W.recovered⟩

/-- `ParseAddressList(input)` (/repo/parser.go:19-39), `n` bounding the nesting of calls in the hand-written package. -/
def goParseAddressList (W : World) (n : Nat) (input : Bytes) : M (List Val) := callFn Code.program W.setting n Code.ParseAddressList [.str input]

/-- `ParseDateTime(input)` (/repo/parser.go:42-62). -/
def goParseDateTime (W : World) (n : Nat) (input : Bytes) : M (List Val) := callFn Code.program W.setting n Code.ParseDateTime [.str input]

end Rfc5322.Go
