import Verif.Model.Api
import Verif.Model.GeneratedData

/-!
# The public functions, with the functions of the generated parser

The same as `Verif/Model/Api.lean`, but what is executed by `p.AddressList()` and `p.DateTime()` are the functions in
`Verif/Model/GeneratedData.lean`.
-/

namespace Rfc5322.Gen

open Atn

/-- `ParseAddressList` (/repo/parser.go:19-39), if the generated functions end with calls nested at most `n` deep and at most `n` rounds per loop. -/
def parseAddressList (T : Runtime parserNet) (n : Nat) (env : Env) (input : Bytes) : Option (Except Panic (AddrSlice × Option Err)) :=
  if input.length = 0 then some (.ok (some [], none))
  else match runRule code T n .addressList [] (tokens input) with
    | .timeout => none
    | .error => some (.ok (none, some .syntaxError))
    | .ok ts _ => match walkList env [.node .addressList ts] Walker.init with
      | .error p => some (.error p)
      | .ok w => match w.res with
        | some (.addrs l) => some (.ok (goSlice l, w.err))
        | _ => some (.error .typeAssertion)

/-- `ParseDateTime` (/repo/parser.go:42-62). -/
def parseDateTime (T : Runtime parserNet) (n : Nat) (env : Env) (input : Bytes) : Option (Except Panic (GoTime × Option Err)) :=
  if input.length = 0 then some (.ok (zeroTime, none))
  else match runRule code T n .dateTime [] (tokens input) with
    | .timeout => none
    | .error => some (.ok (zeroTime, some .syntaxError))
    | .ok ts _ => match walkList env [.node .dateTime ts] Walker.init with
      | .error p => some (.error p)
      | .ok w => match w.res with
        | some (.time t) => some (.ok (t, w.err))
        | _ => some (.error .typeAssertion)

end Rfc5322.Gen
