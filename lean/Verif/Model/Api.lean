import Verif.Model.Walker

/-!
# The public functions (/repo/parser.go)
-/

namespace Rfc5322

/-- A Go slice `[]*mail.Address`: `none` is the nil slice. -/
abbrev AddrSlice := Option (List Addr)

/-- The slice stored in `w.res` by `ExitAddressList`: appending nothing to a nil slice leaves it nil
(/repo/address_list.go:14, :22), so an address list without mailboxes is the nil slice. -/
def goSlice (l : List Addr) : AddrSlice := if l.isEmpty then none else some l

/-- The token stream the parser sees for an input string
(/repo/parser.go:24-25 and :47-48: `NewInputStream`, lexer, `CommonTokenStream`). -/
def tokens (input : Bytes) : List Char := tokenize (runes input)

/-- `ParseAddressList` (/repo/parser.go:19-39).  `.error` is a panic; otherwise the pair of results. -/
def parseAddressList (P : Predictor) (env : Env) (input : Bytes) : Except Panic (AddrSlice × Option Err) :=
  if input.length = 0 then .ok (some [], none)
  else match descend P Gr.addressList (tokens input) with
    | none => .ok (none, some .syntaxError)
    | some ts => match walkList env ts Walker.init with
      | .error p => .error p
      | .ok w => match w.res with
        | some (.addrs l) => .ok (goSlice l, w.err)
        | _ => .error .typeAssertion

/-- `ParseDateTime` (/repo/parser.go:42-62). -/
def parseDateTime (P : Predictor) (env : Env) (input : Bytes) : Except Panic (GoTime × Option Err) :=
  if input.length = 0 then .ok (zeroTime, none)
  else match descend P Gr.dateTime (tokens input) with
    | none => .ok (zeroTime, some .syntaxError)
    | some ts => match walkList env ts Walker.init with
      | .error p => .error p
      | .ok w => match w.res with
        | some (.time t) => .ok (t, w.err)
        | _ => .error .typeAssertion

end Rfc5322
