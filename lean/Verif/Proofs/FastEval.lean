import Verif.Proofs.Eval
import Verif.Proofs.Fast

/-!
# Evaluating the parser on concrete inputs, without exponential time
-/

namespace Rfc5322

/-- `parseAddressList`, computed by `fast`. -/
def fastAddresses (env : Env) (input : Bytes) : Except Panic (AddrSlice × Option Err) :=
  if input.length = 0 then .ok (some [], none)
  else match Fast.fast Gr.addressList (tokens input) with
    | none => .ok (none, some .syntaxError)
    | some ts => match walkList env ts Walker.init with
      | .error p => .error p
      | .ok w => match w.res with
        | some (.addrs l) => .ok (goSlice l, w.err)
        | _ => .error .typeAssertion

theorem fastAddresses_eq (env : Env) (input : Bytes) : evalAddresses env input = fastAddresses env input := by
  unfold evalAddresses fastAddresses
  rw [Fast.fast_eq_search Gr.addressList (by decide)]
  rfl

/-- `parseDateTime`, computed by `fast`. -/
def fastDate (env : Env) (input : Bytes) : Except Panic (GoTime × Option Err) :=
  if input.length = 0 then .ok (zeroTime, none)
  else match Fast.fast Gr.dateTime (tokens input) with
    | none => .ok (zeroTime, some .syntaxError)
    | some ts => match walkList env ts Walker.init with
      | .error p => .error p
      | .ok w => match w.res with
        | some (.time t) => .ok (t, w.err)
        | _ => .error .typeAssertion

theorem fastDate_eq (env : Env) (input : Bytes) : evalDate env input = fastDate env input := by
  unfold evalDate fastDate
  rw [Fast.fast_eq_search Gr.dateTime (by decide)]
  rfl

end Rfc5322
