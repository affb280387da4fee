import Verif.Proofs.ApiAddr
import Verif.Proofs.ApiDate

/-!
# Evaluating the parser on concrete inputs

The result of the model does not depend on the predictor, so it can be computed by the ordered search.  Used for the
concrete cases shown beside the theorems.
-/

namespace Rfc5322

/-- `parseAddressList`, computed by search. -/
def evalAddresses (env : Env) (input : Bytes) : Except Panic (AddrSlice × Option Err) :=
  if input.length = 0 then .ok (some [], none)
  else match search Gr.addressList (tokens input) with
    | none => .ok (none, some .syntaxError)
    | some ts => match walkList env ts Walker.init with
      | .error p => .error p
      | .ok w => match w.res with
        | some (.addrs l) => .ok (goSlice l, w.err)
        | _ => .error .typeAssertion

theorem evalAddresses_eq (P : Predictor) (env : Env) (input : Bytes) :
    parseAddressList P env input = evalAddresses env input := by
  unfold parseAddressList evalAddresses
  rw [descend_eq_search P Gr.addressList (by decide)]
  rfl

/-- `parseDateTime`, computed by search. -/
def evalDate (env : Env) (input : Bytes) : Except Panic (GoTime × Option Err) :=
  if input.length = 0 then .ok (zeroTime, none)
  else match search Gr.dateTime (tokens input) with
    | none => .ok (zeroTime, some .syntaxError)
    | some ts => match walkList env ts Walker.init with
      | .error p => .error p
      | .ok w => match w.res with
        | some (.time t) => .ok (t, w.err)
        | _ => .error .typeAssertion

theorem evalDate_eq (P : Predictor) (env : Env) (input : Bytes) :
    parseDateTime P env input = evalDate env input := by
  unfold parseDateTime evalDate
  rw [descend_eq_search P Gr.dateTime (by decide)]
  rfl

/-- A decoder that knows no encoded words, and a clock in 2024: the environment of the examples. -/
def env0 : Env := ⟨fun _ => none, 2024⟩

instance : DecidableEq (Except Panic (AddrSlice × Option Err)) := fun a b => by
  cases a <;> cases b
  · rename_i x y; exact decidable_of_iff (x = y) (by simp)
  · exact .isFalse (by simp)
  · exact .isFalse (by simp)
  · rename_i x y; exact decidable_of_iff (x = y) (by simp)

instance : DecidableEq (Except Panic (GoTime × Option Err)) := fun a b => by
  cases a <;> cases b
  · rename_i x y; exact decidable_of_iff (x = y) (by simp)
  · exact .isFalse (by simp)
  · exact .isFalse (by simp)
  · rename_i x y; exact decidable_of_iff (x = y) (by simp)

/-- Concrete inputs with the result computed by the kernel. -/
macro "eval_addr" : tactic => `(tactic| (rw [evalAddresses_eq]; decide +kernel))
/-- Concrete inputs with the result computed by the kernel. -/
macro "eval_date" : tactic => `(tactic| (rw [evalDate_eq]; decide +kernel))

example (P : Predictor) : parseAddressList P env0 (utf8 c!"Joe <a@b>, c.d@e") =
    .ok (some [⟨b!"Joe", b!"a@b"⟩, ⟨[], b!"c.d@e"⟩], none) := by eval_addr

example (P : Predictor) : parseDateTime P env0 (utf8 c!"2 Jan 2006 15:04:05 +0100") =
    .ok (⟨1136210645, ⟨b!"+0100", 3600⟩⟩, none) := by eval_date

end Rfc5322
