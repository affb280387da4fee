import Verif.Model.Api
import Verif.Model.GoCode

/-!
# What a caller of the Go functions sees

Independent of the walker, of the representation of its stack and of the proofs.
-/

set_option linter.constructorNameAsVariable false

namespace Rfc5322.Go

/-- The `mail.Address` behind a pointer. -/
def readAddress (h : Heap) : Val → Option Addr
  | .ptr a => match h[a]? with
    | some (.struct .«mail.Address» [(.Name, .str n), (.Address, .str x)]) => some ⟨n, x⟩
    | _ => none
  | _ => none

/-- The elements behind the pointers. -/
def readAddresses (h : Heap) : List Val → Option (List Addr)
  | [] => some []
  | v :: vs => match readAddress h v, readAddresses h vs with
    | some x, some xs => some (x :: xs)
    | _, _ => none

/-- What is in a `[]*mail.Address`: `some none` for the nil slice, `some (some l)` for a slice with these elements, `none` if the value is no such slice. -/
def readSlice (h : Heap) : Val → Option AddrSlice
  | .slice (.ptr .«mail.Address») none _ _ => some none
  | .slice (.ptr .«mail.Address») (some a) len _ => match h[a]? with
    | some (.array vs) => (readAddresses h (vs.take len)).map some
    | _ => none
  | _ => none

/-- The addresses on the heap that a `[]*mail.Address` refers to: its array and the elements. -/
def refersTo (h : Heap) : Val → List Nat
  | .slice _ (some a) len _ => a :: match h[a]? with
    | some (.array vs) => (vs.take len).filterMap fun v => match v with | .ptr b => some b | _ => none
    | _ => []
  | _ => []

/-- The error a caller gets: nil, one of the errors of the package with its text, or an error of the standard library. -/
def errorIs : Option Err → Val → Prop
  | none, v => v = .nil
  | some .syntaxError, v => ∃ msg, v = .err (.new (b!"error parsing rfc5322 input: " ++ msg))
  | some .noSuchMonth, v => v = .err (.new b!"no such month")
  | some .badTimezone, v => v = .err (.new b!"bad timezone")
  | some .atoi, v => v = .err (.std .atoi)
  | some .duration, v => v = .err (.std .duration)

end Rfc5322.Go
