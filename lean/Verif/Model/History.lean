import Verif.Model.Api

/-!
# Histories of calls

What survives from one call to the next: the package variable `CharsetReader` (/repo/parser.go:16), and the prediction
caches of the ANTLR runtime, which all parsers share (`decisionToDFA`,
/repo/parser/rfc5322_parser.go:605-609, passed to every parser at :627).  Everything else (`walker`, lexer, parser, token stream) is created
per call (/repo/parser.go:24-29, :47-52).  Time passes between calls.
-/

namespace Rfc5322

/-- What the next call may depend on. -/
structure World where
  /-- behaviour of `mime.WordDecoder{CharsetReader: CharsetReader}.Decode` with the current `CharsetReader` -/
  decode : Bytes → Option Bytes
  /-- `time.Now().Year()` -/
  nowYear : Int
  /-- the prediction machinery in its current state -/
  predictor : Predictor

/-- What a program may do. -/
inductive Op where
  /-- `rfc5322.CharsetReader = f` (/repo/parser.go:16) -/
  | setReader (decode : Bytes → Option Bytes)
  /-- the clock moves to another year -/
  | setYear (year : Int)
  /-- `ParseAddressList(input)` (/repo/parser.go:19) -/
  | addresses (input : Bytes)
  /-- `ParseDateTime(input)` (/repo/parser.go:42) -/
  | date (input : Bytes)

/-- What the program observes. -/
inductive Obs where
  | nothing
  | addresses (r : Except Panic (AddrSlice × Option Err))
  | date (r : Except Panic (GoTime × Option Err))

/-- One operation.  A parse call may leave the prediction caches in any state. -/
inductive Step1 : World → Op → World → Obs → Prop where
  | setReader {w d} : Step1 w (.setReader d) { w with decode := d } .nothing
  | setYear {w y} : Step1 w (.setYear y) { w with nowYear := y } .nothing
  | addresses {w i} (P' : Predictor) :
      Step1 w (.addresses i) { w with predictor := P' } (.addresses (parseAddressList w.predictor ⟨w.decode, w.nowYear⟩ i))
  | date {w i} (P' : Predictor) :
      Step1 w (.date i) { w with predictor := P' } (.date (parseDateTime w.predictor ⟨w.decode, w.nowYear⟩ i))

/-- A history of operations with what was observed at each. -/
inductive Run : World → List (Op × Obs) → Prop where
  | nil {w} : Run w []
  | cons {w op w' o h} : Step1 w op w' o → Run w' h → Run w ((op, o) :: h)

end Rfc5322
