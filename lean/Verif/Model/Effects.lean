import Verif.Model.Concurrent
import Verif.Model.Mime

/-!
# A `CharsetReader` with side effects

`CharsetReader` (/repo/parser.go:12-16) is any function of the program: it may change variables and it may panic.  Here it is called by the model one
encoded word at a time, and has a state, in which are all the variables that it reads and writes: among them perhaps the variable `CharsetReader` itself, which is read anew for
every word.  It may call the functions of the package; they have no variables that survive a call, apart from the prediction caches, on which nothing depends (C01).

Simplification: reading from the `io.Reader` that it returns, in `WordDecoder.convert` of package mime, counts as part of the call; so if it returns neither a reader nor an
error, the panic of `convert` counts as one of its own.
-/

namespace Rfc5322

variable {σ : Type}

/-- A call with the name of a character set and the bytes to convert: a panic (`none`), an error (`some none`) or UTF-8; and what becomes of the state. -/
abbrev Reader (σ : Type) := Bytes → Bytes → σ → Option (Option Bytes) × σ

/-- The variable `CharsetReader`, possibly `nil`, in each state. -/
abbrev ReaderVar (σ : Type) := σ → Option (Reader σ)

/-- `WordDecoder.convert` of package mime, as in `convert` (`Verif/Model/Mime.lean`). -/
def convertWith (R : Option (Reader σ)) (charset content : Bytes) (s : σ) : Option (Option Bytes) × σ :=
  if toLower charset = b!"utf-8" then (some (some content), s)
  else if toLower charset = b!"iso-8859-1" then (some (some (content.flatMap fun b => encodeRune (Char.ofNat b.toNat))), s)
  else if toLower charset = b!"us-ascii" then
    (some (some (content.flatMap fun b => if b.toNat ≥ 0x80 then encodeRune runeError else [b])), s)
  else match R with
    | none => (some none, s)
    | some f => f (toLower charset) content s

/-- `WordDecoder.Decode` of package mime, as in `wordDecode`. -/
def wordDecodeWith (R : Option (Reader σ)) (word : Bytes) (s : σ) : Option (Option Bytes) × σ :=
  if word.length < 8 ∨ word.count 0x3F ≠ 4 then (some none, s)
  else match word with
    | 0x3D :: 0x3F :: r => match cutEnd r with
      | none => (some none, s)
      | some r =>
        let charset := r.takeWhile (· != 0x3F)
        match r.dropWhile (· != 0x3F) with
        | _ :: encoding :: 0x3F :: text =>
          if charset.isEmpty then (some none, s)
          else match decodeText encoding text with
            | none => (some none, s)
            | some content => convertWith R charset content s
        | _ => (some none, s)
    | _ => (some none, s)

/-- One callback of the walker.  `EnterEncodedWord` (/repo/encoded_word.go:13-24) reads the variable and decodes the word, which may panic (`none`); no other callback calls the
`CharsetReader`. -/
def Ev.applyWith (R : ReaderVar σ) (year : Int) (w : Walker) (s : σ) : Ev → Option (Except Panic Walker) × σ
  | .enter .encodedWord ts => match wordDecodeWith (R s) (textList ts) s with
    | (none, s') => (none, s')
    | (some d, s') => (some ((Ev.enter .encodedWord ts).apply ⟨fun _ => d, year⟩ w), s')
  | e => (some (e.apply ⟨fun _ => none, year⟩ w), s)

/-- `antlr.ParseTreeWalkerDefault.Walk(w, tree)` (/repo/parser.go:36, :59): one callback after the other. -/
def walkWith (R : ReaderVar σ) (year : Int) : List Ev → Walker → σ → Option (Except Panic Walker) × σ
  | [], w, s => (some (.ok w), s)
  | e :: es, w, s => match e.applyWith R year w s with
    | (none, s') => (none, s')
    | (some (.error p), s') => (some (.error p), s')
    | (some (.ok w'), s') => walkWith R year es w' s'

/-- `ParseAddressList` and `ParseDateTime` (/repo/parser.go:19-39, :42-62), when the `CharsetReader` has side effects; `none` is one of its panics. -/
def Fn.runWith (fn : Fn) (P : Predictor) (R : ReaderVar σ) (year : Int) (input : Bytes) (s : σ) : Option Obs × σ :=
  if input.length = 0 then (some fn.empty, s)
  else match descend P fn.rule (tokens input) with
    | none => (some fn.syntaxError, s)
    | some ts => match walkWith R year (eventsList ts) Walker.init s with
      | (none, s') => (none, s')
      | (some (.error p), s') => (some (fn.panic p), s')
      | (some (.ok w), s') => (some (fn.finish w), s')

end Rfc5322
