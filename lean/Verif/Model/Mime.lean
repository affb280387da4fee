import Verif.Model.Walker

/-!
# `mime.WordDecoder` (Go 1.16, package mime, encodedword.go)

`EnterEncodedWord` (/repo/encoded_word.go:14-16) calls `(&mime.WordDecoder{CharsetReader: CharsetReader}).Decode(text)`
with the package variable `CharsetReader` (/repo/parser.go:12-16).  Most theorems hold for an arbitrary decoder
(`Env.decode`); here is the actual one.
-/

namespace Rfc5322

/-- The package variable `CharsetReader` (/repo/parser.go:16): `none` is nil.  A reader is called with the name of the
charset in lower case and the content; the result is everything that can be read from the reader it returns, or `none`
if it or reading from its result fails.  Simplification: the reader is a function of its arguments. -/
abbrev CharsetReader := Option (Bytes → Bytes → Option Bytes)

/-- `fromHex` of package mime. -/
def fromHex (b : UInt8) : Option Nat :=
  if inRange b 0x30 0x39 then some (b.toNat - 0x30)
  else if inRange b 0x41 0x46 then some (b.toNat - 0x41 + 10)
  else if inRange b 0x61 0x66 then some (b.toNat - 0x61 + 10)
  else none

/-- `readHexByte` of package mime. -/
def readHexByte (a b : UInt8) : Option UInt8 :=
  match fromHex a, fromHex b with
  | some x, some y => some (UInt8.ofNat (x * 16 + y))
  | _, _ => none

/-- `qDecode` of package mime. -/
def qDecode : Bytes → Option Bytes
  | [] => some []
  | c :: r =>
    if c = 0x5F then (qDecode r).map (0x20 :: ·)
    else if c = 0x3D then
      match r with
      | a :: b :: r => match readHexByte a b with
        | some x => (qDecode r).map (x :: ·)
        | none => none
      | _ => none
    else if inRange c 0x20 0x7E || c == 0x0A || c == 0x0D || c == 0x09 then (qDecode r).map (c :: ·)
    else none

/-- `decodeMap` of `base64.StdEncoding`. -/
def b64Value (b : UInt8) : Option Nat :=
  if inRange b 0x41 0x5A then some (b.toNat - 0x41)
  else if inRange b 0x61 0x7A then some (b.toNat - 0x61 + 26)
  else if inRange b 0x30 0x39 then some (b.toNat - 0x30 + 52)
  else if b = 0x2B then some 62
  else if b = 0x2F then some 63
  else none

/-- Quanta of four characters (`decodeQuantum` of package encoding/base64, not strict: unused bits are ignored); padding only
in the last one. -/
def b64Quanta : Bytes → Option Bytes
  | [] => some []
  | [a, b, c, d] =>
    match b64Value a, b64Value b with
    | some w, some x =>
      let b0 := UInt8.ofNat (w * 4 + x / 16)
      if c = 0x3D then (if d = 0x3D then some [b0] else none)
      else match b64Value c with
        | none => none
        | some y =>
          let b1 := UInt8.ofNat (x % 16 * 16 + y / 4)
          if d = 0x3D then some [b0, b1]
          else match b64Value d with
            | none => none
            | some z => some [b0, b1, UInt8.ofNat (y % 4 * 64 + z)]
    | _, _ => none
  | a :: b :: c :: d :: r =>
    match b64Value a, b64Value b, b64Value c, b64Value d with
    | some w, some x, some y, some z =>
      (b64Quanta r).map
        ([UInt8.ofNat (w * 4 + x / 16), UInt8.ofNat (x % 16 * 16 + y / 4), UInt8.ofNat (y % 4 * 64 + z)] ++ ·)
    | _, _, _, _ => none
  | _ => none

/-- `base64.StdEncoding.DecodeString`: line ends are skipped. -/
def b64Decode (s : Bytes) : Option Bytes := b64Quanta (s.filter fun b => b != 0x0A && b != 0x0D)

/-- `decode` of package mime. -/
def decodeText (encoding : UInt8) (text : Bytes) : Option Bytes :=
  if encoding = 0x42 ∨ encoding = 0x62 then b64Decode text
  else if encoding = 0x51 ∨ encoding = 0x71 then qDecode text
  else none

/-- `WordDecoder.convert` of package mime.  `strings.EqualFold` is compared by `toLower`; simplification: of the Unicode foldings it
also knows, none concerns the characters of an encoded word, which are ASCII. -/
def convert (cr : CharsetReader) (charset content : Bytes) : Option Bytes :=
  if toLower charset = b!"utf-8" then some content
  else if toLower charset = b!"iso-8859-1" then some (content.flatMap fun b => encodeRune (Char.ofNat b.toNat))
  else if toLower charset = b!"us-ascii" then
    some (content.flatMap fun b => if b.toNat ≥ 0x80 then encodeRune runeError else [b])
  else match cr with
    | none => none
    | some f => f (toLower charset) content

/-- `strings.HasSuffix(s, "?=")` and removal of that suffix. -/
def cutEnd (s : Bytes) : Option Bytes :=
  if s.drop (s.length - 2) = b!"?=" then some (s.take (s.length - 2)) else none

/-- `WordDecoder.Decode` of package mime; `none` is an error. -/
def wordDecode (cr : CharsetReader) (word : Bytes) : Option Bytes :=
  if word.length < 8 ∨ word.count 0x3F ≠ 4 then none
  else match word with
    | 0x3D :: 0x3F :: r => match cutEnd r with
      | none => none
      | some r =>
        let charset := r.takeWhile (· != 0x3F)
        match r.dropWhile (· != 0x3F) with
        | _ :: encoding :: 0x3F :: text =>
          if charset.isEmpty then none
          else match decodeText encoding text with
            | none => none
            | some content => convert cr charset content
        | _ => none
    | _ => none

/-- The environment in which /repo/encoded_word.go runs. -/
def goEnv (cr : CharsetReader) (nowYear : Int) : Env := ⟨wordDecode cr, nowYear⟩

end Rfc5322
