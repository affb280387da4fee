/-!
# Go strings and runes

A Go `string` is a sequence of bytes.  `antlr.NewInputStream(input)` (called at /repo/parser.go:24 and
/repo/parser.go:47) stores `[]rune(input)`, and `ctx.GetText()` (used by most `EnterX` callbacks) converts runes
back with `string(runes)`.  Both conversions are fixed by the Go language specification
("Conversions to and from a string type"); they are modelled here byte by byte.

A rune produced by `[]rune(s)` is always a Unicode scalar value (surrogates and out-of-range values never
appear, ill-formed bytes give U+FFFD), which is exactly Lean's `Char`.
-/

namespace Rfc5322

/-- A Go `string`: a list of bytes. -/
abbrev Bytes := List UInt8

/-- Go's `string(r)` for one rune `r`: its UTF-8 encoding.
Models the rune-to-string conversion in `antlr.InputStream.GetText`, reached from `ctx.GetText()`
(e.g. /repo/atom.go:13). -/
def encodeRune (c : Char) : Bytes :=
  let n := c.toNat
  if n < 0x80 then [UInt8.ofNat n]
  else if n < 0x800 then
    [UInt8.ofNat (0xC0 + n / 64), UInt8.ofNat (0x80 + n % 64)]
  else if n < 0x10000 then
    [UInt8.ofNat (0xE0 + n / 4096), UInt8.ofNat (0x80 + n / 64 % 64), UInt8.ofNat (0x80 + n % 64)]
  else
    [UInt8.ofNat (0xF0 + n / 262144), UInt8.ofNat (0x80 + n / 4096 % 64),
     UInt8.ofNat (0x80 + n / 64 % 64), UInt8.ofNat (0x80 + n % 64)]

/-- Go's `string(runes)`. -/
def utf8 (cs : List Char) : Bytes := cs.flatMap encodeRune

/-- U+FFFD, Go's `utf8.RuneError`. -/
def runeError : Char := Char.ofNat 0xFFFD

/-- Is `b` a byte in `lo..hi`?  (Go's `acceptRange` check in unicode/utf8.) -/
def inRange (b : UInt8) (lo hi : Nat) : Bool := decide (lo ≤ b.toNat) && decide (b.toNat ≤ hi)

/-- Accepted range of the *second* byte of a multi-byte sequence starting with `b0`
(`first` and `acceptRanges` tables of Go's unicode/utf8). -/
def secondRange (b0 : Nat) : Nat × Nat :=
  if b0 = 0xE0 then (0xA0, 0xBF)
  else if b0 = 0xED then (0x80, 0x9F)
  else if b0 = 0xF0 then (0x90, 0xBF)
  else if b0 = 0xF4 then (0x80, 0x8F)
  else (0x80, 0xBF)

/-- Length announced by the first byte (`first` table of Go's unicode/utf8); `0` for an invalid first byte. -/
def seqLen (b0 : Nat) : Nat :=
  if b0 < 0x80 then 1
  else if b0 < 0xC2 then 0
  else if b0 < 0xE0 then 2
  else if b0 < 0xF0 then 3
  else if b0 < 0xF5 then 4
  else 0

/-- Go's `utf8.DecodeRuneInString`: the first rune of a non-empty byte string and the number of *further* bytes
(beyond the first) it occupies.  An ill-formed or truncated sequence gives U+FFFD and occupies one byte. -/
def decodeRune (b : UInt8) (rest : Bytes) : Char × Nat :=
  let b0 := b.toNat
  match seqLen b0, rest with
  | 1, _ => (Char.ofNat b0, 0)
  | 2, b1 :: _ =>
    if inRange b1 0x80 0xBF then (Char.ofNat ((b0 - 0xC0) * 64 + (b1.toNat - 0x80)), 1) else (runeError, 0)
  | 3, b1 :: b2 :: _ =>
    if inRange b1 (secondRange b0).1 (secondRange b0).2 && inRange b2 0x80 0xBF then
      (Char.ofNat ((b0 - 0xE0) * 4096 + (b1.toNat - 0x80) * 64 + (b2.toNat - 0x80)), 2)
    else (runeError, 0)
  | 4, b1 :: b2 :: b3 :: _ =>
    if inRange b1 (secondRange b0).1 (secondRange b0).2 && inRange b2 0x80 0xBF && inRange b3 0x80 0xBF then
      (Char.ofNat ((b0 - 0xF0) * 262144 + (b1.toNat - 0x80) * 4096 + (b2.toNat - 0x80) * 64 + (b3.toNat - 0x80)), 3)
    else (runeError, 0)
  | _, _ => (runeError, 0)

/-- Loop of `[]rune(s)`: `skip` bytes still belong to the rune decoded last. -/
def runesAux : Nat → Bytes → List Char
  | _, [] => []
  | 0, b :: rest => (decodeRune b rest).1 :: runesAux (decodeRune b rest).2 rest
  | n + 1, _ :: rest => runesAux n rest

/-- Go's `[]rune(s)`; models `antlr.NewInputStream(input)` at /repo/parser.go:24 and :47. -/
def runes (s : Bytes) : List Char := runesAux 0 s

end Rfc5322
