import Verif.Model.Mime

/-!
# `(*mail.Address).String` (Go 1.16, package net/mail) and `mime.WordEncoder.Encode` (package mime)

`ParseAddressList` returns `[]*mail.Address` (/repo/parser.go:20); `String` is how a user of the package turns an element of the
result back into text.  Neither function is in /repo; they are modelled from the Go standard library.
-/

namespace Rfc5322

/-- `for i, r := range s`: the runes with the index of their first byte. -/
def rangeAux : Nat → Nat → Bytes → List (Nat × Char)
  | _, _, [] => []
  | i, 0, b :: rest => (i, (decodeRune b rest).1) :: rangeAux (i + 1) (decodeRune b rest).2 rest
  | i, n + 1, _ :: rest => rangeAux (i + 1) n rest

/-- `for i, r := range s`. -/
def goRange (s : Bytes) : List (Nat × Char) := rangeAux 0 0 s

/-- `isMultibyte` of package net/mail. -/
def goMultibyte (r : Char) : Bool := decide (r.toNat ≥ 0x80)
/-- `isVchar` of package net/mail. -/
def goVchar (r : Char) : Bool := decide (0x21 ≤ r.toNat) && decide (r.toNat ≤ 0x7E) || goMultibyte r
/-- `isWSP` of package net/mail. -/
def goWSP (r : Char) : Bool := r == ' ' || r == '\t'
/-- `isQtext` of package net/mail. -/
def goQtext (r : Char) : Bool := if r == '\\' || r == '"' then false else goVchar r
/-- `isAtext(r, false, false)` of package net/mail. -/
def goAtext (r : Char) : Bool := if (c!".()[];@\\,<>\":").contains r then false else goVchar r

/-- `quoteString` of package net/mail. -/
def goQuote (s : Bytes) : Bytes :=
  0x22 :: ((runes s).flatMap fun r =>
    if goQtext r || goWSP r then encodeRune r else if goVchar r then 0x5C :: encodeRune r else []) ++ [0x22]

/-- The loop of `(*Address).String` that decides whether the local part must be quoted. -/
def quoteLocal (loc : Bytes) : Bool :=
  (goRange loc).any fun (i, r) =>
    !(goAtext r || (r == '.' && decide (0 < i) && decide (loc[i - 1]? ≠ some 0x2E) && decide (i + 1 < loc.length)))

/-- Does `writeQString` of package mime (and the test in `qEncode`) leave the byte alone?  The space is handled separately. -/
def qPlain (b : UInt8) : Bool := inRange b 0x21 0x7E && b != 0x3D && b != 0x3F && b != 0x5F

/-- `upperhex` of package mime. -/
def upperHex (n : Nat) : UInt8 := (b!"0123456789ABCDEF").getD n 0

/-- `writeQString` of package mime. -/
def writeQ (s : Bytes) : Bytes :=
  s.flatMap fun b => if b = 0x20 then [0x5F] else if qPlain b then [b] else [0x3D, upperHex (b.toNat / 16), upperHex (b.toNat % 16)]

/-- `openWord` of package mime for charset `utf-8`. -/
def openWord (e : UInt8) : Bytes := b!"=?utf-8?" ++ [e, 0x3F]
/-- `closeWord` of package mime. -/
def closeWord : Bytes := b!"?="
/-- `splitWord` of package mime. -/
def splitWord (e : UInt8) : Bytes := closeWord ++ (0x20 :: openWord e)

/-- `maxContentLen` of package mime: 75 - len("=?UTF-8?q?") - len("?="). -/
def maxContentLen : Nat := 63
/-- `maxBase64Len` of package mime: `base64.StdEncoding.DecodedLen(maxContentLen)`. -/
def maxBase64Len : Nat := 45

/-- The loop of `WordEncoder.qEncode` of package mime. -/
def qLoop (currentLen : Nat) : Bytes → Bytes
  | [] => []
  | b :: rest =>
    let plain := qPlain b || b == 0x20
    let n := if plain then 0 else (decodeRune b rest).2
    let encLen := if plain then 1 else 3 * (n + 1)
    if currentLen + encLen > maxContentLen then
      splitWord 0x71 ++ (writeQ (b :: rest.take n) ++ qLoop encLen (rest.drop n))
    else writeQ (b :: rest.take n) ++ qLoop (currentLen + encLen) (rest.drop n)
termination_by s => s.length

/-- `encodeStd` of package encoding/base64. -/
def b64Char (n : Nat) : UInt8 := (b!"ABCDEFGHIJKLMNOPQRSTUVWXYZabcdefghijklmnopqrstuvwxyz0123456789+/").getD n 0

/-- `base64.StdEncoding.Encode`. -/
def b64Encode : Bytes → Bytes
  | [] => []
  | [a] => let v := a.toNat * 65536; [b64Char (v / 262144 % 64), b64Char (v / 4096 % 64), 0x3D, 0x3D]
  | [a, b] => let v := a.toNat * 65536 + b.toNat * 256; [b64Char (v / 262144 % 64), b64Char (v / 4096 % 64), b64Char (v / 64 % 64), 0x3D]
  | a :: b :: c :: r =>
    let v := a.toNat * 65536 + b.toNat * 256 + c.toNat
    b64Char (v / 262144 % 64) :: b64Char (v / 4096 % 64) :: b64Char (v / 64 % 64) :: b64Char (v % 64) :: b64Encode r

/-- The loop of `WordEncoder.bEncode` of package mime; `chunk` is `s[last:i]`, whose length is `currentLen`. -/
def bLoop (chunk : Bytes) : Bytes → Bytes
  | [] => b64Encode chunk
  | b :: rest =>
    let n := (decodeRune b rest).2
    if chunk.length + (n + 1) ≤ maxBase64Len then bLoop (chunk ++ b :: rest.take n) (rest.drop n)
    else b64Encode chunk ++ (splitWord 0x62 ++ bLoop (b :: rest.take n) (rest.drop n))
termination_by s => s.length

/-- `WordEncoder.bEncode` of package mime for charset `utf-8`. -/
def bEncode (s : Bytes) : Bytes := if (s.length + 2) / 3 * 4 ≤ maxContentLen then b64Encode s else bLoop [] s

/-- `needsEncoding` of package mime. -/
def needsEncoding (s : Bytes) : Bool := (runes s).any fun r => (decide (r.toNat < 0x20) || decide (r.toNat > 0x7E)) && r != '\t'

/-- `mime.QEncoding.Encode("utf-8", s)`. -/
def goQEncode (s : Bytes) : Bytes := if needsEncoding s then openWord 0x71 ++ (qLoop 0 s ++ closeWord) else s
/-- `mime.BEncoding.Encode("utf-8", s)`. -/
def goBEncode (s : Bytes) : Bytes := if needsEncoding s then openWord 0x62 ++ (bEncode s ++ closeWord) else s

/-- `strings.LastIndex(s, "@")` and the parts before and after it; without `@` everything is before it. -/
def splitAt (s : Bytes) : Bytes × Bytes :=
  if s.contains 0x40 then
    ((s.reverse.dropWhile (· != 0x40)).tail.reverse, (s.reverse.takeWhile (· != 0x40)).reverse)
  else (s, [])

/-- `(*mail.Address).String`. -/
def addressString (a : Addr) : Bytes :=
  let (loc, domain) := splitAt a.address
  let loc := if quoteLocal loc then goQuote loc else loc
  let s := 0x3C :: (loc ++ (0x40 :: (domain ++ [0x3E])))
  if a.name.isEmpty then s
  else if (runes a.name).all fun r => (goVchar r || goWSP r) && !goMultibyte r then goQuote a.name ++ (0x20 :: s)
  else if a.name.any fun b => (b!"\"#$%&'(),.:;<>@[]^`{|}~").contains b then goBEncode a.name ++ (0x20 :: s)
  else goQEncode a.name ++ (0x20 :: s)

/-- `strings.Join` of the addresses with `", "`, as in a header field. -/
def addressesString : List Addr → Bytes
  | [] => []
  | [a] => addressString a
  | a :: as => addressString a ++ (0x2C :: 0x20 :: addressesString as)

end Rfc5322
