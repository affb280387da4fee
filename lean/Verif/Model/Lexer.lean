import Verif.Model.Utf8

/-!
# The lexer (RFC5322Lexer.g4, parser/rfc5322_lexer.go)

Every lexer rule matches exactly one rune, so a token is represented by its rune; its type is the lexer rule
that matches it.  A rune no rule matches (above U+FFFF) makes the ANTLR lexer report an error to its own
listeners — the default console listener, since /repo/parser.go:28-29 and :51-52 replace only the listeners
of the *parser* — and skip that rune.
-/

namespace Rfc5322

/-- Token types, /repo/parser/rfc5322_lexer.go:240-311 (`RFC5322LexerU_00 = 1` … `RFC5322LexerZ = 70`),
in the same order. -/
inductive Tok where
  | U_00 | U_01_08 | TAB | LF | U_0B | U_0C | CR | U_0E_1F | SP | Exclamation
  | DQuote | Hash | Dollar | Percent | Ampersand | SQuote | LParens | RParens | Asterisk | Plus
  | Comma | Minus | Period | Slash | Digit | Colon | Semicolon | Less | Equal | Greater
  | Question | At | LBracket | Backslash | RBracket | Caret | Underscore | Backtick | LCurly | Pipe
  | RCurly | Tilde | Delete | UTF8NonAscii | A | B | C | D | E | F
  | G | H | I | J | K | L | M | N | O | P
  | Q | R | S | T | U | V | W | X | Y | Z
  deriving DecidableEq, Repr

/-- The set of runes matched by each lexer rule, as inclusive ranges of code points
(RFC5322Lexer.g4:3-81; the line of each rule is noted). -/
def Tok.ranges : Tok → List (Nat × Nat)
  | .U_00 => [(0x00, 0x00)]  -- RFC5322Lexer.g4:3
  | .U_01_08 => [(0x01, 0x08)]  -- RFC5322Lexer.g4:4
  | .TAB => [(0x09, 0x09)]  -- RFC5322Lexer.g4:5
  | .LF => [(0x0A, 0x0A)]  -- RFC5322Lexer.g4:6
  | .U_0B => [(0x0B, 0x0B)]  -- RFC5322Lexer.g4:7
  | .U_0C => [(0x0C, 0x0C)]  -- RFC5322Lexer.g4:8
  | .CR => [(0x0D, 0x0D)]  -- RFC5322Lexer.g4:9
  | .U_0E_1F => [(0x0E, 0x1F)]  -- RFC5322Lexer.g4:10
  | .SP => [(0x20, 0x20)]  -- RFC5322Lexer.g4:13
  | .Exclamation => [(0x21, 0x21)]  -- RFC5322Lexer.g4:14
  | .DQuote => [(0x22, 0x22)]  -- RFC5322Lexer.g4:15
  | .Hash => [(0x23, 0x23)]  -- RFC5322Lexer.g4:16
  | .Dollar => [(0x24, 0x24)]  -- RFC5322Lexer.g4:17
  | .Percent => [(0x25, 0x25)]  -- RFC5322Lexer.g4:18
  | .Ampersand => [(0x26, 0x26)]  -- RFC5322Lexer.g4:19
  | .SQuote => [(0x27, 0x27)]  -- RFC5322Lexer.g4:20
  | .LParens => [(0x28, 0x28)]  -- RFC5322Lexer.g4:21
  | .RParens => [(0x29, 0x29)]  -- RFC5322Lexer.g4:22
  | .Asterisk => [(0x2A, 0x2A)]  -- RFC5322Lexer.g4:23
  | .Plus => [(0x2B, 0x2B)]  -- RFC5322Lexer.g4:24
  | .Comma => [(0x2C, 0x2C)]  -- RFC5322Lexer.g4:25
  | .Minus => [(0x2D, 0x2D)]  -- RFC5322Lexer.g4:26
  | .Period => [(0x2E, 0x2E)]  -- RFC5322Lexer.g4:27
  | .Slash => [(0x2F, 0x2F)]  -- RFC5322Lexer.g4:28
  | .Digit => [(0x30, 0x39)]  -- RFC5322Lexer.g4:29
  | .Colon => [(0x3A, 0x3A)]  -- RFC5322Lexer.g4:30
  | .Semicolon => [(0x3B, 0x3B)]  -- RFC5322Lexer.g4:31
  | .Less => [(0x3C, 0x3C)]  -- RFC5322Lexer.g4:32
  | .Equal => [(0x3D, 0x3D)]  -- RFC5322Lexer.g4:33
  | .Greater => [(0x3E, 0x3E)]  -- RFC5322Lexer.g4:34
  | .Question => [(0x3F, 0x3F)]  -- RFC5322Lexer.g4:35
  | .At => [(0x40, 0x40)]  -- RFC5322Lexer.g4:36
  | .LBracket => [(0x5B, 0x5B)]  -- RFC5322Lexer.g4:38
  | .Backslash => [(0x5C, 0x5C)]  -- RFC5322Lexer.g4:39
  | .RBracket => [(0x5D, 0x5D)]  -- RFC5322Lexer.g4:40
  | .Caret => [(0x5E, 0x5E)]  -- RFC5322Lexer.g4:41
  | .Underscore => [(0x5F, 0x5F)]  -- RFC5322Lexer.g4:42
  | .Backtick => [(0x60, 0x60)]  -- RFC5322Lexer.g4:43
  | .LCurly => [(0x7B, 0x7B)]  -- RFC5322Lexer.g4:45
  | .Pipe => [(0x7C, 0x7C)]  -- RFC5322Lexer.g4:46
  | .RCurly => [(0x7D, 0x7D)]  -- RFC5322Lexer.g4:47
  | .Tilde => [(0x7E, 0x7E)]  -- RFC5322Lexer.g4:48
  | .Delete => [(0x7F, 0x7F)]  -- RFC5322Lexer.g4:51
  | .UTF8NonAscii => [(0x80, 0xFFFF)]  -- RFC5322Lexer.g4:54
  | .A => [(0x41, 0x41), (0x61, 0x61)]  -- RFC5322Lexer.g4:56
  | .B => [(0x42, 0x42), (0x62, 0x62)]  -- RFC5322Lexer.g4:57
  | .C => [(0x43, 0x43), (0x63, 0x63)]  -- RFC5322Lexer.g4:58
  | .D => [(0x44, 0x44), (0x64, 0x64)]  -- RFC5322Lexer.g4:59
  | .E => [(0x45, 0x45), (0x65, 0x65)]  -- RFC5322Lexer.g4:60
  | .F => [(0x46, 0x46), (0x66, 0x66)]  -- RFC5322Lexer.g4:61
  | .G => [(0x47, 0x47), (0x67, 0x67)]  -- RFC5322Lexer.g4:62
  | .H => [(0x48, 0x48), (0x68, 0x68)]  -- RFC5322Lexer.g4:63
  | .I => [(0x49, 0x49), (0x69, 0x69)]  -- RFC5322Lexer.g4:64
  | .J => [(0x4A, 0x4A), (0x6A, 0x6A)]  -- RFC5322Lexer.g4:65
  | .K => [(0x4B, 0x4B), (0x6B, 0x6B)]  -- RFC5322Lexer.g4:66
  | .L => [(0x4C, 0x4C), (0x6C, 0x6C)]  -- RFC5322Lexer.g4:67
  | .M => [(0x4D, 0x4D), (0x6D, 0x6D)]  -- RFC5322Lexer.g4:68
  | .N => [(0x4E, 0x4E), (0x6E, 0x6E)]  -- RFC5322Lexer.g4:69
  | .O => [(0x4F, 0x4F), (0x6F, 0x6F)]  -- RFC5322Lexer.g4:70
  | .P => [(0x50, 0x50), (0x70, 0x70)]  -- RFC5322Lexer.g4:71
  | .Q => [(0x51, 0x51), (0x71, 0x71)]  -- RFC5322Lexer.g4:72
  | .R => [(0x52, 0x52), (0x72, 0x72)]  -- RFC5322Lexer.g4:73
  | .S => [(0x53, 0x53), (0x73, 0x73)]  -- RFC5322Lexer.g4:74
  | .T => [(0x54, 0x54), (0x74, 0x74)]  -- RFC5322Lexer.g4:75
  | .U => [(0x55, 0x55), (0x75, 0x75)]  -- RFC5322Lexer.g4:76
  | .V => [(0x56, 0x56), (0x76, 0x76)]  -- RFC5322Lexer.g4:77
  | .W => [(0x57, 0x57), (0x77, 0x77)]  -- RFC5322Lexer.g4:78
  | .X => [(0x58, 0x58), (0x78, 0x78)]  -- RFC5322Lexer.g4:79
  | .Y => [(0x59, 0x59), (0x79, 0x79)]  -- RFC5322Lexer.g4:80
  | .Z => [(0x5A, 0x5A), (0x7A, 0x7A)]  -- RFC5322Lexer.g4:81

/-- Does the lexer rule `t` match the rune `c`? -/
def Tok.matches (t : Tok) (c : Char) : Bool :=
  t.ranges.any fun r => Nat.ble r.1 c.toNat && Nat.ble c.toNat r.2

/-- All token types in the order of the lexer grammar. -/
def Tok.all : List Tok :=
  [.U_00, .U_01_08, .TAB, .LF, .U_0B, .U_0C, .CR, .U_0E_1F, .SP, .Exclamation,
   .DQuote, .Hash, .Dollar, .Percent, .Ampersand, .SQuote, .LParens, .RParens, .Asterisk, .Plus,
   .Comma, .Minus, .Period, .Slash, .Digit, .Colon, .Semicolon, .Less, .Equal, .Greater,
   .Question, .At, .LBracket, .Backslash, .RBracket, .Caret, .Underscore, .Backtick, .LCurly, .Pipe,
   .RCurly, .Tilde, .Delete, .UTF8NonAscii, .A, .B, .C, .D, .E, .F,
   .G, .H, .I, .J, .K, .L, .M, .N, .O, .P,
   .Q, .R, .S, .T, .U, .V, .W, .X, .Y, .Z]

/-- ANTLR lexer: all rules match one rune, so the longest-match rule never discriminates and the first
rule of the grammar that matches wins (`LexerATNSimulator`); `none` is a token recognition error. -/
def lexRune (c : Char) : Option Tok := Tok.all.find? fun t => t.matches c

/-- The token stream: runes that no rule matches are skipped (`Lexer.Recover`), all others yield one token. -/
def tokenize (cs : List Char) : List Char := cs.filter fun c => (lexRune c).isSome

end Rfc5322
