import Verif.Model.Messages

/-!
# What error messages look like

The names of tokens are those of the generated file (`Messages.elementName`); nothing else of the model is used.
-/

namespace Rfc5322.Spec

/-- Tabs and line breaks are written as in Go. -/
def shown (c : Char) : List Char := if c = '\t' then "\\t".toList else if c = '\n' then "\\n".toList else if c = '\r' then "\\r".toList else [c]

/-- A piece of the text in quotes, or the end of the text. -/
inductive Quoted (text : List Char) : List Char → Prop where
  | piece {w} : w ≠ [] → w <:+: text → Quoted text ("'".toList ++ w.flatMap shown ++ "'".toList)
  | atEnd : Quoted text "'<EOF>'".toList

/-- The names of the end of the text and of all types of tokens, which are numbered from 1. -/
def tokenNames : List (List Char) := (none :: (List.range' 1 70).map some).map Messages.elementName

/-- The name of a token, or a list of such names in braces. -/
inductive Names : List Char → Prop where
  | one {n} : n ∈ tokenNames → Names n
  | several {ns} : 2 ≤ ns.length → List.Sublist ns tokenNames → Names ("{".toList ++ (", ".toList).intercalate ns ++ "}".toList)

/-- The message of an error in this text. -/
inductive ErrorText (text : List Char) : List Char → Prop where
  | extraneous {q e} : Quoted text q → Names e → ErrorText text ("extraneous input ".toList ++ q ++ " expecting ".toList ++ e)
  | missing {q e} : Quoted text q → Names e → ErrorText text ("missing ".toList ++ e ++ " at ".toList ++ q)
  | mismatched {q e} : Quoted text q → Names e → ErrorText text ("mismatched input ".toList ++ q ++ " expecting ".toList ++ e)
  | noViable {q} : Quoted text q → ErrorText text ("no viable alternative at input ".toList ++ q)

/-! ## Messages that do not contradict themselves -/

/-- How the next character is shown, or the end of the text. -/
def nextShown : List Char → List Char
  | [] => "'<EOF>'".toList
  | c :: _ => "'".toList ++ shown c ++ "'".toList

/-- The name of the next character, or of the end of the text. -/
def nextName (s : List Char) : List Char := Messages.elementName (s.head?.bind Atn.tokenType)

/-- How a character is named where it is expected: the lower case letters like the upper case ones, digits and some ranges together, the other characters in quotes. -/
def nameOf (c : Char) : List Char :=
  let n := c.toNat
  if n = 0 then "'\\u0000'".toList
  else if n = 9 then "'\\t'".toList
  else if n = 10 then "'\\n'".toList
  else if n = 11 then "'\\u000B'".toList
  else if n = 12 then "'\\u000C'".toList
  else if n = 13 then "'\\r'".toList
  else if n = 127 then "'\\u007F'".toList
  else if n ≤ 8 then "U_01_08".toList
  else if n ≤ 31 then "U_0E_1F".toList
  else if 128 ≤ n then "UTF8NonAscii".toList
  else if c.isAlpha then [c.toUpper]
  else if c.isDigit then "Digit".toList
  else ['\'', c, '\'']

/-- How names are listed. -/
inductive Listed : List (List Char) → List Char → Prop where
  | one {n} : Listed [n] n
  | several {ns} : 2 ≤ ns.length → Listed ns ("{".toList ++ (", ".toList).intercalate ns ++ "}".toList)

/-- A message which is about the character that comes next somewhere in the text, and says that one of certain others is expected; or it does not say what is expected. -/
inductive Sensible (text : List Char) : List Char → Prop where
  | extraneous {s ns e} : s <:+ text → List.Sublist ns tokenNames → nextName s ∉ ns → Listed ns e →
      Sensible text ("extraneous input ".toList ++ nextShown s ++ " expecting ".toList ++ e)
  | missing {s ns e} : s <:+ text → List.Sublist ns tokenNames → nextName s ∉ ns → Listed ns e → Sensible text ("missing ".toList ++ e ++ " at ".toList ++ nextShown s)
  | mismatched {s ns e} : s <:+ text → List.Sublist ns tokenNames → nextName s ∉ ns → Listed ns e →
      Sensible text ("mismatched input ".toList ++ nextShown s ++ " expecting ".toList ++ e)
  | noViable {q} : Quoted text q → Sensible text ("no viable alternative at input ".toList ++ q)

end Rfc5322.Spec
