import Verif.Model.G4Data

/-!
# Reading grammar files of ANTLR

The part of the format that the two files use: rules with literals, ranges, sets, references, `|`, `?`, `*`, `+` and parentheses, comments to the end of
the line, the header (RFC5322Lexer.g4:1-81, RFC5322Parser.g4:1-515; the tool that reads them, ANTLR, is not in /repo).  Anything else (block comments, actions, commands, non-greedy operators, labels, …) is refused.
-/

namespace Rfc5322.G4

/-- Names of rules and tokens. -/
abbrev Name := List Char

/-- The right sides of rules. -/
inductive Ebnf where
  /-- a character with a code in this interval -/
  | range (lo hi : Nat)
  /-- a rule or token -/
  | ref (n : Name)
  | seq (a b : Ebnf)
  | alt (a b : Ebnf)
  /-- `a?` -/
  | opt (a : Ebnf)
  /-- `a*` -/
  | star (a : Ebnf)
  /-- `a+` -/
  | plus (a : Ebnf)
  deriving DecidableEq

/-- A grammar file: its kind (`lexer` or `parser`), name and vocabulary, and its rules. -/
structure Grammar where
  kind : Name
  name : Name
  vocabulary : Option Name
  rules : List (Name × Ebnf)

/-! ## Symbols -/

/-- The symbols of a grammar file. -/
inductive Sym where
  | name (n : Name)
  /-- characters between single quotes, as they stand -/
  | lit (s : List Char)
  /-- characters between brackets, as they stand -/
  | set (s : List Char)
  /-- any other character -/
  | op (c : Char)

/-- What the characters read so far belong to (backwards). -/
inductive Mode where
  | plain
  | name (acc : List Char)
  | lit (acc : List Char)
  /-- after a backslash between single quotes -/
  | litEsc (acc : List Char)
  | set (acc : List Char)
  /-- after a slash -/
  | slash

/-- Letters, digits, underscores. -/
def nameChar (c : Char) : Bool := (97 ≤ c.toNat && c.toNat ≤ 122) || (65 ≤ c.toNat && c.toNat ≤ 90) || (48 ≤ c.toNat && c.toNat ≤ 57) || c.toNat == 95

/-- The first character of a symbol: the symbol, if it is complete, and what follows. -/
def first (c : Char) : List Sym × Mode :=
  if c = ' ' ∨ c = '\t' then ([], .plain)
  else if nameChar c then ([], .name [c])
  else if c = '\'' then ([], .lit [])
  else if c = '[' then ([], .set [])
  else if c = '/' then ([], .slash)
  else ([.op c], .plain)

/-- The symbols of a line. -/
def symbols : Mode → List Char → Option (List Sym)
  | .plain, [] => some []
  | .name acc, [] => some [.name acc.reverse]
  | _, [] => none
  | .plain, c :: cs => (symbols (first c).2 cs).map ((first c).1 ++ ·)
  | .name acc, c :: cs =>
    if nameChar c then symbols (.name (c :: acc)) cs
    else (symbols (first c).2 cs).map (.name acc.reverse :: (first c).1 ++ ·)
  | .lit acc, c :: cs =>
    if c = '\'' then (symbols .plain cs).map (.lit acc.reverse :: ·)
    else if c = '\\' then symbols (.litEsc (c :: acc)) cs
    else symbols (.lit (c :: acc)) cs
  | .litEsc acc, c :: cs => symbols (.lit (c :: acc)) cs
  | .set acc, c :: cs =>
    if c = ']' then (symbols .plain cs).map (.set acc.reverse :: ·)
    else if c = '\\' then none
    else symbols (.set (c :: acc)) cs
  | .slash, c :: _ => if c = '/' then some [] else none

/-- The symbols of a file. -/
def allSymbols : List (List Char) → Option (List Sym)
  | [] => some []
  | l :: ls => do
    let a ← symbols .plain l
    let b ← allSymbols ls
    some (a ++ b)

/-! ## Literals -/

/-- Hexadecimal digits. -/
def hex (c : Char) : Option Nat :=
  if 48 ≤ c.toNat && c.toNat ≤ 57 then some (c.toNat - 48)
  else if 65 ≤ c.toNat && c.toNat ≤ 70 then some (c.toNat - 55)
  else if 97 ≤ c.toNat && c.toNat ≤ 102 then some (c.toNat - 87)
  else none

/-- The code of the only character of a literal. -/
def literal : List Char → Option Nat
  | ['\\', 't'] => some 9
  | ['\\', 'n'] => some 10
  | ['\\', 'r'] => some 13
  | ['\\', '\''] => some 39
  | ['\\', '\\'] => some 92
  | ['\\', 'u', a, b, c, d] => do
    let a ← hex a
    let b ← hex b
    let c ← hex c
    let d ← hex d
    some (4096 * a + 256 * b + 16 * c + d)
  | [c] => if c = '\\' then none else some c.toNat
  | _ => none

/-! ## Rules -/

mutual
/-- Alternatives. -/
def alts : Nat → List Sym → Option (Ebnf × List Sym)
  | 0, _ => none
  | n + 1, s => do
    let (a, s) ← seqs n s
    match s with
    | .op c :: s' =>
      if c = '|' then do
        let (b, s) ← alts n s'
        some (.alt a b, s)
      else some (a, s)
    | s => some (a, s)
/-- A sequence. -/
def seqs : Nat → List Sym → Option (Ebnf × List Sym)
  | 0, _ => none
  | n + 1, s => do
    let (a, s) ← item n s
    match s with
    | [] => some (a, s)
    | .op c :: _ =>
      if c = '(' then do
        let (b, s) ← seqs n s
        some (.seq a b, s)
      else some (a, s)
    | s => do
      let (b, s) ← seqs n s
      some (.seq a b, s)
/-- A single item, with its suffix. -/
def item : Nat → List Sym → Option (Ebnf × List Sym)
  | 0, _ => none
  | n + 1, s => do
    let (a, s) ← simple n s
    match s with
    | .op c :: s' => if c = '?' then some (.opt a, s') else if c = '*' then some (.star a, s') else if c = '+' then some (.plus a, s') else some (a, s)
    | s => some (a, s)
/-- Without its suffix. -/
def simple : Nat → List Sym → Option (Ebnf × List Sym)
  | 0, _ => none
  | n + 1, s =>
    match s with
    | .name x :: s => some (.ref x, s)
    | .lit x :: .op '.' :: .op '.' :: .lit y :: s => do
      let a ← literal x
      let b ← literal y
      some (.range a b, s)
    | .lit x :: s => do
      let a ← literal x
      some (.range a a, s)
    | .set [x, '-', y] :: s => some (.range x.toNat y.toNat, s)
    | .op '(' :: s => do
      let (a, s) ← alts n s
      match s with
      | .op ')' :: s => some (a, s)
      | _ => none
    | _ => none
end

/-- The rules. -/
def readRules : Nat → List Sym → Option (List (Name × Ebnf))
  | _, [] => some []
  | 0, _ => none
  | n + 1, .name x :: .op ':' :: s => do
    let (a, s) ← alts 200 s
    match s with
    | .op ';' :: s => do
      let l ← readRules n s
      some ((x, a) :: l)
    | _ => none
  | _, _ => none

/-- The header, then the rules. -/
def readSymbols : List Sym → Option Grammar
  | .name kind :: .name g :: .name x :: .op ';' :: s =>
    if g = c!"grammar" then
      match s with
      | .name o :: .op '{' :: .name v :: .op '=' :: .name y :: .op ';' :: .op '}' :: s' =>
        if o = c!"options" ∧ v = c!"tokenVocab" then (readRules 100 s').map fun l => ⟨kind, x, some y, l⟩ else none
      | s => (readRules 100 s).map fun l => ⟨kind, x, none, l⟩
    else none
  | _ => none

/-- A grammar file. -/
def read (lines : List (List Char)) : Option Grammar := (allSymbols lines).bind readSymbols

end Rfc5322.G4
