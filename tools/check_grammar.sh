#!/bin/sh
# Compare the grammar and lexer of the Lean model with the serialized ATNs embedded in the generated Go code
# (read as text, nothing of /repo is built).  Usage: tools/check_grammar.sh   (after `lake build` in lean/)
set -e
here=$(cd "$(dirname "$0")" && pwd); tmp=$(mktemp -d); trap 'rm -rf "$tmp"' EXIT
cat > "$tmp/P.lean" <<'L'
import Verif.Model.Grammar
open Rfc5322
def short (r : String) : String := (r.splitOn ".").getLast!
mutual
partial def alts : G → List String
  | .alt a b => alts a ++ alts b
  | g => [pr g]
partial def seqs : G → List String
  | .seq a (.seq (.star b) c) => if a = b then s!"(+ {pr a})" :: seqs c else seqs a ++ seqs (.seq (.star b) c)
  | .seq a b => (if b = .star a then [s!"(+ {pr a})"] else seqs a ++ seqs b)
  | g => [pr g]
partial def pr : G → String
  | .eps => "eps" | .eof => "EOF" | .comment => "comment"
  | .t k => short s!"{repr k}"
  | .rule r _ => short s!"{repr r}"
  | .star a => s!"(* {pr a})"
  | .alt a b => "(| " ++ " ".intercalate (alts (.alt a b)) ++ ")"
  | .seq a b => match seqs (.seq a b) with
    | [x] => x
    | xs => "(. " ++ " ".intercalate xs ++ ")"
end
/-- every rule reachable from the start rules, with its body -/
partial def collect (acc : List (String × String)) : G → List (String × String)
  | .rule r b =>
    let n := short s!"{repr r}"
    if acc.any (·.1 = n) then (if acc.any (· = (n, pr b)) then acc else (n, "CONFLICT") :: acc)
    else collect ((n, pr b) :: acc) b
  | .seq a b => collect (collect acc a) b
  | .alt a b => collect (collect acc a) b
  | .star a => collect acc a
  | .comment => if acc.any (·.1 = "comment") then acc else collect (("comment", pr Gr.commentBody) :: acc) Gr.commentBody
  | _ => acc
def main (args : List String) : IO Unit := do
  if args = ["lexer"] then
    for t in Tok.all do
      IO.println s!"{short s!"{repr t}"} = {t.ranges}"
  else
    for (n, b) in collect (collect [] Gr.addressList) Gr.dateTime do IO.println s!"{n} = {b}"
L
cd "$here/../lean"
lake env lean --run "$tmp/P.lean" parser | sort > "$tmp/model.parser"
python3 "$here/atn2grammar.py" /repo/parser/rfc5322_parser.go | python3 -c '
import sys,re
def parse(t):
    if t[0]=="(":
        t.pop(0); op=t.pop(0); xs=[]
        while t[0]!=")": xs.append(parse(t))
        t.pop(0); return (op,xs)
    return t.pop(0)
def flat(e):
    if isinstance(e,str): return e
    op,xs=e; xs=[flat(x) for x in xs]
    if op in "|.":
        ys=[]
        for x in xs: ys += x[1] if not isinstance(x,str) and x[0]==op else [x]
        xs=ys
    return (op,xs)
def show(e): return e if isinstance(e,str) else "("+e[0]+" "+" ".join(map(show,e[1]))+")"
for l in sys.stdin:
    n,b=l.rstrip("\n").split(" = ",1)
    print(n,"=",show(flat(parse(re.findall(r"[()]|[^\s()]+",b)))))' | sort > "$tmp/atn.parser"
diff "$tmp/model.parser" "$tmp/atn.parser" && echo "parser grammar: $(wc -l < "$tmp/atn.parser") rules agree"
lake env lean --run "$tmp/P.lean" lexer > "$tmp/model.lexer"
python3 "$here/atn2grammar.py" /repo/parser/rfc5322_lexer.go | python3 -c '
import sys
for l in sys.stdin:
    n,b=l.rstrip("\n").split(" = ",1)
    iv=b.strip("{}").split(",")
    rs=[tuple(map(int,x.split(".."))) if ".." in x else (int(x),int(x)) for x in iv]
    print(n,"=","["+", ".join("(%d, %d)"%r for r in rs)+"]")' > "$tmp/atn.lexer"
diff "$tmp/model.lexer" "$tmp/atn.lexer" && echo "lexer: $(wc -l < "$tmp/atn.lexer") rules agree"
