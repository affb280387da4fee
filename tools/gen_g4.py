#!/usr/bin/env python3
"""Copy RFC5322Lexer.g4 and RFC5322Parser.g4, line by line, to lean/Verif/Model/G4Data.lean."""
import os, sys
repo = sys.argv[1] if len(sys.argv) > 1 else '/repo'
out = sys.argv[2] if len(sys.argv) > 2 else os.path.join(os.path.dirname(os.path.abspath(__file__)), '..', 'lean', 'Verif', 'Model', 'G4Data.lean')
def esc(l): return l.replace('\\', '\\\\').replace('"', '\\"').replace('\t', '\\t')
with open(out, 'w') as f:
    f.write('import Verif.Model.GoStd\n\n/-!\n# The grammar files\n\nCopied by tools/gen_g4.py, line by line.\n-/\n\nnamespace Rfc5322.G4\n')
    for k in ['Lexer', 'Parser']:
        s = open(f'{repo}/RFC5322{k}.g4').read()
        assert s.isascii() and '\r' not in s
        ls = s.split('\n'); n = 60; names = []
        if ls[-1] == '': ls.pop()
        for c in range(0, len(ls), n):
            names.append(f'{k.lower()}Lines{c // n}')
            f.write(f'\n/-- /repo/RFC5322{k}.g4:{c + 1}-{min(c + n, len(ls))}. -/\ndef {names[-1]} : List (List Char) := [\n')
            f.write(',\n'.join('  c!"' + esc(l) + '"' for l in ls[c:c + n]) + ']\n')
        f.write(f'\n/-- /repo/RFC5322{k}.g4, the lines. -/\ndef {k.lower()}File : List (List Char) :=\n  ' + ' ++ '.join(names) + '\n')
    f.write('\nend Rfc5322.G4\n')
