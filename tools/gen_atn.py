#!/usr/bin/env python3
"""Copy the serialized ATNs from the generated Go code (read as text) to lean/Verif/Model/AtnData.lean, line by line, and print certificates
(the structure of the network, rule by rule) to lean/Verif/Proofs/AtnCert.lean.  Certificates are checked in Lean."""
import re, sys, os
sys.dont_write_bytecode = True
here = os.path.dirname(os.path.abspath(__file__)); sys.path.insert(0, here)
import atn2grammar as g
lean = os.path.join(here, '..', 'lean', 'Verif')
def rows(path):
    out = []; on = False; first = last = None
    for i, l in enumerate(open(path), 1):
        if 'serializedATN = []int32{' in l: on = True; first = i + 1; continue
        if on:
            if l.strip() == '}': last = i - 1; break
            out.append([int(x) for x in l.split(',') if x.strip()])
    return out, first, last
with open(os.path.join(lean, 'Model', 'AtnData.lean'), 'w') as f:
    f.write('/-!\n# The serialized ATNs\n\nCopied by tools/gen_atn.py, line by line.\n-/\n\nnamespace Rfc5322.Atn\n')
    for k in ['parser', 'lexer']:
        rs, a, b = rows(f'/repo/parser/rfc5322_{k}.go')
        n = 50; names = []
        for c in range(0, len(rs), n):
            names.append(f'{k}Rows{c // n}')
            f.write(f'\n/-- /repo/parser/rfc5322_{k}.go:{a + c}-{min(a + c + n - 1, b)}. -/\ndef {names[-1]} : List (List Int) := [\n')
            f.write(',\n'.join('  [' + ', '.join(map(str, r)) + ']' for r in rs[c:c + n]) + ']\n')
        f.write(f'\n/-- `staticData.serializedATN` of the {k}, /repo/parser/rfc5322_{k}.go:{a}-{b}. -/\n')
        f.write(f'def {k}Data : List Int :=\n  List.flatten (' + ' ++ '.join(names) + ')\n')
    f.write('\nend Rfc5322.Atn\n')

def cert(a, tok, rules, ri):
    S = a.states
    def out(s): return a.edges.get(s, [])
    def settle(s):
        while len(out(s)) == 1 and out(s)[0][1] == g.EPS: s = out(s)[0][0]
        return s
    def alts(s, j):
        """alternatives of block start s, up to j"""
        xs = [seq(e[0], j) for e in out(s)]
        r = xs[-1]
        for x in reversed(xs[:-1]): r = f'(.alt {j} {x} {r})'
        return r
    def seq(s, stop):
        items = []
        while s != stop:
            st = S[s]; ty = st['type']; es = out(s)
            if not es: break
            if ty in (3, 4, 5):
                end = st['end']; items.append(alts(s, end)); s = end
                if ty == 4:
                    lb = out(end)[0][0]; items[-1] = f'(.seq {items[-1]} (.star {lb} {items[-1]}))'; s = out(lb)[1][0]
                continue
            if ty == 10:
                b = es[0][0]; items.append(f'(.star {s} {alts(b, S[b]["end"])})'); s = es[1][0]; continue
            assert len(es) == 1
            t, k, x, y, z = es[0]
            if k == g.EPS: pass
            elif k == g.RULE: items.append(f'(.call .{rules[y]})')
            elif k == g.ATOM: items.append('.eof' if z else f'(.toks [.{tok[x]}])')
            elif k == g.SET: items.append('(.toks [' + ', '.join('.' + tok[i] for lo, hi in a.sets[x][1] for i in range(lo, hi + 1)) + '])')
            else: raise Exception(es)
            s = t
        if not items: return '.eps'
        r = items[-1]
        for x in reversed(items[:-1]): r = f'(.seq {x} {r})'
        return r
    return seq(a.rules[ri][0], None)
nums, tok, rules = g.load('/repo/parser/rfc5322_parser.go'); a = g.decode(nums)
with open(os.path.join(lean, 'Proofs', 'AtnCert.lean'), 'w') as f:
    f.write('import Verif.Proofs.AtnCheck\n\n/-!\n# The structure of the parser network, rule by rule\n\nMade by tools/gen_atn.py; checked in `Verif/Proofs/Atn.lean`.\n-/\n\nnamespace Rfc5322.Atn\n\n')
    for i, r in enumerate(rules):
        f.write(f'def cert_{r} : Cert := {cert(a, tok, rules, i)}\n')
    f.write('\n/-- The structure of a rule. -/\ndef cert : Rule → Cert\n')
    for r in rules: f.write(f'  | .{r} => cert_{r}\n')
    f.write('\nend Rfc5322.Atn\n')
