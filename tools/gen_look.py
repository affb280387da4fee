#!/usr/bin/env python3
"""Compute the lookahead tables used by lean/Verif/Proofs/GenCheck.lean.  They are checked in Lean."""
import sys, os
sys.dont_write_bytecode = True
here = os.path.dirname(os.path.abspath(__file__)); sys.path.insert(0, here)
import atn2grammar as g
nums, tok, rules = g.load('/repo/parser/rfc5322_parser.go'); a = g.decode(nums)
n = len(a.states); L = [0] * n; F = [0] * len(rules); NULL = 1 << 71; M = NULL - 1
for i, s in enumerate(a.states):
    if s['type'] == 7: L[i] = NULL
F[15] = F[34] = 1
ch = True
while ch:
    ch = False
    def up(T, i, v):
        global ch
        if T[i] | v != T[i]: T[i] |= v; ch = True
    for p, es in a.edges.items():
        for t, ty, x, y, z in es:
            if ty == g.EPS: up(L, p, L[t])
            elif ty == g.ATOM: up(L, p, 1 if z else 1 << x)
            elif ty == g.SET: up(L, p, sum(1 << k for lo, hi in a.sets[x][1] for k in range(lo, hi + 1)))
            elif ty == g.RULE:
                up(L, p, L[x] & M)
                if L[x] & NULL: up(L, p, L[t])
                up(F, y, L[t] & M)
                if L[t] & NULL: up(F, y, F[a.states[p]['rule']])
            else: raise Exception(ty)
def rows(xs, w=8): return ',\n'.join('  ' + ', '.join(map(str, xs[i:i + w])) for i in range(0, len(xs), w))
with open(os.path.join(here, '..', 'lean', 'Verif', 'Proofs', 'GenLook.lean'), 'w') as o:
    o.write('/-!\n# Lookahead tables\n\nWritten by tools/gen_look.py; they are checked in `Verif/Proofs/GenNets.lean`.\n-/\n\nnamespace Rfc5322.Gen\n')
    names = []
    for c in range(0, n, 128):
        names.append(f'look{c // 128}')
        o.write(f'\n/-- Token types that can come next, as bits, in states {c} to {min(c + 127, n - 1)}. -/\ndef {names[-1]} : List Nat := [\n{rows(L[c:c + 128])}]\n')
    o.write('\n/-- Token types that can come next, as bits, by state. -/\ndef lookTable : List (List Nat) := [' + ', '.join(names) + ']\n')
    o.write('\n/-- Token types that can come after a rule. -/\ndef followTable : List Nat := [\n' + rows(F) + ']\n')
    o.write('\nend Rfc5322.Gen\n')
print([rules[a.states[a.rules[i][0]]['rule']] for i in range(len(rules)) if L[a.rules[i][0]] & NULL])
