#!/usr/bin/env python3
"""Read the serialized ATN (format 4) embedded in the generated Go parser/lexer *as text* and
print, for every rule, the EBNF expression it encodes (alternatives in prediction order).
Nothing of /repo is built or run.  Used to cross-check lean/Verif/Model/Grammar.lean and Lexer.lean (see check_grammar.sh).
usage: atn2grammar.py /repo/parser/rfc5322_parser.go"""
import re, sys
def load(path):
    src = open(path).read()
    m = re.search(r'serializedATN = \[\]int32\{(.*?)\}', src, re.S)
    nums = [int(x) for x in m.group(1).replace('\n', ' ').split(',') if x.strip()]
    names = lambda k: re.findall(r'"((?:[^"\\]|\\.)*)"', re.search(r'staticData\.%s = \[\]string\{(.*?)\n\t\}' % k, src, re.S).group(1))
    return nums, names('symbolicNames'), names('ruleNames')
class ATN: pass
def decode(nums):
    a = ATN(); it = iter(nums); nx = lambda: next(it)
    assert nx() == 4
    a.gtype = nx(); a.maxtok = nx()
    a.states = []
    for _ in range(nx()):
        ty = nx()
        if ty == 0: a.states.append(dict(type=0)); continue
        rule = nx(); st = dict(type=ty, rule=rule)
        if ty == 12: st['loopback'] = nx()
        elif ty in (3, 4, 5): st['end'] = nx()
        a.states.append(st)
    for _ in range(nx()): nx()   # non-greedy
    for _ in range(nx()): nx()   # precedence
    a.rules = []
    for _ in range(nx()):
        s = nx()
        if a.gtype == 0: tt = nx(); a.rules.append((s, tt))
        else: a.rules.append((s, None))
    a.modes = [nx() for _ in range(nx())]
    a.sets = []
    for _ in range(nx()):
        n = nx(); eof = nx(); a.sets.append((eof, [(nx(), nx()) for _ in range(n)]))
    a.edges = {}
    for _ in range(nx()):
        s, t, ty, x, y, z = [nx() for _ in range(6)]
        a.edges.setdefault(s, []).append((t, ty, x, y, z))
    a.decisions = [nx() for _ in range(nx())]
    if a.gtype == 0:
        for _ in range(nx()): nx(), nx(), nx()
    assert list(it) == []
    return a
EPS, RANGE, RULE, PRED, ATOM, ACTION, SET, NOTSET, WILD, PREC = range(1, 11)
def rule_expr(a, tok, rules, ri):
    S = a.states
    start = a.rules[ri][0]
    def term(e):
        t, ty, x, y, z = e
        if ty == ATOM: return 'EOF' if z else (tok[x] if tok else str(x))
        if ty == RANGE: return f'{x}..{y}'
        if ty == SET:
            eof, iv = a.sets[x]
            if tok: return '(| ' + ' '.join(tok[k] for lo, hi in iv for k in range(lo, hi + 1)) + ')'
            return '{' + ','.join(f'{lo}..{hi}' for lo, hi in iv) + '}'
        raise Exception(e)
    def seq(s, stop):
        """sequence of items from state s until state `stop` (exclusive)"""
        out = []
        while s != stop:
            st = S[s]; ty = st['type']
            if ty == 7: break
            if ty == 3:      # plain block ( .. | .. )
                alts = [seq(e[0], st['end']) for e in a.edges[s]]
                out.append(alt(alts)); s = a.edges[st['end']][0][0] if st['end'] in a.edges else stop
                continue
            if ty == 4:      # plus block: block, then loop back decision
                end = st['end']; alts = [seq(e[0], end) for e in a.edges[s]]
                lb = [e[0] for e in a.edges[end]]; assert len(lb) == 1 and S[lb[0]]['type'] == 11
                lbe = a.edges[lb[0]]; assert lbe[0][0] == s and S[lbe[1][0]]['type'] == 12, (lbe, s)
                out.append('(+ ' + alt(alts) + ')'); s = a.edges[lbe[1][0]][0][0]; continue
            if ty == 10:     # star loop entry: enter block / exit
                e = a.edges[s]; blk = e[0][0]; assert S[blk]['type'] == 5 and S[e[1][0]]['type'] == 12
                end = S[blk]['end']; alts = [seq(x[0], end) for x in a.edges[blk]]
                out.append('(* ' + alt(alts) + ')'); s = a.edges[e[1][0]][0][0]; continue
            es = a.edges.get(s, []); assert len(es) == 1, (s, st, es)
            e = es[0]
            if e[1] == EPS: s = e[0]
            elif e[1] == RULE: out.append(rulename(e)); s = follow(e)
            else: out.append(term(e)); s = e[0]
        return out
    # a RULE edge is serialised as (src, trg = rule start state, RULE, arg1 = ?, ..): the runtime reads
    # EdgeFactory(type, src, trg, arg1, arg2, arg3): RuleTransition(states[arg1], ruleIndex = arg2, prec = arg3, follow = trg)
    def rulename(e): return rules[e[3]]
    def follow(e): return e[0]
    def alt(alts):
        r = [('eps' if not x else x[0] if len(x) == 1 else '(. ' + ' '.join(x) + ')') for x in alts]
        return r[0] if len(r) == 1 else '(| ' + ' '.join(r) + ')'
    x = seq(start, None)
    return x[0] if len(x) == 1 else '(. ' + ' '.join(x) + ')'
def main():
    path = sys.argv[1]
    nums, tok, rules = load(path); a = decode(nums)
    for i, r in enumerate(rules):
        print(f'{r} = {rule_expr(a, tok if a.gtype == 1 else None, rules, i)}')
if __name__ == '__main__': main()
