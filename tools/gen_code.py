#!/usr/bin/env python3
"""Copy the bodies of the 67 functions of the generated parser (/repo/parser/rfc5322_parser.go, read as text) to
lean/Verif/Model/GeneratedData.lean, in the notation of lean/Verif/Model/Generated.lean.  Every line of a body has to fit one of the patterns
below; anything else stops the script."""
import re, sys, os
here = os.path.dirname(os.path.abspath(__file__))
src = open('/repo/parser/rfc5322_parser.go').read().split('\n')
T = 'RFC5322Parser'
names = [re.match(r'\tRFC5322ParserRULE_(\w+) += (\d+)', l) for l in src]
names = [m.group(1) for m in names if m]
byfunc = {n[0].upper() + n[1:]: n for n in names}

class Body:
    def __init__(self, lines, first):
        self.l = [(x.strip(), first + i) for i, x in enumerate(lines) if x.strip()]; self.i = 0
    def peek(self): return self.l[self.i][0] if self.i < len(self.l) else None
    def next(self): self.i += 1; return self.l[self.i - 1][0]
    def expect(self, pat):
        x = self.next(); m = re.fullmatch(pat, x)
        if not m: raise Exception(f'line {self.l[self.i - 1][1]}: {x!r} is not {pat!r}')
        return m

def test(s):
    """a test of _la"""
    def strip(s):
        while s.startswith('('):
            d = 0
            for i, c in enumerate(s):
                d += (c == '(') - (c == ')')
                if d == 0: break
            if i == len(s) - 1: s = s[1:-1]
            else: break
        return s
    s = strip(s); parts = []; d = 0; last = 0
    for i, c in enumerate(s):
        d += (c == '(') - (c == ')')
        if d == 0 and s.startswith(' || ', i): parts.append(s[last:i]); last = i + 4
    parts.append(s[last:])
    out = []
    for p in parts:
        p = strip(p)
        m = re.fullmatch(r'_la == RFC5322Parser(\w+)', p)
        if m: out.append(f'.eq .{m.group(1)}'); continue
        m = re.fullmatch(r'\(\(_la\)&-\(0x1f\+1\)\) == 0 && \(\(1<<uint\(_la\)\)&\((.*)\)\) != 0', p)
        if m:
            ks = [re.fullmatch(r'\(1<<RFC5322Parser(\w+)\)', x).group(1) for x in m.group(1).split('|')]
            out.append('.bits 0 [' + ', '.join('.' + k for k in ks) + ']'); continue
        m = re.fullmatch(r'\(\(_la-(\d+)\)&-\(0x1f\+1\)\) == 0 && \(\(1<<uint\(\(_la-(\d+)\)\)\)&\((.*)\)\) != 0', p)
        if m and m.group(1) == m.group(2):
            b = m.group(1); ks = [re.fullmatch(r'\(1<<\(RFC5322Parser(\w+)-%s\)\)' % b, x).group(1) for x in m.group(3).split('|')]
            out.append(f'.bits {b} [' + ', '.join('.' + k for k in ks) + ']'); continue
        raise Exception(p)
    r = out[-1]
    for x in reversed(out[:-1]): r = f'.or ({x}) ({r})'
    return f'({r})'

SYNC = r'p\.GetErrorHandler\(\)\.Sync\(p\)'
LA = r'_la = p\.GetTokenStream\(\)\.LA\(1\)'
PRED = r'p\.GetInterpreter\(\)\.AdaptivePredict\(p\.GetTokenStream\(\), (\d+), p\.GetParserRuleContext\(\)\)'

def seq(items):
    if not items: return '.skip'
    r = items[-1]
    for x in reversed(items[:-1]): r = f'(.seq {x} {r})'
    return r

def block(b, end):
    """statements up to a line in `end` (not consumed)"""
    items = []
    while b.peek() not in end and not (b.peek() or '').startswith(('case ', '} else if')):
        if b.peek() is None: raise Exception('end of body')
        if re.fullmatch(r'p\.EnterOuterAlt\(localctx, \d+\)', b.peek()): b.next(); continue
        if b.peek() == '{': items.append(simple(b)); continue
        items.append(decision(b))
    return seq(items)

def simple(b):
    b.expect(r'\{'); st = b.expect(r'p\.SetState\((\d+)\)').group(1)
    x = b.next()
    if m := re.fullmatch(r'p\.Match\(RFC5322Parser(\w+)\)', x):
        b.expect(r'\}'); return f'(.eof {st})' if m.group(1) == 'EOF' else f'(.tok {st} .{m.group(1)})'
    if m := re.fullmatch(r'p\.(\w+)\(\)', x):
        b.expect(r'\}'); return f'(.call {st} .{byfunc[m.group(1)]})'
    if re.fullmatch(LA, x):
        t = test(b.expect(r'if !\((.*)\) \{').group(1))
        b.expect(r'p\.GetErrorHandler\(\)\.RecoverInline\(p\)'); b.expect(r'\} else \{')
        b.expect(r'p\.GetErrorHandler\(\)\.ReportMatch\(p\)'); b.expect(r'p\.Consume\(\)'); b.expect(r'\}'); b.expect(r'\}')
        return f'(.set {st} {t})'
    raise Exception(x)

def sync(b):
    st = b.expect(r'p\.SetState\((\d+)\)').group(1); b.expect(SYNC); return st

def cases(b, kind):
    out = []; n = 0
    while b.peek().startswith('case '):
        if kind == 'alt':
            n += 1; assert b.expect(r'case (\d+):').group(1) == str(n); lab = f'.alt {n}'
        else:
            ks = b.expect(r'case (.*):').group(1).split(', ')
            lab = '.toks [' + ', '.join('.' + re.fullmatch(r'RFC5322Parser(\w+)', k).group(1) for k in ks) + ']'
        out.append((lab, block(b, ('}', 'default:'))))
    r = '.nil'
    for lab, c in reversed(out): r = f'({lab} {c} {r})'
    return r

def decision(b):
    st = sync(b); x = b.next()
    if m := re.fullmatch(r'switch ' + PRED + r' \{', x):
        cs = cases(b, 'alt'); b.expect(r'\}'); return f'(.switchAlt {st} {m.group(1)} {cs})'
    if re.fullmatch(r'switch p\.GetTokenStream\(\)\.LA\(1\) \{', x):
        cs = cases(b, 'toks'); b.expect(r'default:'); b.expect(r'panic\(antlr\.NewNoViableAltException\(p, nil, nil, nil, nil, nil\)\)'); b.expect(r'\}')
        return f'(.switchLa {st} {cs})'
    if m := re.fullmatch(r'if ' + PRED + r' == 1 \{', x):
        d = m.group(1); out = [block(b, ('}',))]
        while True:
            y = b.next()
            if y == '}': break
            m = re.fullmatch(r'\} else if ' + PRED + r' == (\d+) \{', y); assert m and m.group(1) == d and m.group(2) == str(len(out) + 1)
            out.append(block(b, ('}',)))
        r = '.nil'
        for i, c in reversed(list(enumerate(out))): r = f'(.alt {i + 1} {c} {r})'
        return f'(.switchAlt {st} {d} {r})'
    if m := re.fullmatch(r'_alt = ' + PRED, x):
        d = m.group(1); b.expect(r'for _alt != 2 && _alt != antlr\.ATNInvalidAltNumber \{'); b.expect(r'if _alt == 1 \{')
        c = block(b, ('}',)); b.expect(r'\}'); st2 = sync(b); assert b.expect(r'_alt = ' + PRED).group(1) == d; b.expect(r'\}')
        return f'(.star {st} {st2} (.alt {d}) {c})'
    if x == '_alt = 1':
        b.expect(r'for ok := true; ok; ok = _alt != 2 && _alt != antlr\.ATNInvalidAltNumber \{'); b.expect(r'switch _alt \{'); b.expect(r'case 1:')
        c = block(b, ('default:',)); b.expect(r'default:'); b.expect(r'panic\(antlr\.NewNoViableAltException\(p, nil, nil, nil, nil, nil\)\)'); b.expect(r'\}')
        st2 = sync(b); d = b.expect(r'_alt = ' + PRED).group(1); b.expect(r'\}')
        return f'(.plus {st} {st2} (.alt {d}) {c})'
    if re.fullmatch(LA, x):
        y = b.next()
        if m := re.fullmatch(r'for ok := true; ok; ok = (.*) \{', y):
            t = test(m.group(1)); c = LOOP(b)
            return f'(.plus {st} {c[1]} (.la {t}) {c[0]})'
        if m := re.fullmatch(r'for (.*) \{', y):
            t = test(m.group(1)); c = LOOP(b)
            return f'(.star {st} {c[1]} (.la {t}) {c[0]})'
        if m := re.fullmatch(r'if (.*) \{', y):
            t = test(m.group(1)); c = block(b, ('}',)); b.expect(r'\}')
            return f'(.ifLa {st} {t} {c})'
    raise Exception(f'line {b.l[b.i - 1][1]}: {x}')

def LOOP(b):
    """body of a loop, which ends with SetState, Sync and reading _la; returns (code, state)"""
    items = []
    while True:
        if b.peek() == '{': items.append(simple(b)); continue
        save = b.i; st = sync(b)
        if re.fullmatch(LA, b.peek()) and b.l[b.i + 1][0] == '}':
            b.next(); b.expect(r'\}'); return seq(items), st
        b.i = save; items.append(decision(b))

out = []
for n in names:
    f = n[0].upper() + n[1:]
    a = next(i for i, l in enumerate(src) if l.startswith(f'func (p *RFC5322Parser) {f}() (localctx I{f}Context) {{'))
    e = next(i for i in range(a, len(src)) if src[i] == '}')
    b = Body(src[a + 1:e], a + 2)
    for p in [r'this := p', r'_ = this', rf'localctx = New{f}Context\(p, p\.GetParserRuleContext\(\), p\.GetState\(\)\)',
              rf'p\.EnterRule\(localctx, \d+, RFC5322ParserRULE_{n}\)']: b.expect(p)
    if b.peek() == 'var _la int': b.next()
    for p in [r'defer func\(\) \{', r'p\.ExitRule\(\)', r'\}\(\)', r'defer func\(\) \{', r'if err := recover\(\); err != nil \{',
              r'if v, ok := err\.\(antlr\.RecognitionException\); ok \{', r'localctx\.SetException\(v\)', r'p\.GetErrorHandler\(\)\.ReportError\(p, v\)',
              r'p\.GetErrorHandler\(\)\.Recover\(p, v\)', r'\} else \{', r'panic\(err\)', r'\}', r'\}', r'\}\(\)']: b.expect(p)
    if b.peek() == 'var _alt int': b.next()
    c = block(b, ('return localctx',)); b.expect('return localctx'); assert b.peek() is None
    out.append((n, f, a + 1, e + 1, c))

def wrap(s, w=148):
    lines = []; cur = '  '
    for word in s.split(' '):
        if len(cur) + len(word) + 1 > w: lines.append(cur.rstrip()); cur = '    '
        cur += word + ' '
    lines.append(cur.rstrip()); return '\n'.join(lines)

if __name__ == '__main__':
    path = os.path.join(here, '..', 'lean', 'Verif', 'Model', 'GeneratedData.lean')
    with open(path, 'w') as o:
        o.write('import Verif.Model.Generated\n\n/-!\n# The functions of the generated parser\n\nWritten by tools/gen_code.py from the Go text, function by function.\n-/\n\nnamespace Rfc5322.Gen\n')
        for n, f, a, e, c in out:
            o.write(f'\n/-- `(*RFC5322Parser).{f}` (/repo/parser/rfc5322_parser.go:{a}-{e}). -/\ndef code_{n} : Code :=\n{wrap(c)}\n')
        o.write('\n/-- The body of the function of a rule. -/\ndef code : Rule → Code\n')
        for n, *_ in out: o.write(f'  | .{n} => code_{n}\n')
        o.write('\nend Rfc5322.Gen\n')
