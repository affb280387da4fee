#!/usr/bin/env python3
"""Copies the hand-written package (the *.go files in the root of /repo, tests excepted) into Lean terms:
/verif/lean/Verif/Model/GoIdent.lean (identifiers) and /verif/lean/Verif/Model/GoCode.lean (types and functions), and from the
generated parser the names of the listener methods (parser/rfc5322_parser.go: XContext.EnterRule/ExitRule, AllDigit;
parser/rfc5322parser_base_listener.go: the empty methods).
A small recursive-descent parser for the part of Go that is used; anything else is an error.
Desugaring: `a += b` is `a = a + b`; a type assertion to a function-local interface type with one method is the expression
`hasMethod e name parameterType`.  Usage: gen_go.py [/repo] [/verif/lean/Verif/Model]"""
import re, sys, os, glob
REPO = sys.argv[1] if len(sys.argv) > 1 else '/repo'
OUT = sys.argv[2] if len(sys.argv) > 2 else '/verif/lean/Verif/Model'
TOK = re.compile(r'(?P<ws>[ \t\r]+)|(?P<nl>\n)|(?P<com>//[^\n]*)|(?P<str>"(?:[^"\\\n]|\\.)*")|(?P<int>\d+)|(?P<id>[A-Za-z_]\w*)|'
                 r'(?P<op>:=|\+=|!=|==|>=|<=|&&|\|\||\.\.\.|[-+*/%&!<>=(){}\[\],;:.])')
class T:
    def __init__(s, k, v, line): s.k, s.v, s.line = k, v, line
def tokenize(src, fn):
    out, i, line = [], 0, 1
    def semi():
        if out and (out[-1].k in ('id', 'int', 'str') and out[-1].v not in ('func', 'if', 'switch', 'case', 'default', 'for', 'range', 'type', 'struct', 'interface', 'var', 'package', 'import') or out[-1].v in (')', ']', '}')):
            out.append(T('op', ';', line))
    while i < len(src):
        m = TOK.match(src, i)
        if not m: raise SystemExit(f'{fn}:{line}: cannot read {src[i:i+20]!r}')
        k = m.lastgroup; v = m.group(); i = m.end()
        if k == 'nl': semi(); line += 1
        elif k in ('ws', 'com'): pass
        else: out.append(T(k, v, line))
    semi(); out.append(T('eof', '', line))
    return out
idents = {}
def ident(x):
    idents.setdefault(x, None)
    return '.' + (x if re.fullmatch(r'[A-Za-z]\w*', x) else '«' + x + '»')
def lean_str(s):
    assert re.fullmatch(r'"[ -~]*"', s) and '\\' not in s, s
    return 'b!' + s
BASIC = {'int': '.int', 'string': '.string', 'bool': '.bool', 'error': '.error', 'time.Month': '.month'}
PKGS = {'fmt', 'strings', 'strconv', 'time', 'mime', 'mail', 'antlr', 'parser', 'errors', 'io'}
class P:
    def __init__(s, fn):
        s.fn = fn; s.toks = tokenize(open(os.path.join(REPO, fn)).read(), fn); s.i = 0; s.local = {}
    @property
    def t(s): return s.toks[s.i]
    def fail(s, msg): raise SystemExit(f'{s.fn}:{s.t.line}: {msg} at {s.t.v!r}')
    def eat(s, v):
        if s.t.v != v or s.t.k == 'str': s.fail(f'expected {v!r}')
        s.i += 1
    def opt(s, v):
        if s.t.k != 'str' and s.t.v == v: s.i += 1; return True
        return False
    def name(s):
        if s.t.k != 'id': s.fail('expected a name')
        s.i += 1; return s.toks[s.i-1].v
    def qual(s):
        n = s.name()
        if n in PKGS and s.opt('.'): n += '.' + s.name()
        return n
    def ty(s):
        if s.opt('*'):
            n = s.qual()
            return '.loc' if n == 'time.Location' else '(.ptr ' + ident(n) + ')'
        if s.opt('['):
            s.eat(']'); return '(.slice ' + s.ty() + ')'
        if s.opt('interface'):
            s.eat('{'); s.eat('}'); return '.iface'
        n = s.qual()
        if n in BASIC: return BASIC[n]
        return '(.named ' + ident(n) + ')'
    # expressions
    def expr(s, lvl=0):
        OPS = [{'&&': 'and'}, {'==': 'eq', '!=': 'ne', '>': 'gt'}, {'+': 'add', '-': 'sub'}, {'*': 'mul', '%': 'mod'}]
        if lvl == len(OPS): return s.unary()
        e = s.expr(lvl + 1)
        while s.t.k == 'op' and s.t.v in OPS[lvl]:
            op = OPS[lvl][s.t.v]; s.i += 1
            e = f'(.bin .{op} {e} {s.expr(lvl + 1)})'
        return e
    def unary(s):
        if s.opt('!'): return f'(.not {s.unary()})'
        if s.opt('-'):
            return f'(.neg {s.unary()})'
        if s.opt('&'):
            n = s.qual(); return s.composite(n, True)
        return s.primary()
    def composite(s, n, ptr):
        s.eat('{'); fs = []; es = []
        while not s.opt('}'):
            fs.append(ident(s.name())); s.eat(':'); es.append(s.expr())
            if not s.opt(','): s.eat('}'); break
        if ptr: return f'(.new {ident(n)} [{", ".join(fs)}] [{", ".join(es)}])'
        if n == 'time.Time' and not fs: return '.zeroTime'
        s.fail('composite literal')
    def args(s):
        es = []; spread = False
        while not s.opt(')'):
            es.append(s.expr())
            if s.opt('...'): spread = True
            if not s.opt(','): s.eat(')'); break
        return es, spread
    def primary(s):
        t = s.t
        if t.k == 'str': s.i += 1; e = f'(.str {lean_str(t.v)})'
        elif t.k == 'int': s.i += 1; e = f'(.int {t.v})'
        elif s.opt('('): e = s.expr(); s.eat(')')
        elif s.opt('['):
            s.eat(']'); ty = s.ty(); s.eat('{'); s.eat('}'); e = f'(.emptySlice {ty})'
        else:
            n = s.qual()
            if n in ('nil', 'true', 'false'): e = '.nil' if n == 'nil' else f'(.bool {n})'
            elif '.' in n and s.t.v == '{' : e = s.composite(n, False)
            elif s.t.v == '(' and ('.' in n or n in ('len', 'int', 'append')):
                s.i += 1; es, spread = s.args()
                if n == 'append':
                    assert len(es) == 2; e = f'(.{"appendAll" if spread else "append"} {es[0]} {es[1]})'
                else:
                    assert not spread; e = f'(.call {ident(n)} [{", ".join(es)}])'
            elif '.' in n: e = f'(.global {ident(n)})'
            elif n in GLOBALS: e = f'(.global {ident(n)})'
            else: e = f'(.var {ident(n)})'
        while True:
            if s.opt('.'):
                if s.opt('('):
                    if s.opt('*'): e = f'(.assert {e} (.ptr {ident(s.qual())}))'
                    elif s.t.v == '[': e = f'(.assert {e} {s.ty()})'
                    else:
                        n = s.qual()
                        if n in s.local: m, pt = s.local[n]; e = f'(.hasMethod {e} {ident(m)} {pt})'
                        else: e = f'(.assert {e} (.named {ident(n)}))'
                    s.eat(')')
                else:
                    f = s.name()
                    if s.opt('('):
                        es, spread = s.args(); assert not spread
                        e = f'(.method {e} {ident(f)} [{", ".join(es)}])'
                    else: e = f'(.field {e} {ident(f)})'
            elif s.t.v == '[' and s.t.k == 'op':
                s.i += 1
                lo = None if s.t.v == ':' else s.expr()
                if s.opt(':'):
                    hi = s.expr(); s.eat(']')
                    e = f'(.sliceTo {e} {hi})' if lo is None else f'(.slice {e} {lo} {hi})'
                else: s.eat(']'); e = f'(.index {e} {lo})'
            else: return e
    # statements
    def block(s, ind):
        s.eat('{'); out = []
        while not s.opt('}'):
            x = s.stmt(ind)
            if x: out.append(x)
            if not s.opt(';') and s.t.v != '}': s.fail('expected ;')
        return out
    def fmt(s, b, ind):
        return '[' + (',\n' + ' ' * ind).join(b) + ']'
    def simple(s):
        e = s.expr()
        if s.t.v == ',' :
            s.i += 1; e2 = s.expr(); s.eat(':='); r = s.expr()
            m = [re.fullmatch(r'\(\.var (\S+)\)', x).group(1) for x in (e, e2)]
            return f'.define2 {m[0]} {m[1]} {r}'
        if s.opt(':='):
            m = re.fullmatch(r'\(\.var (\S+)\)', e).group(1); return f'.define {m} {s.expr()}'
        if s.opt('='): return s.asg(e, s.expr())
        if s.opt('+='): return s.asg(e, f'(.bin .add {e} {s.expr()})')
        return f'.expr {e}'
    def asg(s, l, r):
        m = re.fullmatch(r'\(\.var (\S+)\)', l)
        if m: return f'.assign {m.group(1)} {r}'
        m = re.fullmatch(r'\(\.field (\(\.var \S+\)) (\S+)\)', l)
        if m: return f'.setField {m.group(1)} {m.group(2)} {r}'
        s.fail('assignment')
    def stmt(s, ind):
        if s.opt('type'):
            n = s.name(); s.eat('interface'); s.eat('{'); m = s.name(); s.eat('('); t = s.ty(); s.eat(')'); s.opt(';'); s.eat('}')
            s.local[n] = (m, t); return None
        if s.opt('var'):
            n = s.name(); return f'.varDecl {ident(n)} {s.ty()}'
        if s.opt('return'):
            es = []
            if s.t.v not in (';', '}'):
                es.append(s.expr())
                while s.opt(','): es.append(s.expr())
            return f'.ret [{", ".join(es)}]'
        if s.opt('if'): return s.ifs(ind)
        if s.opt('for'):
            assert s.name() == '_'; s.eat(','); x = s.name(); s.eat(':='); s.eat('range'); e = s.expr(); b = s.block(ind + 2)
            return f'.forRange {ident(x)} {e}\n{" "*(ind+2)}{s.fmt(b, ind+3)}'
        if s.opt('switch'):
            e = s.expr(); s.eat('{'); labels = []; bodies = []; dflt = '[]'
            while not s.opt('}'):
                if s.opt('default'): lab = None
                else: s.eat('case'); lab = s.expr()
                s.eat(':'); b = []
                while s.t.v not in ('case', 'default', '}'):
                    b.append(s.stmt(ind + 2)); s.opt(';')
                if lab is None: dflt = s.fmt(b, ind + 3)
                else: labels.append(lab); bodies.append(".block " + s.fmt(b, ind + 3))
            nl = ',\n' + ' ' * (ind + 4)
            return f'.switch {e}\n{" "*(ind+2)}[{", ".join(labels)}]\n{" "*(ind+2)}[{nl.join(bodies)}]\n{" "*(ind+2)}{dflt}'
        return s.simple()
    def ifs(s, ind):
        save = s.i
        init = s.simple()
        if s.opt(';'):
            c = s.expr()
            th = s.block(ind + 2); el = s.els(ind)
            return f'.ifInit ({init}) {c}\n{" "*(ind+2)}{s.fmt(th, ind+3)}\n{" "*(ind+2)}{el}'
        s.i = save
        c = s.expr(); th = s.block(ind + 2); el = s.els(ind)
        return f'.ite {c}\n{" "*(ind+2)}{s.fmt(th, ind+3)}\n{" "*(ind+2)}{el}'
    def els(s, ind):
        if s.opt('else'):
            if s.opt('if'): return '[' + s.ifs(ind + 2) + ']'
            return s.fmt(s.block(ind + 2), ind + 3)
        return '[]'
    # declarations
    def file(s):
        s.eat('package'); s.eat('rfc5322'); s.eat(';')
        while s.t.k != 'eof':
            if s.opt('import'):
                if s.opt('('):
                    while not s.opt(')'): s.i += 1
                else: s.i += 1
                s.opt(';')
            elif s.opt('var'):
                n = s.name(); GLOBALS.add(n)
                while s.t.v != ';': s.i += 1
                s.eat(';')
            elif s.opt('type'):
                line = s.t.line; n = s.name(); s.eat('struct'); s.eat('{'); fs = []
                while not s.opt('}'):
                    if s.opt(';'): continue
                    names = [s.name()]
                    if s.t.v == '.':  # embedded
                        s.eat('.'); emb = names[0] + '.' + s.name(); EMB.append((n, emb)); s.opt(';'); continue
                    while s.opt(','): names.append(s.name())
                    ty = s.ty()
                    for x in names: fs.append((ident(x), ty))
                    s.opt(';')
                end = s.toks[s.i-1].line; s.opt(';')
                TYPES.append((n, fs, f'/repo/{s.fn}:{line}-{end}'))
            elif s.opt('func'):
                line = s.t.line; recv = None; ps = []; s.local = {}
                if s.opt('('):
                    rn = s.name(); s.eat('*'); recv = s.name(); s.eat(')'); ps.append((ident(rn), f'(.ptr {ident(recv)})'))
                n = s.name(); s.eat('(')
                while not s.opt(')'):
                    names = [s.name()]
                    while s.opt(','): names.append(s.name())
                    ty = s.ty()
                    for x in names: ps.append((ident(x if x != '_' else 'blank'), ty))
                    s.opt(',')
                res = []
                if s.t.v != '{':   # result types
                    if s.opt('('):
                        while not s.opt(')'):
                            if s.toks[s.i].k == 'id' and s.toks[s.i+1].k == 'id': s.name()
                            res.append(s.ty()); s.opt(',')
                    else: res.append(s.ty())
                b = s.block(4); end = s.toks[s.i-1].line; s.opt(';')
                FUNCS.append((recv, n, ps, res, b, f'/repo/{s.fn}:{line}-{end}'))
            else: s.fail('declaration')
GLOBALS, TYPES, FUNCS, EMB = {'CharsetReader'}, [], [], []
files = sorted(os.path.basename(f) for f in glob.glob(os.path.join(REPO, '*.go')) if not f.endswith('_test.go') and not f.endswith('gen.go'))
for fn in files: P(fn).file()
# the generated parser: names only
gp = open(os.path.join(REPO, 'parser/rfc5322_parser.go')).read()
bl = open(os.path.join(REPO, 'parser/rfc5322parser_base_listener.go')).read()
ctxs = re.findall(r'^type (\w+)Context struct', gp, re.M)
listener = []
for c in ctxs:
    r = []
    for d in ('Enter', 'Exit'):
        m = re.search(r'^func \(s \*' + c + r'Context\) ' + d + r'Rule\(listener antlr\.ParseTreeListener\) \{\n\tif listenerT, ok := listener\.\(RFC5322ParserListener\); ok \{\n\t\tlistenerT\.(\w+)\(s\)\n\t\}\n\}\n', gp, re.M)
        assert m, c
        r.append(m.group(1))
        assert re.search(r'^func \(s \*BaseRFC5322ParserListener\) ' + m.group(1) + r'\(ctx \*' + c + r'Context\) \{\}$', bl, re.M), c
    m = re.search(r'is_' + c[0].lower() + c[1:] + r'Context|RULE_' , gp)
    rule = re.search(r'^func New' + c + r'Context\(.*?\n\}\n', gp, re.M | re.S).group()
    rule = re.search(r'p\.RuleIndex = RFC5322ParserRULE_(\w+)', rule).group(1)
    listener.append((rule, r[0], r[1]))
digit = re.findall(r'^func \(s \*(\w+)Context\) AllDigit\(\) \[\]antlr\.TerminalNode \{\n\treturn s\.GetTokens\(RFC5322ParserDigit\)\n\}\n', gp, re.M)
rules = {c[0]: c for c in listener}
types = {n for n, _, _ in TYPES}
meths = {}
for f in FUNCS: meths.setdefault(f[0], []).append(f)
def decl(f):
    recv, n, ps, res, b, where = f
    nm = (recv + '_' if recv else '') + n
    rs = ', '.join(res)
    params = ', '.join(f'({a}, {t})' for a, t in ps)
    body = '[' + (',\n    ').join(b) + ']'
    return f'/-- {where} -/\ndef {nm} : Fn :=\n  ⟨{ident(n)}, [{params}], [{rs}],\n   {body}⟩\n', nm
code = ['import Verif.Model.GoLang', '', '/-!', '# The hand-written package, function by function (generated by `tools/gen_go.py` from /repo/*.go)', '-/', '',
        'set_option maxRecDepth 4096', '', 'namespace Rfc5322.Go.Code', '', 'open Go', '']
names = {}
for f in FUNCS:
    d, nm = decl(f); code.append(d); names[(f[0], f[1])] = nm
code.append('/-- Fields of the struct types. -/\ndef structs : Ident → List (Ident × Ty)')
for n, fs, where in TYPES:
    code.append(f'  | {ident(n)} => [{", ".join(f"({a}, {t})" for a, t in fs)}]  -- {where}')
code.append('  | _ => []\n')
code.append('/-- The methods of the package\'s types. -/\ndef methods : Ident → List Fn')
for n, fs, where in TYPES:
    if n in meths: code.append(f'  | {ident(n)} => [{", ".join(names[(n, f[1])] for f in meths[n])}]')
code.append('  | _ => []\n')
code.append('/-- `XContext.EnterRule` calls this listener method (/repo/parser/rfc5322_parser.go). -/\ndef enterName : Rule → Ident')
for r, a, b in listener: code.append(f'  | .{r} => {ident(a)}')
code.append('\n/-- `XContext.ExitRule` calls this listener method (/repo/parser/rfc5322_parser.go). -/\ndef exitName : Rule → Ident')
for r, a, b in listener: code.append(f'  | .{r} => {ident(b)}')
code.append('\n/-- The contexts with a method `AllDigit`, which is `s.GetTokens(RFC5322ParserDigit)` (/repo/parser/rfc5322_parser.go). -/\ndef hasAllDigit : Rule → Bool')
lc = {re.sub('Context$', '', c): rule for c, (rule, _, _) in zip(ctxs, listener)}
for c in digit: code.append(f'  | .{lc[c]} => true')
code.append('  | _ => false\n')
code.append('/-- The whole package. -/\ndef program : Program := ⟨structs, methods, enterName, exitName, hasAllDigit⟩\n')
code.append('end Rfc5322.Go.Code\n')
EXTRA = ['mime.WordDecoder', 'mail.Address', 'parser.RFC5322Parser', 'input', 'listeners', 'Name', 'Address', 'SyntaxError']
for x in EXTRA: ident(x)
idl = sorted(idents)
def q(x): return x if re.fullmatch(r'[A-Za-z]\w*', x) else '«' + x + '»'
out = ['/-!', '# The identifiers that occur in the hand-written package (generated by `tools/gen_go.py` from /repo/*.go)', '-/', '', 'namespace Rfc5322.Go', '',
       '/-- Names of types, fields, variables, functions and methods. -/', 'inductive Ident where']
line = '  '
for x in idl:
    if len(line) + len(q(x)) > 118: out.append(line.rstrip()); line = '  '
    line += '| ' + q(x) + ' '
out.append(line.rstrip()); out += ['  deriving DecidableEq', '', 'end Rfc5322.Go', '']
open(os.path.join(OUT, 'GoIdent.lean'), 'w').write('\n'.join(out))
open(os.path.join(OUT, 'GoCode.lean'), 'w').write('\n'.join(code))
print(len(TYPES), 'types', len(FUNCS), 'functions', len(idl), 'identifiers', len(listener), 'contexts', 'embedded', EMB)
