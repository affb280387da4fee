#!/usr/bin/env python3
"""Turns the test cases of /repo (parse_address_list_test.go, parse_date_time_test.go, tests.xml, and the inputs of benchmark_test.go) into Lean examples:
/verif/lean/Verif/Tests/Repo.lean.  Usage: gen_tests.py [/repo] [out]"""
import re, sys, datetime
import xml.parsers.expat
REPO = sys.argv[1] if len(sys.argv) > 1 else '/repo'
OUT = sys.argv[2] if len(sys.argv) > 2 else '/verif/lean/Verif/Tests/Repo.lean'
STR = r'`([^`]*)`|"((?:[^"\\]|\\.)*)"'
def un(m):
    if m.group(1) is not None: return m.group(1)
    return m.group(2).encode().decode('unicode_escape').encode('latin1').decode('utf8')
def cases(fn):
    """(test function, input, expected) in source order"""
    out = []; cur = None; inp = None; addr = None; name = ''
    for ln, l in enumerate(open(f'{REPO}/{fn}', encoding='utf8').read().split('\n'), 1):
        m = re.match(r'func (Test\w+)\(', l)
        if m: cur = m.group(1)
        m = re.match(r'\s*(?:\{)?input:\s*(?:' + STR + r')\s*\}?,', l)
        if m: out.append([cur, un(m), [], ln]); name = ''; continue
        m = re.match(r'\s*Name:\s*(?:' + STR + r'),', l)
        if m: name = un(m); continue
        m = re.match(r'\s*Address:\s*(?:' + STR + r'),', l)
        if m: out[-1][2].append((name, un(m))); name = ''; continue
        if name and l.strip().startswith('}'): out[-1][2].append((name, '')); name = ''; continue
        m = re.match(r'\s*want:\s*(?:' + STR + r'),', l)
        if m: out[-1][2] = un(m); continue
        m = re.match(r'\s*`([^`]*)`,$', l)
        if m and cur == 'TestParseDateTimeRejected': out.append([cur, m.group(1), [], ln])
        assert 'Name:' not in l and 'Address: ' not in l.replace('Address{', ''), (fn, ln, l)
    return out
def xmlcases():
    out = []; st = {'data': '', 't': {}}
    def start(n, a):
        if n == 'test': st['t'] = {'id': a['id']}
    def end(n):
        if n == 'test': out.append(st['t'])
        elif n in ('address', 'category', 'diagnosis'): st['t'][n] = st['data']
    def data(d): st['data'] = d
    p = xml.parsers.expat.ParserCreate(); p.buffer_text = True; p.buffer_size = 1 << 20
    p.StartElementHandler = start; p.EndElementHandler = end; p.CharacterDataHandler = data
    p.Parse(open(f'{REPO}/tests.xml', 'rb').read(), True)
    return out
def bs(s): return 'bytes [' + ', '.join(map(str, s.encode('utf8'))) + ']'
def cm(s): return s.replace('-/', '- /').replace('/-', '/ -').replace('\n', '\\n').replace('\r', '\\r')
def lean():
    L = ['''import Verif.Proofs.FastEval
import Verif.Model.Mime

/-!
# The tests of the repository, run on the model

Made by `tools/gen_tests.py` from the test files of /repo.  These are tests of the model (of its agreement with what the authors of the program expect),
not proofs of properties.  The results are computed by the kernel.
-/

namespace Rfc5322.Tests

/-- A string given by its bytes. -/
def bytes (l : List Nat) : Bytes := l.map UInt8.ofNat

/-- The environment of the tests: no `CharsetReader`, the year 2024. -/
def env : Env := goEnv none 2024

/-- No error, and these addresses. -/
def Gives (input : Bytes) (l : List (List Nat × List Nat)) : Prop :=
  ∀ P : Predictor, parseAddressList P env input = .ok (goSlice (l.map fun x => ⟨bytes x.1, bytes x.2⟩), none)

/-- An error. -/
def Fails (input : Bytes) : Prop := ∀ P : Predictor, parseAddressList P env input = .ok (none, some .syntaxError)

/-- No error. -/
def Accepted (input : Bytes) : Prop := ∀ P : Predictor, ∃ l, parseAddressList P env input = .ok (l, none)

/-- No error, this time (in seconds since 1970) with this offset. -/
def Date (input : Bytes) (unix offset : Int) : Prop := ∀ P : Predictor, ∃ name, parseDateTime P env input = .ok (⟨unix, ⟨name, offset⟩⟩, none)

/-- An error. -/
def DateFails (input : Bytes) : Prop := ∀ P : Predictor, parseDateTime P env input = .ok (zeroTime, some .syntaxError)

theorem gives {input : Bytes} {l} (h : fastAddresses env input = .ok (goSlice (l.map fun (x : List Nat × List Nat) => ⟨bytes x.1, bytes x.2⟩), none)) : Gives input l :=
  fun P => (evalAddresses_eq P env input).trans ((fastAddresses_eq env input).trans h)

theorem fails {input : Bytes} (h : fastAddresses env input = .ok (none, some .syntaxError)) : Fails input := fun P => (evalAddresses_eq P env input).trans ((fastAddresses_eq env input).trans h)

/-- Computable form of `Accepted`. -/
def accepts (input : Bytes) : Bool := match fastAddresses env input with
  | .ok (_, none) => true
  | _ => false

theorem accepted {input : Bytes} (h : accepts input = true) : Accepted input := by
  intro P
  rw [evalAddresses_eq, fastAddresses_eq]
  unfold accepts at h
  split at h
  · exact ⟨_, by assumption⟩
  · cases h

/-- Computable form of `Date`. -/
def dates (input : Bytes) (unix offset : Int) : Bool := match fastDate env input with
  | .ok (⟨u, ⟨_, o⟩⟩, none) => u == unix && o == offset
  | _ => false

theorem date {input : Bytes} {unix offset : Int} (h : dates input unix offset = true) : Date input unix offset := by
  intro P
  rw [evalDate_eq, fastDate_eq]
  unfold dates at h
  split at h
  · rename_i e
    simp at h
    obtain ⟨rfl, rfl⟩ := h
    exact ⟨_, e⟩
  · cases h

theorem dateFails {input : Bytes} (h : fastDate env input = .ok (zeroTime, some .syntaxError)) : DateFails input := fun P => (evalDate_eq P env input).trans ((fastDate_eq env input).trans h)
''']
    n = 0; cur = None
    for f, inp, exp, ln in cases('parse_address_list_test.go'):
        if f != cur: L.append(f'/-! ## {f} (/repo/parse_address_list_test.go) -/\n'); cur = f
        L.append(f'-- line {ln}: {cm(inp)}')
        if f == 'TestParseRejectedAddresses': L.append(f'example : Fails ({bs(inp)}) := fails (by decide +kernel)')
        else: L.append(f'example : Gives ({bs(inp)}) [{", ".join("(" + bs(a)[6:] + ", " + bs(b)[6:] + ")" for a, b in exp)}] := gives (by decide +kernel)')
        n += 1
    L.append('\n/-! ## TestIsEmailValidCategory (/repo/tests.xml) -/\n')
    for t in xmlcases():
        if t['category'] != 'ISEMAIL_VALID_CATEGORY': continue
        L.append(f'-- {t["id"]}: {cm(t["address"])}'); L.append(f'example : Accepted ({bs(t["address"])}) := accepted (by decide +kernel)'); n += 1
    for f, inp, exp, ln in cases('parse_date_time_test.go'):
        if f != cur: L.append(f'\n/-! ## {f} (/repo/parse_date_time_test.go) -/\n'); cur = f
        L.append(f'-- line {ln}: {cm(inp)}'); n += 1
        if f == 'TestParseDateTimeRejected': L.append(f'example : DateFails ({bs(inp)}) := dateFails (by decide +kernel)'); continue
        d = datetime.datetime.fromisoformat(exp.replace('Z', '+00:00'))
        L.append(f'example : Date ({bs(inp)}) ({int(d.timestamp())}) ({int(d.utcoffset().total_seconds())}) := date (by decide +kernel)')
    L.append('\nend Rfc5322.Tests')
    open(OUT, 'w').write('\n'.join(L) + '\n'); print(n, 'test cases')
if __name__ == '__main__': lean()
