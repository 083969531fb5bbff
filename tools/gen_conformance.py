#!/usr/bin/env python3
"""Turn the tables in the repository's own unit tests into checks of the model.

Usage: gen_conformance.py [/repo] [/verif/lean/Verif/Conformance]
The generated files are committed; this script only documents where they come from.
"""
import os, re, sys
REPO = sys.argv[1] if len(sys.argv) > 1 else '/repo'
OUT = sys.argv[2] if len(sys.argv) > 2 else '/verif/lean/Verif/Conformance'

TOK = re.compile(r'''\s+|//[^\n]*|(?P<str>"(?:[^"\\]|\\.)*")|(?P<chr>'(?:[^'\\]|\\.[^']*)')|(?P<num>-?0x[0-9A-Fa-f]+|-?\d+(?:e\d+)?)|(?P<id>[A-Za-z_][A-Za-z_0-9.]*)|(?P<p>[\[\]{}(),&*])''')

def unquote(s):
    b = bytearray(); s = s[1:-1]; i = 0
    while i < len(s):
        if s[i] != '\\':
            b += s[i].encode(); i += 1; continue
        c = s[i+1]
        if c == 'x': b.append(int(s[i+2:i+4], 16)); i += 4
        else:
            b.append({'n': 10, 't': 9, 'r': 13, '\\': 92, '"': 34, "'": 39}[c]); i += 2
    return bytes(b)

def tokens(text):
    i = 0; out = []
    while i < len(text):
        m = TOK.match(text, i)
        if not m: raise Exception('token at ' + repr(text[i:i+30]))
        i = m.end()
        if m.lastgroup: out.append((m.lastgroup, m.group()))
    return out

def value(t, i):
    """one Go literal; returns value and next position"""
    k, s = t[i]
    if k == 'str':
        if i + 1 < len(t) and t[i+1][1] == '[': return unquote(s)[int(t[i+2][1])], i + 4
        return unquote(s), i + 1
    if k == 'chr': return unquote(s)[0], i + 1
    if k == 'num': return (int(float(s)) if 'e' in s and 'x' not in s else int(s, 0)), i + 1
    if s == '{':
        r = []; i += 1
        while t[i][1] != '}':
            v, i = value(t, i); r.append(v)
            if t[i][1] == ',': i += 1
        return r, i + 1
    if s == '[':                       # []byte{...}
        assert t[i+1][1] == ']' and t[i+2][1] == 'byte', t[i:i+4]
        r, i = value(t, i + 3); return bytes(r), i
    if k == 'id':
        if i + 1 < len(t) and t[i+1][1] == '(':
            args = []; j = i + 2
            while t[j][1] != ')':
                v, j = value(t, j); args.append(v)
                if t[j][1] == ',': j += 1
            if s == 'strings.Repeat': return ('repeat', args[0], args[1]), j + 1
            return (s, *args), j + 1
        return ('id', s), i + 1
    raise Exception('value at ' + repr(t[i:i+5]))

def table(path, name, func=None):
    """records of `name = []T{...}` (inside func, if given)"""
    text = open(os.path.join(REPO, path)).read()
    if func: text = text[text.index('func ' + func + '('):]
    m = re.search(r'var ' + name + r'\s*=\s*\[\](struct\s*\{[^}]*\}|\w+)\s*\{', text)
    # find the matching brace
    t = text[m.end() - 1:]
    depth = 0; i = 0
    while True:
        mm = TOK.match(t, i)
        if mm.lastgroup == 'p' and mm.group() == '{': depth += 1
        if mm.lastgroup == 'p' and mm.group() == '}': depth -= 1
        i = mm.end()
        if depth == 0: break
    return value(tokens(t[:i]), 0)[0]

def by(b): return '[' + ', '.join('0x%02x' % x for x in b) + ']'
def le(n, k): return n.to_bytes(k, 'little')
def be(n, k): return n.to_bytes(k, 'big')
def unhex(b): return bytes.fromhex(b.decode())

def wrap(s, width=128, ind='    '):
    out = []; line = ''
    for w in s.split(' '):
        if line and len(line) + 1 + len(w) > width: out.append(line); line = ind + w
        else: line = line + ' ' + w if line else w
    out.append(line)
    return '\n'.join(out)

def write(name, imports, doc, body):
    s = ''.join('import %s\n' % i for i in imports) + '\n/-!\n' + doc + '\n\nGenerated by tools/gen_conformance.py. These are tests of the model, not proofs about the code.\n-/\nnamespace Conformance\n\n' + body + '\nend Conformance\n'
    open(os.path.join(OUT, name + '.lean'), 'w').write(s)

def listdef(name, typ, rows):
    return wrap('def %s : List (%s) := [\n  ' % (name, typ), 10**9) + ',\n  '.join(wrap(r) for r in rows) + ']\n\n'


def name(p): return re.sub(r'\W', '_', p)
def pairlist(nm, typ, rows):
    return 'def %s : List (%s) := [\n  ' % (nm, typ) + ',\n  '.join(wrap(r) for r in rows) + ']\n\n'

def hexfile():
    T = 'encoding/hex/hex_test.go'
    pairs = table(T, 'hexBytesPairs'); bad = table(T, 'badHex'); dec = table(T, 'decodePairs')
    b = pairlist('hexBytesPairs', 'List U8 × List U8', ['(%s, %s)' % (by(h), by(x)) for h, x in pairs])
    b += '/-- TestToBytes and TestFromBytes, for both builds. -/\nexample : ∀ r ∈ hexBytesPairs, FromBytes r.2 = .ok r.1 ∧ ToBytes .table r.1 = .ok ⟨some r.2, none⟩ ∧\n    ToBytes .tiny r.1 = .ok ⟨some r.2, none⟩ := by decide +kernel\n\n'
    b += '/-- TestLowerCaseDecodes. -/\nexample : ToBytes .table (ascii "b226f0c8") = .ok ⟨some [178, 38, 240, 200], none⟩ := by decide +kernel\n\n'
    def err(e): return '.errLength' if e == ('id', 'ErrLength') else '.invalidHexAt %d %d' % (e[1], e[2])
    b += pairlist('badHex', 'List U8 × HexErr', ['(%s, %s)' % (by(h), err(e)) for h, e in bad])
    b += '/-- TestToBytesInvalidHex. -/\nexample : ∀ r ∈ badHex, ToBytes .table r.1 = .ok ⟨none, some r.2⟩ ∧ ToBytes .tiny r.1 = .ok ⟨none, some r.2⟩ := by\n  decide +kernel\n\n'
    b += wrap('def decodePairs : List (U8 × Option U8) := [' + ', '.join('(%d, %s)' % (c, 'none' if v == ('id', 'invalid') else 'some %d' % v) for c, v in dec) + ']') + '\n\n'
    b += '/-- TestDecode. -/\nexample : ∀ r ∈ decodePairs, ∀ build ∈ [Build.table, .tiny],\n    (if decode build r.1 ≤ 15#8 then some (decode build r.1) else none) = r.2 := by decide +kernel\n'
    write('Hex', ['Verif.Model.Hex'], '# The tables of encoding/hex/hex_test.go', 'open Hex\n\n' + b)

def codegenfile():
    T = 'codegen/BytesToString_test.go'
    b = ''
    for nm, T, fn in [('bytesStrPairs', 'codegen/BytesToString_test.go', 'BytesToString r.1'), ('bytesStrSep4', 'codegen/BytesToString_test.go', 'BytesToStringSep r.1 4'), ('bytesHexSep4', 'codegen/BytesToHexSep_test.go', 'BytesToHexSep r.1 4')]:
        b += pairlist(nm, 'List U8 × List U8', ['(%s, %s)' % (by(h), by(x)) for h, x in table(T, nm)])
        b += 'example : ∀ r ∈ %s, %s = .ok r.2 := by decide +kernel\n\n' % (nm, fn)
    write('Codegen', ['Verif.Model.Codegen'], '# The tables of codegen/BytesToString_test.go and BytesToHexSep_test.go', 'open Codegen\n\n' + b)

def bytesfile():
    b = '''/-- Memory with `a` at address 1000, `b` at 2000 and zeros elsewhere. -/
def mem (a b : List U8) : Mem := fun x =>
  if x < 1000 then 0 else if x < 2000 then a.getD (x - 1000) 0 else b.getD (x - 2000) 0

/-- What `f(sum, a, b)` leaves in a fresh `sum` of `n` bytes, the carry and whether there was an error. -/
def added (f : Mem → Slice → Slice → Slice → Res (Mem × U8 × Bool)) (n : Nat) (a b : List U8) : Res (List U8 × U8 × Bool) := do
  let (m, c, e) ← f (mem a b) ⟨0, n⟩ ⟨1000, a.length⟩ ⟨2000, b.length⟩
  return (Slice.content m ⟨0, n⟩, c, e)

/-- What `f(sum, b, carry)` leaves in `sum`, and the carry. -/
def addedEq (f : Mem → Slice → Slice → U8 → Res (Mem × U8)) (s b : List U8) (c : U8) : Res (List U8 × U8) := do
  let (m, c) ← f (mem s b) ⟨1000, s.length⟩ ⟨2000, b.length⟩ c
  return (Slice.content m ⟨1000, s.length⟩, c)

/-- What padding leaves in a fresh `dst` of `n` bytes. -/
def padded (f : Mem → Slice → Slice → Nat → Res (Mem × Bool)) (n : Nat) (a : List U8) : Res (List U8 × Bool) := do
  let (m, e) ← f (mem a []) ⟨0, n⟩ ⟨1000, a.length⟩ n
  return (Slice.content m ⟨0, n⟩, e)

'''
    L = 'bytes/Add_test.go'; B = 'bytes/AddBE_test.go'
    def add(nm, rows, fn, n, doc):
        """rows: a, b, sum, carry as bytes"""
        r = pairlist(nm, 'List U8 × List U8 × List U8 × U8', ['(%s, %s, %s, %d)' % (by(a), by(x), by(s), c) for a, x, s, c in rows])
        r += '/-- %s, in both orders. -/\nexample : ∀ r ∈ %s, added %s %d r.1 r.2.1 = .ok (r.2.2.1, r.2.2.2, false) ∧\n    added %s %d r.2.1 r.1 = .ok (r.2.2.1, r.2.2.2, false) := by decide +kernel\n\n' % (doc, nm, fn, n, fn, n)
        return r
    def addeq(nm, rows, fn, doc):
        r = pairlist(nm, 'List U8 × List U8 × U8 × List U8 × U8', ['(%s, %s, %d, %s, %d)' % (by(a), by(x), ci, by(s), c) for a, x, ci, s, c in rows])
        r += '/-- %s. -/\nexample : ∀ r ∈ %s, addedEq %s r.1 r.2.1 r.2.2.1 = .ok r.2.2.2 := by decide +kernel\n\n' % (doc, nm, fn)
        return r
    def padle(x, n): return (x[:n] + bytes(n))[:n]
    def padbe(x, n): return bytes(max(0, n - len(x))) + x[:n]
    e8 = table(L, 'uint8AddEqTests')
    b += addeq('addEq8Tests', [r for a, x, ci, s, c in e8 for r in [(le(a, 1), le(x, 1), ci, le(s, 1), c), (le(x, 1), le(a, 1), ci, le(s, 1), c)]], 'addEq8', 'TestAddEq8')
    for w in (16, 32):
        n = w // 8
        t = table(L, 'uint%dAddEqTests' % w)
        for E, enc, T, pad in (('LE', le, L, padle), ('BE', be, B, padbe)):
            rows = [r for a, x, ci, s, c in t for r in [(enc(a, n), enc(x, n), ci, enc(s, n), c), (enc(x, n), enc(a, n), ci, enc(s, n), c)]]
            h = table(T, 'hexTests', 'TestAddEq%d%s' % (w, E))
            rows += [r for a, x, ci, s, c in h for r in [(unhex(a), unhex(x), ci, enc(s, n), c), (pad(unhex(x), n), unhex(a), ci, enc(s, n), c)]]
            b += addeq('addEq%d%sTests' % (w, E), rows, 'addEq%d%s' % (w, E), 'TestAddEq%d%s' % (w, E))
    for w in (16, 32):
        n = w // 8
        t = table(L, 'uint%dTests' % w)
        for E, enc, T in (('LE', le, L), ('BE', be, B)):
            rows = [(enc(a, n), enc(x, n), enc(s, n), c) for a, x, s, c in t]
            f = 'TestAdd%d%s' % (w, E) if (w, E) != (32, 'BE') else 'TestAddBE32'
            if (w, E) == (16, 'LE'): rows += [tuple(r) for r in table(T, 'byteTests', f)]
            else: rows += [(unhex(a), unhex(x), enc(s, n), c) for a, x, s, c in table(T, 'hexTests', f)]
            b += add('add%d%s' % (w, E), rows, 'Add%d%s' % (w, E), n, f)
    for w in (128, 256, 512):
        for E, T in (('LE', L), ('BE', B)):
            f = 'TestAdd%d%s' % (w, E)
            rows = [(unhex(a), unhex(x), unhex(s), c) for a, x, s, c in table(T, 'hexTests', f)]
            b += add('add%d%s' % (w, E), rows, 'Add%d%s' % (w, E), w // 8, f)
    for w in (16, 32):
        for E in ('LE', 'BE'):
            rows = table('bytes/pad_test.go', 'tests', 'TestPad%s%d' % (E, w))
            b += pairlist('pad%s%d' % (E, w), 'List U8 × List U8', ['(%s, %s)' % (by(x), by(y)) for x, y in rows])
            b += '/-- TestPad%s%d. -/\nexample : ∀ r ∈ pad%s%d, padded pad%s %d r.1 = .ok (r.2, false) := by decide +kernel\n\n' % (E, w, E, w, E, w // 8)
    write('Bytes', ['Verif.Model.Bytes'], '# The tables of bytes/Add_test.go, AddBE_test.go and pad_test.go', 'open Bytes\n\n' + b)

def ip4(s): return bytes(int(x) for x in s.decode().split('.'))
def ip16(s): return bytes(10) + b'\xff\xff' + ip4(s)
def cidr(s):
    a, n = s.decode().split('/'); n = int(n)
    m = (0xffffffff << (32 - n)) & 0xffffffff
    v = int.from_bytes(ip4(a.encode()), 'big') & m
    return '⟨%s, %s⟩' % (by(be(v, 4)), by(be(m, 4)))

def netfile():
    b = '''/-- The merge function of the tests. -/
def pickFirst (a _b : Unit) : Unit := a

/-- The networks listed after some additions (loops of `AddRange` are cut off after `fuel` rounds). -/
def listed (ops : List (Net.Op Unit)) : Res (Option (List IPNet)) :=
  ops.foldlM (init := some New) (fun t op => match t, op with
    | none, _ => .ok none
    | some t, .addIp a v => do return some (← AddIp pickFirst t a v)
    | some t, .addCidr c v => do return some (← AddCidr pickFirst t c v)
    | some t, .addRange s e v => AddRange pickFirst 100 t s e v) >>= fun t => .ok (t.map fun t => (ListCidr t).map (·.1))

'''
    T = 'net/IpTree_test.go'
    rows = ['([.addCidr %s (), .addCidr %s ()], %s)' % (cidr(a), cidr(c), cidr(e)) for a, c, e in table(T, 'tests', 'TestCidrMerge')]
    rows += ['([.addRange %s %s (), .addRange %s %s ()], %s)' % (by(ip16(a)), by(ip16(c)), by(ip16(d)), by(ip16(e)), cidr(x)) for a, c, d, e, x in table(T, 'tests', 'TestRangeMerge')]
    rows += ['([.addIp %s ()], %s)' % (by(ip16(b'135.101.67.33')), cidr(b'135.101.67.33/32')),
             '([.addCidr %s ()], %s)' % (cidr(b'1.2.3.4/16'), cidr(b'1.2.3.4/16')),
             '([.addRange %s %s ()], %s)' % (by(ip16(b'192.168.1.0')), by(ip16(b'192.168.1.63')), cidr(b'192.168.1.0/26')),
             '([.addIp %s (), .addRange %s %s (), .addCidr %s ()], %s)' % (by(ip16(b'192.168.1.0')), by(ip16(b'192.168.1.1')), by(ip16(b'192.168.1.129')), cidr(b'192.168.1.128/25'), cidr(b'192.168.1.0/24'))]
    b += pairlist('trees', 'List (Net.Op Unit) × IPNet', rows)
    b += '/-- TestCidrMerge, TestRangeMerge, TestOneIp, TestOneCidr, TestOneRange, TestIpRangeCidr. -/\nexample : ∀ r ∈ trees, listed r.1 = .ok (some [r.2]) := by decide +kernel\n\n/-- TestEmpty. -/\nexample : listed [] = .ok (some []) := by decide +kernel\n\n'
    T = 'net/Cidr_test.go'
    b += pairlist('unequal', 'IPNet × IPNet', ['(%s, %s)' % (cidr(a), cidr(c)) for a, c in table(T, 'unequalCidrTests')])
    b += '/-- TestNotEqual. -/\nexample : ∀ r ∈ unequal, CidrEqual r.1 r.2 = false := by decide +kernel\n\n/-- TestEqual. -/\nexample : CidrEqual %s %s = true := by decide +kernel\n\n' % (cidr(b'192.168.1.0/24'), cidr(b'192.168.1.0/24'))
    b += pairlist('firstLast', 'IPNet × List U8 × List U8', ['(%s, %s, %s)' % (cidr(c), by(ip4(f)), by(ip4(l))) for c, f, l in table(T, 'cidrFirstLastIpTests')])
    b += '/-- TestFirstIpv4, TestLastIpv4. -/\nexample : ∀ r ∈ firstLast, FirstIpv4 r.1 = r.2.1 ∧ LastIpv4 r.1 = .ok r.2.2 := by decide +kernel\n\n'
    b += pairlist('ipUint', 'List U8 × List U8 × U32', ['(%s, %s, %d)' % (by(ip4(a)), by(ip16(a)), n) for a, n in table('net/Ipv4_test.go', 'ipUintTests')])
    b += '/-- TestIpv4FromUint, TestIpv4ToUint (`net.ParseIP` returns the 16-byte form). -/\nexample : ∀ r ∈ ipUint, Ipv4FromUint r.2.2 = r.1 ∧ Ipv4ToUint r.2.1 = .ok r.2.2 ∧ Ipv4ToUint r.1 = .ok r.2.2 := by decide +kernel\n\n'
    b += '/-- TestIpv4ToUint_withv6: 2001:db8::68. -/\nexample : Ipv4ToUint %s = .ok 0 := by decide +kernel\n\n' % by(bytes.fromhex('20010db8000000000000000000000068'))
    b += pairlist('masks', 'List U8 × U8', ['(%s, %d)' % (by(m), n) for m, n in table('net/Mask_test.go', 'maskTests')])
    b += '/-- TestToByte, TestFromByte. -/\nexample : ∀ r ∈ masks, MaskToByte r.1 = r.2 ∧ MaskFromByte r.2 = r.1 := by decide +kernel\n'
    write('Net', ['Verif.Model.Net'], '# The tables of the tests of package net', 'open Net\n\n' + b)

def checksumfile():
    b = ''
    for nm, path, tab, impl, size in [('bcc', 'checksum/bcc/bcc_test.go', 'tests', 'Bcc.impl', 1), ('lrc', 'checksum/lrc/lrc_test.go', 'lrcTests', 'Lrc.impl', 1),
            ('fletcher16', 'checksum/fletcher/fletcher16_test.go', 'fletcher16tests', 'Fletcher.impl16', 2),
            ('fletcher32', 'checksum/fletcher/fletcher32_test.go', 'fletcher32tests', 'Fletcher.impl32', 4),
            ('fletcher64', 'checksum/fletcher/fletcher64_test.go', 'fletcher64tests', 'Fletcher.impl64', 8)]:
        b += pairlist(nm, 'List U8 × Nat × List U8', ['(%s, 0x%x, %s)' % (by(s), c, by(be(c, size))) for s, c in table(path, tab)])
        b += '/-- %s. -/\nexample : ∀ r ∈ %s, run %s [.write r.1, .sumN, .sum []] = .ok [.wrote r.1.length false, .num r.2.1, .bytes r.2.2] := by\n  decide +kernel\n\n' % (path, nm, impl)
    b += pairlist('luhn', 'U64 × U8', ['(%d, %d)' % (n, c) for n, c in table('checksum/luhn/luhn_test.go', 'luhnTests')])
    b += '/-- checksum/luhn/luhn_test.go. -/\nexample : ∀ r ∈ luhn, Luhn.Checksum r.1 = r.2 := by decide +kernel\n'
    write('Checksum', ['Verif.Model.Checksum'], '# The tables of the tests below checksum/', 'open GoHash\n\n' + b)

def helperfile():
    T = 'test/StringMatch_test.go'
    b = ''
    b += pairlist('firstMismatch', 'List U8 × List U8 × Nat', ['(%s, %s, %d)' % (by(a), by(c), n) for a, c, n in table(T, 'firstMismatchTests')])
    b += '/-- A marker of the size used in the tests. -/\ndef marker (a b : List U8) : List U8 := List.replicate (max (explode a).length (explode b).length + 1) 0\n\n'
    b += '/-- TestFirstMismatch. -/\nexample : ∀ r ∈ firstMismatch, (do return (← findFirstMismatch (explode r.1) (explode r.2.1) (marker r.1 r.2.1)).1) = Res.ok r.2.2 := by\n  decide +kernel\n\n'
    b += pairlist('lastMismatch', 'List U8 × List U8 × Int', ['(%s, %s, %d)' % (by(a), by(c), n) for a, c, n in table(T, 'lastMismatchTests')])
    b += '/-- TestLastMismatch. -/\nexample : ∀ r ∈ lastMismatch, (do return (← findLastMismatch (explode r.1) (explode r.2.1) (marker r.1 r.2.1) 0).1) = Res.ok r.2.2 := by\n  decide +kernel\n\n'
    b += pairlist('renderTexts', 'List U8 × Int × Int × Int × List U8', ['(%s, %d, %d, %d, %s)' % (by(t), x, s, e, by(o)) for t, x, s, e, o in table(T, 'renderTextTests')])
    b += '/-- TestRenderText. -/\nexample : ∀ r ∈ renderTexts, renderText r.1 r.2.1 r.2.2.1 r.2.2.2.1 = .ok r.2.2.2.2 := by decide +kernel\n'
    write('TestHelpers', ['Verif.Model.TestHelpers'], '# The tables of test/StringMatch_test.go', 'open TestHelpers\n\n' + b)

def hashfile():
    for nm, ns, tabs, imps, lim in [
        ('Ripemd', 'Ripemd', [('ripe%d' % w, 'hash/ripemd/ripe%d_test.go' % w, 'ripe%dpairs' % w, 'ripemd%d' % w, '(impl v%d)' % w, 'C46_stream%d' % w) for w in (128, 160, 256, 320)], ['Verif.Props.Ripemd'], 2000)]:
        b = 'open %s %sSpec GoHash HashSpec\n\n' % (ns, ns)
        for d, path, tab, spec, impl, thm in tabs:
            rows = []; skipped = 0
            for r in table(path, tab):
                m, h = r[0], r[1]
                if isinstance(m, tuple): m = m[1] * m[2]
                if len(m) > lim: skipped += 1; continue
                row = (m, unhex(h))
                if row not in rows: rows.append(row)
            b += pairlist(d, 'List U8 × List U8', ['(%s, %s)' % (by(m), by(h)) for m, h in rows])
            b += '/-- %s (%d entr%s of a million bytes left out). -/\n' % (path, skipped, 'y' if skipped == 1 else 'ies')
            b += 'theorem %s_ok : ∀ r ∈ %s, %s r.1 = r.2 := by decide +kernel\n\n' % (d, d, spec)
            b += 'example : ∀ r ∈ %s, run %s [.write r.1, .sum []] = .ok [.wrote r.1.length false, .bytes r.2] := by\n  intro r hr\n  rw [%s, ← %s_ok r hr]\n  simp [expect, expectFrom, algo]\n\n' % (d, impl, thm, d)
        write(nm, imps, '# The tables of the tests in hash/%s\n\nThe digest is evaluated with the specification, to which the model was proved equal.' % ns.lower(), b)

for f in (hexfile, codegenfile, bytesfile, netfile, checksumfile, helperfile, hashfile): f()
