"""Prints hash/sha3/keccakf_amd64.s as Lean data (Model/AsmKeccak.lean): the macro mKeccakRound as a function of its arguments
and the routine as its uses."""
import os, re
ROOT = os.path.join(os.path.dirname(os.path.abspath(__file__)), '..', 'lean', 'Verif')
PATH = 'hash/sha3/keccakf_amd64.s'
L = open('/repo/'+PATH).read().split('\n')
defs, off = {}, {}
macros = {}
i = 0
while i < len(L):
    m = re.match(r'#define (\w+)\s+\((\d+)\*8\)', L[i])
    if m: off[m[1]] = int(m[2])
    m = re.match(r'#define (\w+)\s+(\w+)$', L[i])
    if m: defs[m[1]] = m[2]
    m = re.match(r'#define (\w+) (\w+ \w+, \w+)$', L[i])
    if m: macros[m[1]] = (i+1, m[2])
    m = re.match(r'#define mKeccakRound\(([^)]*)\)', L[i])
    if m:
        params = [p.strip() for p in m[1].split(',')]
        start = i+1
        i += 1
        body = []
        while True:
            t = re.sub(r'/\*.*?\*/', '', L[i]).rstrip()
            more = t.endswith('\\')
            t = t.rstrip('\\').strip()
            for q in t.split(';'):
                q = q.strip()
                if q: body.append((i+1, q))
            if not more: break
            i += 1
        end = i
    m = re.match(r'TEXT ·keccakF1600\(SB\), 0, \$(\d+)-8', L[i])
    if m: frame, text = int(m[1]), i+1
    i += 1

def reg(r):
    while r in defs: r = defs[r]
    return r

def op(t):
    t = t.strip()
    m = re.match(r'^\$(\w+)$', t)
    if m: return '(.imm %d)' % int(m[1], 0)
    m = re.match(r'^(\w+)\((\w+)\)$', t)
    if m:
        return '(.mem %s %d)' % (reg(m[2]), off[m[1]])
    m = re.match(r'^state\+0\(FP\)$', t)
    if m: return '(.mem FP 0)'
    if t == 'rc': return '(.imm rc)'
    return '(.reg %s)' % reg(t)

def ins(t):
    m, o = t.split(None, 1)
    o = [x.strip() for x in o.split(',')]
    if m == 'ROLQ': return 'ROLQ %d %s' % (int(o[0][1:]), op(o[1]))
    return '%s %s' % (m, ' '.join(op(x) for x in o))

out = '''import Verif.Model.Asm
/-
hash/sha3/keccakf_amd64.s: the macro mKeccakRound as a function of its arguments, and the routine as its uses.
Printed by gen/asmgen_keccak.py; each comment gives the line of /repo the instructions below it come from.
-/
namespace Model.AsmKeccak
open Model Model.Asm

'''
for k, (n, t) in macros.items():
    out += '/-- %s:%d -/\ndef %s : List Instr := [%s]\n' % (PATH, n, k, ins(t))
ps = params[3:]
k = [j for j, (n, t) in enumerate(body) if t == 'MOVQ rc, rT1'][0]
assert sum('rc' in re.findall(r'\w+', t) for n, t in body) == 1

def piece(b):
    chunks, cur = [], []
    for n, t in b:
        if t in ps:
            if cur: chunks.append(cur)
            chunks.append(t); cur = []
        else: cur.append((n, t))
    if cur: chunks.append(cur)
    res = ''
    for j, c in enumerate(chunks):
        if isinstance(c, str): res += '  '+c
        else: res += '  -- %s:%d\n  [ ' % (PATH, c[0][0])+',\n    '.join(ins(t) for n, t in c)+' ]'
        res += ' ++\n' if j < len(chunks)-1 else '\n'
    return res

out += '\n/-- %s:%d-%d: the part of the macro before the round constant -/\ndef mKeccakRound1 (iState : Nat) : List Instr :=\n' % (PATH, body[0][0], body[k-1][0])
out += piece(body[:k])
out += '\n/-- %s:%d-%d: the part after it -/\ndef mKeccakRound2 (iState oState : Nat)\n    (%s : List Instr) : List Instr :=\n' % (PATH, body[k+1][0], body[-1][0], ' '.join(ps))
out += piece(body[k+1:])
out += '\n/-- %s:%d-%d; an argument NOP is the empty list -/\ndef mKeccakRound (iState oState rc : Nat)\n    (%s : List Instr) : List Instr :=\n' % (PATH, start, end+1, ' '.join(ps))
out += '  mKeccakRound1 iState ++\n  -- %s:%d\n  %s ::\n  mKeccakRound2 iState oState %s\n' % (PATH, body[k][0], ins(body[k][1]), ' '.join(ps))
# the routine
parts = []; cur = []
for n in range(text, len(L)):
    t = re.sub(r'//.*', '', L[n]).strip()
    if not t or t == 'RET': continue
    m = re.match(r'mKeccakRound\(([^)]*)\)', t)
    if m:
        if cur: parts.append(cur); cur = []
        a = [x.strip() for x in m[1].split(',')]
        parts.append((n+1, 'mKeccakRound %s %s 0x%016x %s' % (reg(a[0]), reg(a[1]), int(a[2][1:], 0), ' '.join('[]' if x == 'NOP' else x for x in a[3:]))))
    else: cur.append((n+1, ins(t)))
parts.append(cur)
out += '\n/-- %s:%d-%d -/\ndef keccakF1600Code : List Instr :=\n' % (PATH, text+1, len(L)-2)
for k, c in enumerate(parts):
    if isinstance(c, tuple): out += '  -- %s:%d\n  %s' % (PATH, c[0], c[1])
    else:
        out += '  -- %s:%d\n  [ ' % (PATH, c[0][0])+',\n    '.join(t for n, t in c)+' ]'
    out += ' ++\n' if k < len(parts)-1 else '\n'
out += '\n/-- %s:%d `keccakF1600`; the frame of %d bytes -/\ndef keccakF1600 : Routine := { code := keccakF1600Code, frame := %d, glob := [] }\n\nend Model.AsmKeccak\n' % (PATH, text, frame, frame//8)
open(os.path.join(ROOT, 'Model', 'AsmKeccak.lean'), 'w').write(out)
