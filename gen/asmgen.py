"""Prints the amd64 routines of dh/sidh/internal/*/arith_amd64.s as Lean data (Model/AsmP*.lean) and certificates for them
(Lemmas/AsmCert*.lean).  The certificates are checked by the kernel; only the programs are trusted."""
import sys, os
sys.path.insert(0, os.path.dirname(__file__))
from asmcert import *

ROOT = os.path.join(os.path.dirname(os.path.abspath(__file__)), '..', 'lean', 'Verif')
P = {434: 2**216*3**137-1, 503: 2**250*3**159-1, 751: 2**372*3**239-1}
W = {434: 7, 503: 8, 751: 12}
CPU = [('base', (0, 0)), ('bmi2', (0, 1)), ('adx', (1, 1))]
OPS = ['add', 'sub', 'adl', 'sul', 'mod', 'mul', 'rdc']
SIZES = {'add': (12, 12, 12), 'sub': (12, 12, 12), 'mul': (24, 12, 12), 'rdc': (12, 24), 'adl': (24, 24, 24), 'sul': (24, 24, 24), 'mod': (12,)}
def outwords(f, r): return {'add': 1, 'sub': 1, 'mul': 2, 'rdc': 1, 'adl': 2, 'sul': 2, 'mod': 1}[r]*W[f]
# which arguments are the same array: name of the pattern, array of each argument
PAT3 = [('', (0, 1, 2)), ('zx', (0, 0, 1)), ('zy', (0, 1, 0)), ('xy', (0, 1, 1)), ('zxy', (0, 0, 0))]
PATS = {'add': PAT3, 'sub': PAT3, 'adl': PAT3, 'sul': PAT3, 'mod': [('', (0,))], 'mul': [('', (0, 1, 2)), ('xy', (0, 1, 1))], 'rdc': [('', (0, 1))]}

def valp(ps):
    r = {}
    for i, q in enumerate(ps): r = add(r, q, B**i)
    return r

class Run:
    """symbolic call: args = array of each argument, lens = words of each array"""
    def __init__(s, prog, frame, globs, lens, args, tops=(), zeros=(), rename=()):
        s.lens, s.args, s.tops, s.frame = lens, args, tops, frame
        s.base = 2+len(globs)
        s.off = [sum(lens[:i]) for i in range(len(lens))]
        tot = sum(lens)
        bp, fp = var(s.inp(tot)), var(s.inp(tot+1))
        data = [[var(s.inp(s.off[b]+i)) for i in range(lens[b])] for b in range(len(lens))]
        blocks = [[var(s.inp(tot+2+int(a[1:]))) if isinstance(a, str) else ('ptr', s.base+a) for a in args], [] if frame == 0 else [None]*frame+[bp]]
        blocks += [[({0: w} if w else {}) for w in g] for g in globs]+data
        s.sym, s.rn = execute(48, prog, blocks, {4: ('ptr', 1), 16: ('ptr', 0), 5: bp if frame == 0 else fp}, zeros, rename)
        s.prog = prog
        s.keepbp = (s.sym.reg[5] if frame == 0 else s.sym.mem[1][frame]) == bp
        s.data0 = data
        s.C = Cert(s.sym)
    def inp(s, j): return inp(j, 4 if j in s.tops else 0)
    def blk(s, b, n): return valp([var(s.inp(s.off[b]+i)) for i in range(n)])
    def out(s, b, n): return valp(s.sym.mem[s.base+b][:n])
    def changed(s, zb, n):
        r = []
        for b in range(len(s.lens)):
            if b == zb: assert s.sym.mem[s.base+b][n:] == s.data0[b][n:]
            elif s.sym.mem[s.base+b] != s.data0[b]: r.append(b)
        return r
    def chains(s):
        out = []; cur = None
        for pc, ins in enumerate(s.prog):
            if ins[0] == 'subc':
                if ins[2] == 'no':
                    if cur: out.append(cur)
                    cur = []
                if cur is not None: cur.append(pc)
        if cur: out.append(cur)
        return out
    def words(s, hs):
        return valp([s.sym.hist[h][0] for h in hs])
    def solve(s, q, M, groups=()):
        def goal(C):
            lam = []
            return C.elim_defs(q, lam), lam
        r = s.C.solve(goal, M, groups)
        if isinstance(r, tuple): raise Exception('no certificate: %d terms left' % len(r[1]))
        return r

def L(l): return '['+', '.join(l)+']'
def ops(o):
    if o[0] == 'reg': return '(.reg %s)' % X86[o[1]]
    if o[0] == 'imm': return '(.imm 0x%x)' % o[1] if o[1] > 9 else '(.imm %d)' % o[1]
    if o[0] == 'mem': return '(.mem %s %d)' % (X86[o[1]], o[2])
    return '(.glob %d %d)' % (o[1], o[2])
def poly(p): return '(dd %s)' % L('%d, %d, %d' % (k, p[k] < 0, abs(p[k])) for k in sorted(p))
def lamstr(lam, nf):
    d = {}
    for f, co, c in lam:
        d.setdefault(f, {}); d[f] = add(d[f], {co: c})
    return L('(%d, %s)' % (nf-1-f, poly(q)) for f, q in sorted(d.items()) if q)

def program(name, path, pr, gl, frame, globs, doc):
    out = '/-- %s -/\ndef %sCode : List Instr := [\n' % (doc, name)
    last = None
    for i, (n, m, o) in enumerate(pr):
        if n != last:
            out += '  -- %s:%d\n' % (path, n); last = n
        os_ = []
        for t in o:
            q = operand(t, X86)
            if q[0] == 'glob': q = ('glob', gl[q[1]], q[2])
            os_.append(q)
        if m == 'BTQ': m, os_ = 'BTQ0', os_[1:]
        out += '  %s %s%s\n' % (m, ' '.join(ops(q) for q in os_), '' if i == len(pr)-1 else ',')
    out += '  ]\n\ndef %s : Routine := { code := %sCode, frame := %d, glob := %s }\n\n' % (name, name, frame, globs)
    return out

def cert(name, R, C, zb, scratch, args):
    s = C.s
    nf, nh = len(s.defs), len(s.hist)
    hs = []
    for k, (_, Wd, D, lam) in enumerate(C.hints):
        hs.append('⟨%s, %s, %s⟩' % (L(str(nh-1-w) for w in Wd), poly(D), lamstr(lam, nf+k)))
    out = 'def %s : Cert where\n' % name
    out += '  S := ⟨%s, %s, %s, %d⟩\n' % (L(map(str, R.tops)), L(map(str, R.lens)), L('.num %s' % a[1:] if isinstance(a, str) else '.arr %d' % a for a in args), sum(isinstance(a, str) for a in args))
    ann = lambda x: 'a%d' % x if isinstance(x, int) else 'au %d %d' % (x[1][1]-1-x[1][0], x[1][2]) if x[0] == 'u' else '{ a%d with z := some %s }' % (x[0], lamstr(x[1], x[2]))
    out += '  anns := %s\n' % L(ann(x) for x in s.anns)
    out += '  hints := %s\n' % L(hs)
    out += '  zb := %d\n  scratch := %s\n  keepBP := %s\n\n' % (zb, L(map(str, scratch)), 'true' if R.keepbp else 'false')
    return out

def field(f):
    path = 'p%d/arith_amd64.s' % f
    a = Asm('/repo/dh/sidh/internal/'+path)
    n, p = W[f], P[f]
    Rn = B**n
    mod = '''import Verif.Model.Asm
import Verif.Model.SidhParams
/-
The routines of dh/sidh/internal/%s, one straight-line program for each kind of CPU: what remains of the text after
macro expansion and after following the jumps `CMPB ·HasBMI2(SB), $1; JE` and `CMPB ·HasADXandBMI2(SB), $1; JE`.
Printed by gen/asmgen.py; each comment gives the line of /repo/dh/sidh/internal the instructions below it come from.
-/
namespace Model.Asm%d
open Model Model.Asm

/-- %s:`P%dp1`, an array of 12 words. -/
def p1 : List W64 := Sidh.prime%d.p1 ++ List.replicate %d 0

''' % (path, f, 'p%d/params.go' % f, f, f, 12-n)
    certs = {'mul': '', 'rest': ''}
    table = {}
    for r in OPS:
        nm = '%sP%d' % (r, f)
        fr = a.frames[nm][0]//8
        seen = []
        for c, fl in CPU:
            pr = paths(a.routines[nm], {'HasADXandBMI2': fl[0], 'HasBMI2': fl[1]})
            for cc, q in seen:
                if q == pr: table[r, c] = table[r, cc]; break
            else:
                rn = r if not seen else r+'_'+c
                table[r, c] = rn
                seen.append((c, pr))
                usesg = any('(SB)' in t for _, _, o in pr for t in o)
                gl = {'P%dp1' % f: 2}
                last = max(i for i, _, _ in a.routines[nm]); first = min(i for i, _, _ in a.routines[nm])
                mod += program(rn, path, pr, gl, fr, '[p1]' if usesg else '[]',
                               '%s:%d-%d `%s`%s' % (path, first, last, nm, '' if len(seen) == 1 else ', '+{'bmi2': 'with BMI2', 'adx': 'with BMI2 and ADX'}[c]))
                prog = [x86((m, o), gl) for _, m, o in pr]
                globs = [[((p+1) >> (64*i)) & (B-1) for i in range(12)]] if usesg else []
                for pn, args in PATS[r]:
                    lens = [0]*(max(args)+1)
                    for k, b in enumerate(args): lens[b] = SIZES[r][k]
                    tops = ()
                    if r == 'mul' and f != 434:
                        off = [sum(lens[:i]) for i in range(len(lens))]
                        tops = tuple(sorted({off[args[1]]+n-1, off[args[2]]+n-1}))
                    R = Run(prog, fr, globs, lens, args, tops)
                    no = outwords(f, r)
                    zb = args[0]
                    scratch = R.changed(zb, no)
                    cn = rn+('_'+pn if pn else '')
                    out = R.out(zb, no)
                    nh = len(R.sym.hist)
                    H = lambda hs: L(str(nh-1-h) for h in hs)
                    lm = lambda l: lamstr(l, len(R.C.facts))
                    if r == 'mul':
                        ch = R.chains()
                        lam = R.solve(add(out, mul(R.blk(args[1], n), R.blk(args[2], n)), -1), B**(2*n), [[R.sym.chain[q][0] for q in ch[-1]]])
                        chk = ('mulChk %s %s %d %d %d %s', n, args[1], args[2], lm(lam))
                    elif r == 'rdc':
                        nd = len(R.sym.defs)
                        low = n-nd
                        M = add(R.blk(args[1], low), valp([var(l) for _, l in R.sym.defs]), B**low)
                        def goal(C):
                            lam = []
                            q = add(add(scale(Rn, out), R.blk(args[1], 2*n), -1), M, -p)
                            for j in range(nd):
                                q = add(q, C.facts[j][0], -B**(low+j)); lam.append((j, 0, -B**(low+j)))
                            return q, lam
                        lam = R.C.solve(goal, B**(2*n))
                        assert not isinstance(lam, tuple)
                        chk = ('rdcChk %s %s %d %d %d %s %s', n, p, args[1], poly(M), lm(lam))
                    elif r == 'adl':
                        lam = R.solve(add(out, add(R.blk(args[1], no), R.blk(args[2], no)), -1), B**no)
                        chk = ('adlChk %s %s %d %d %d %s', no, args[1], args[2], lm(lam))
                    else:
                        c0 = R.chains()[-1][:no]
                        dw = [R.sym.chain[q][0] for q in c0]
                        b = var(idx(c0[-1], 0, 1))
                        m = {'add': 2*p, 'sub': 2*p, 'sul': p*Rn, 'mod': p}[r]
                        D = R.words(dw)
                        if r == 'add':
                            # the sum: the first n additions
                            sw = []
                            for pc, ins in enumerate(prog):
                                if ins[0] == 'addc' and len(sw) < n: sw.append(R.sym.chain[pc][0])
                            X = R.words(sw); Y = {0: 2*p}
                            l0 = R.solve(add(X, add(R.blk(args[1], n), R.blk(args[2], n)), -1), Rn)
                        else:
                            X = R.blk(args[-1] if r == 'mod' else args[1], no)
                            Y = {0: p} if r == 'mod' else R.blk(args[2], no)
                        l1 = R.solve(add(add(D, Y), add(X, b, B**no), -1), 0)
                        l2 = R.solve(add(out, add(D, b, m), -1), B**no)
                        if r == 'add': chk = ('addChk %s %s %d %d %d %d %s %s %s %s %s %s', n, p, args[1], args[2], H(sw), H(dw), poly(b), lm(l0), lm(l1), lm(l2))
                        elif r == 'mod': chk = ('modChk %s %s %d %d %d %s %s %s %s', n, p, args[0], H(dw), poly(b), lm(l1), lm(l2))
                        else: chk = ('subChk %s %s %d %d %d %d %s %s %s %s', no, m, args[1], args[2], H(dw), poly(b), lm(l1), lm(l2))
                    ct = cert('C.'+cn, R, R.C, zb, scratch, args)
                    ct += 'theorem %s_ok : %s = true := by decide +kernel\n\n' % (cn, chk[0] % (('Model.Asm%d.%s' % (f, rn), 'C.'+cn)+chk[1:]))
                    certs['mul' if r in ('mul', 'rdc') else 'rest'] += ct
                    print(f, cn, 'bp' if R.keepbp else 'BP LOST', 'scratch', scratch, 'hints', len(R.C.hints), flush=True)
    for r in OPS:
        mod += '/-- The code of `%sP%d` that runs on each kind of CPU. -/\ndef %sOn : Cpu → Routine\n' % (r, f, r)
        for c, _ in CPU: mod += '  | .%s => %s\n' % (c, table[r, c])
        mod += '\n'
    mod += 'end Model.Asm%d\n' % f
    open(ROOT+'/Model/AsmP%d.lean' % f, 'w').write(mod)
    for k, nm, what in [('mul', 'Mul', '`mul` and `rdc`'), ('rest', 'Add', 'additions and subtractions')]:
        t = '''import Verif.Lemmas.AsmFam
import Verif.Model.AsmP%d
/- Certificates for %s of p%d/arith_amd64.s, printed by gen/asmgen.py. -/
set_option maxRecDepth 100000
namespace Lemmas.AsmCert%d
open Model.Asm Lemmas.AsmSym Lemmas.AsmPoly Lemmas.AsmSound Lemmas.AsmCall Lemmas.AsmFam

''' % (f, what, f, f)
        open(ROOT+'/Lemmas/AsmCert%d%s.lean' % (f, nm), 'w').write(t+certs[k]+'end Lemmas.AsmCert%d\n' % f)

if __name__ == '__main__':
    for f in map(int, sys.argv[1:] or ['434', '503', '751']): field(f)
