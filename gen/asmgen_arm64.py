"""Prints the routines of dh/sidh/internal/p503/arith_arm64.s and p751/arith_arm64.s as Lean data (Model/AsmArm*.lean) and
certificates for them (Lemmas/AsmCertArm*.lean).  The certificates are checked by the kernel; only the programs are trusted."""
from asmgen import *
from asmarm import *

GLOBS = {503: ['P503', 'P503x2', 'P503p1s8'], 751: ['P751', 'P751x2', 'P751p1']}
LEAN = {'P503': 'p', 'P751': 'p', 'P503x2': 'px2', 'P751x2': 'px2', 'P503p1s8': 'p1s8', 'P751p1': 'p1'}

def opa(o):
    if o[0] == 'reg': return '(.reg A29)' if o[1] == 5 else '(.reg (A %d))' % (o[1]-17)
    if o[0] == 'imm': return '(.imm %d)' % o[1]
    if o[0] == 'mem': return '(.mem %s %d)' % ('FP' if o[1] == 16 else '(A %d)' % (o[1]-17), o[2])
    return '(.glob %d %d)' % (o[1], o[2])

def load(a, nm):
    gn = []
    for _, m, o in a.routines[nm]:
        for t in o:
            g = re.search('·(\\w+)', t)
            if g and g.group(1) not in gn: gn.append(g.group(1))
    gl = {g: 2+i for i, g in enumerate(gn)}
    src = []
    for ln, m, o in a.routines[nm]:
        if m == 'RET': break
        for x in arm(m, o, gl): src.append((ln, x))
    return gn, src

def program(name, path, gn, src, doc):
    out = '/-- %s -/\ndef %sCode : List Instr := [\n' % (doc, name)
    last = None
    for i, (n, (m, o)) in enumerate(src):
        if n != last:
            out += '  -- %s:%d\n' % (path, n); last = n
        out += '  %s %s%s\n' % (m, ' '.join(opa(q) for q in o), '' if i == len(src)-1 else ',')
    return out + '  ]\n\ndef %s : Routine := { code := %sCode, frame := 0, glob := [%s] }\n\n' % (name, name, ', '.join(LEAN[g] for g in gn))

def mul503(R, args, prog, out, H, lm):
    """p503's multiplication: the exact result.  Words: mid = xH*yL + xL*yH + xH*yH (lines 464-474), the product xL*yL, its upper half
    added to the lower half of mid (lines 482-485, carry c), and that minus xH*yH (lines 499-509, borrow b)."""
    h = lambda b, o: valp([var(R.inp(R.off[b]+o+i)) for i in range(4)])
    xl, xh, yl, yh = h(args[1], 0), h(args[1], 4), h(args[2], 0), h(args[2], 4)
    ch = []
    for pc in sorted(R.sym.chain):
        if R.sym.first[pc]: ch.append([])
        ch[-1].append(pc)
    long = [k for k, c in enumerate(ch) if len(c) == 9 and prog[c[0]][0] == 'subc']
    k1, k2 = long
    mw, aw, vw, kw = ch[k1], ch[k1+1], ch[k2], ch[k2+1]
    c, b, k = idx(aw[3], 0, 1), idx(vw[8], 0, 1), idx(kw[0], 0, 1)
    W_ = lambda pcs: [R.sym.chain[q][0] for q in pcs]
    mw, aw, vw = W_(mw), W_(aw[:4]), W_(vw)
    lp = W_(ch[k1-1])
    lw = []
    for q in R.sym.mem[R.base+args[0]][:2]: lw.append(max(i for i in range(mw[0]) if R.sym.hist[i][0] == q))
    lw += lp
    assert len(lw) == 8 and len(vw) == 9
    R.C.add_rng([R.sym.chain[kw[0]][0]], {k: 1, c: -1}, [], k)
    mid, low_, A, V = R.words(mw), R.words(lw), R.words(aw), R.words(vw)
    l1 = R.solve(add(mid, add(add(mul(xh, yl), mul(xl, yh)), mul(xh, yh)), -1), 0)
    l2 = R.solve(add(low_, mul(xl, yl), -1), 0)
    l3 = R.solve(add(add(A, {c: B**4}), add(R.words(mw[:4]), R.words(lw[4:])), -1), 0)
    l4 = R.solve(add(add(add(A, R.words(mw[4:]), B**4), {b: B**9}), add(V, mul(xh, yh)), -1), 0)
    l5 = R.solve(add(out, add(mul(add(xl, xh, B**4), add(yl, yh, B**4)), {b: B**13}), -1), B**16)
    return ('halfChk %s %s %d %d %s %s %s %s %s %s %s %s %s %s %s', args[1], args[2], H(mw), H(lw), H(aw), H(vw), poly(var(c)), poly(var(b)),
            *map(lm, (l1, l2, l3, l4, l5)))

def field(f, only=None):
    path = 'p%d/arith_arm64.s' % f
    a = Asm('/repo/dh/sidh/internal/'+path)
    n, p = W[f], P[f]
    Rn = B**n
    val_ = {'p': p, 'px2': 2*p, 'p1': p+1, 'p1s8': (p+1) << 8}
    mod = '''import Verif.Model.AsmArm64
import Verif.Model.SidhParams
/-
The routines of dh/sidh/internal/%s.  Printed by gen/asmgen_arm64.py; each comment gives the line of /repo/dh/sidh/internal
the instructions below it come from.
-/
namespace Model.Arm%d
open Model Model.Asm

/-- p%d/params.go:`P%d`, an array of 12 words. -/
def p : List W64 := Sidh.prime%d.p ++ List.replicate %d 0

/-- p%d/params.go:`P%dx2` -/
def px2 : List W64 := Sidh.prime%d.px2 ++ List.replicate %d 0

''' % (path, f, f, f, f, 12-n, f, f, f, 12-n)
    if f == 503: mod += '''/-- p503/params.go:48-52 `P503p1s8` -/
def p1s8 : List W64 := [0, 0, 0, 0, 0x085BDA2211E7A0AC, 0x9BF6C87B7E7DAF13, 0x45C6BDDA77A4D01B, 0x4066F541811E1E60] ++ List.replicate 4 0

'''
    else: mod += '''/-- p751/params.go:`P751p1` -/
def p1 : List W64 := Sidh.prime751.p1

'''
    certs = {'mul': '', 'rest': ''}
    for r in ['cswap']+OPS:
        if only and r not in only: continue
        nm = '%sP%d' % (r, f)
        assert a.frames[nm][0] == 0
        gn, src = load(a, nm)
        lines = [i for i, _, _ in a.routines[nm]]
        mod += program(r, path, gn, src, '%s:%d-%d `%s`' % (path, min(lines), max(lines), nm))
        if r == 'cswap': continue
        prog = [low(*x) for _, x in src]
        globs = [[(val_[LEAN[g]] >> (64*i)) & (B-1) for i in range(12)] for g in gn]
        for pn, args in PATS[r]:
            lens = [0]*(max(args)+1)
            for k, b in enumerate(args): lens[b] = SIZES[r][k]
            R = Run(prog, 0, globs, lens, args)
            R.C.chains = True
            no = outwords(f, r)
            zb = args[0]
            scratch = R.changed(zb, no)
            cn = r+('_'+pn if pn else '')
            out = R.out(zb, no)
            nh = len(R.sym.hist)
            H = lambda hs: L(str(nh-1-h) for h in hs)
            lm = lambda l: lamstr(l, len(R.C.facts))
            if r == 'mul':
                if f == 503: chk = mul503(R, args, prog, out, H, lm)
                else:
                    lam = R.solve(add(out, mul(R.blk(args[1], n), R.blk(args[2], n)), -1), B**(2*n))
                    chk = ('mulChk %s %s %d %d %d %s', n, args[1], args[2], lm(lam))
            elif r == 'rdc':
                rn = [j for j, (d, l) in enumerate(R.sym.defs) if l % 8 == 0]
                sh = {j for j, (d, l) in enumerate(R.sym.defs) if l % 8 == 5}
                lo_ = n-len(rn)
                M = add(R.blk(args[1], lo_), valp([var(R.sym.defs[j][1]) for j in rn]), B**lo_)
                def goal(C):
                    lam = []
                    q = add(add(scale(Rn, out), R.blk(args[1], 2*n), -1), M, -p)
                    for i, j in enumerate(rn):
                        q = add(q, C.facts[j][0], -B**(lo_+i)); lam.append((j, 0, -B**(lo_+i)))
                    return C.elim_defs(q, lam, sh), lam
                lam = R.C.solve(goal, B**(2*n))
                assert not isinstance(lam, tuple)
                chk = ('rdcChk %s %s %d %d %d %s %s', n, p, args[1], poly(M), lm(lam))
            elif r == 'adl':
                lam = R.solve(add(out, add(R.blk(args[1], no), R.blk(args[2], no)), -1), B**no)
                chk = ('adlChk %s %s %d %d %d %s', no, args[1], args[2], lm(lam))
            else:
                c0 = [c for c in R.chains() if len(c) >= no][-1][:no]
                dw = [R.sym.chain[q][0] for q in c0]
                b = var(idx(c0[-1], 0, 1))
                m = {'add': 2*p, 'sub': 2*p, 'sul': p*Rn, 'mod': p}[r]
                D = R.words(dw)
                if r == 'add':
                    sw = []
                    for pc, ins in enumerate(prog):
                        if ins[0] == 'addc' and len(sw) < n: sw.append(R.sym.chain[pc][0])
                    X = R.words(sw); Y = {0: 2*p}
                    l0 = R.solve(add(X, add(R.blk(args[1], n), R.blk(args[2], n)), -1), Rn)
                else:
                    X = R.blk(args[-1] if r == 'mod' else args[1], no)
                    Y = {0: p} if r == 'mod' else R.blk(args[2], no)
                l1 = R.solve(add(add(D, Y), add(X, b, B**no), -1), 0)
                l2 = R.solve(add(out, add(D, b, m), -1), B**no)
                if r == 'add': chk = ('addChk %s %s %d %d %d %d %s %s %s %s %s %s', n, p, args[1], args[2], H(sw), H(dw), poly(b), lm(l0), lm(l1), lm(l2))
                elif r == 'mod': chk = ('modChk %s %s %d %d %d %s %s %s %s', n, p, args[0], H(dw), poly(b), lm(l1), lm(l2))
                else: chk = ('subChk %s %s %d %d %d %d %s %s %s %s', no, m, args[1], args[2], H(dw), poly(b), lm(l1), lm(l2))
            ct = cert('C.'+cn, R, R.C, zb, scratch, args)
            ct += 'theorem %s_ok : %s = true := by decide +kernel\n\n' % (cn, chk[0] % (('Model.Arm%d.%s' % (f, r), 'C.'+cn)+chk[1:]))
            certs['mul' if r in ('mul', 'rdc') else 'rest'] += ct
            print(f, cn, 'bp' if R.keepbp else 'BP LOST', 'scratch', scratch, 'hints', len(R.C.hints), flush=True)
    mod += 'end Model.Arm%d\n' % f
    if only: return
    open(ROOT+'/Model/AsmArm%d.lean' % f, 'w').write(mod)
    for k, nm, what in [('mul', 'Mul', '`mul` and `rdc`'), ('rest', 'Add', 'additions and subtractions')]:
        t = '''import Verif.Lemmas.AsmFam%s
import Verif.Model.AsmArm%d
/- Certificates for %s of p%d/arith_arm64.s, printed by gen/asmgen_arm64.py. -/
set_option maxRecDepth 100000
namespace Lemmas.AsmCertArm%d
open Model.Asm Lemmas.AsmSym Lemmas.AsmPoly Lemmas.AsmSound Lemmas.AsmCall Lemmas.AsmFam%s

''' % (('Arm' if f == 503 and k == 'mul' else ''), f, what, f, f, (' Lemmas.AsmFamArm' if f == 503 and k == 'mul' else ''))
        open(ROOT+'/Lemmas/AsmCertArm%d%s.lean' % (f, nm), 'w').write(t+certs[k]+'end Lemmas.AsmCertArm%d\n' % f)

if __name__ == '__main__':
    for f in map(int, sys.argv[1:2] or ['503', '751']): field(f, sys.argv[2:])
