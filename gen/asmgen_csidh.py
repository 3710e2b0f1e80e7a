"""Prints the amd64 routines of dh/csidh/fp511_amd64.s as Lean data (Model/AsmCsidh.lean) and certificates for the
multiplications (Lemmas/AsmCertCsidh.lean).  The certificates are checked by the kernel; only the programs are trusted."""
from asmgen import *

PATH = 'dh/csidh/fp511_amd64.s'
Pw = [0x1B81B90533C6C87B, 0xC2721BF457ACA835, 0x516730CC1F0B4F25, 0xA7AAC6C567F35507,
      0x5AFBFCC69322C9CD, 0xB42D083AEDC88C42, 0xFC8AB0D15E3E4C4A, 0x65B48E8F740F89BF]
P = sum(w << (64*i) for i, w in enumerate(Pw))
NINV = (-pow(P, -1, B)) % B

def simd(pr):
    """128-bit instructions as two word instructions"""
    out = []
    X = lambda r, h: ('reg', 17+2*int(r[1:])+h)
    isx = lambda o: re.match(r'^X\d+$', o) is not None
    for n, m, o in pr:
        if m in ('MOVOU', 'MOVO'):
            for h in (0, 1):
                q = []
                for t in o:
                    if isx(t): q.append(X(t, h))
                    else:
                        a = operand(t, X86); q.append(('mem', a[1], a[2]+h))
                out.append((n, 'MOVQ', q))
        elif m in ('PXOR', 'PAND'):
            for h in (0, 1): out.append((n, m+'w', [X(o[0], h), X(o[1], h)]))
        elif m == 'MOVQ' and isx(o[1]):
            out.append((n, 'MOVQ', [operand(o[0], X86), X(o[1], 0)]))
            out.append((n, 'MOVQ', [('imm', 0), X(o[1], 1)]))
        elif m == 'PSHUFD':
            assert o[0] == '$0' and o[1] == o[2]
            # both words are the low half of the low word, twice
            out.append((n, '.dup32', [X(o[1], 0), X(o[1], 1)]))
            out.append((n, '.dup32', [X(o[1], 0), X(o[1], 0)]))
        else:
            out.append((n, m, [operand(t, X86) for t in o]))
    return out

def opx(o):
    if o[0] == 'reg' and o[1] > 16: return '(.reg (%s %d))' % ('XL' if o[1] % 2 else 'XH', (o[1]-17)//2)
    return ops(o)

def swapprog(name, path, pr, frame, doc):
    out = '/-- %s -/\ndef %sCode : List Instr := [\n' % (doc, name)
    last = None
    for i, (n, m, o) in enumerate(pr):
        if n != last:
            out += '  -- %s:%d\n' % (path, n); last = n
        out += '  %s %s%s\n' % (m, ' '.join(opx(q) for q in o), '' if i == len(pr)-1 else ',')
    return out+'  ]\n\ndef %s : Routine := { code := %sCode, frame := %d, glob := [] }\n\n' % (name, name, frame)

def al(o):
    """the byte registers"""
    return 'AX' if o == 'AL' else o

def main():
    a = Asm('/repo/'+PATH)
    mod = '''import Verif.Model.Asm
import Verif.Model.CsidhArith
import Verif.Model.SidhParams
/-
The routines of dh/csidh/fp511_amd64.s and the swaps of dh/sidh/internal/*/arith_amd64.s as straight-line programs: what
remains of the text after macro expansion and, in `mul512`, after following the jump `CMPB ·hasBMI2(SB), $1; JE`.
Printed by gen/asmgen_csidh.py; each comment gives the line of /repo the instructions below it come from.
-/
namespace Model.AsmCsidh
open Model Model.Asm

'''
    certs = '''import Verif.Lemmas.AsmFamCsidh
import Verif.Model.AsmCsidh
/- Certificates for the multiplications of dh/csidh/fp511_amd64.s, printed by gen/asmgen_csidh.py. -/
set_option maxRecDepth 100000
namespace Lemmas.AsmCertCsidh
open Model.Asm Lemmas.AsmSym Lemmas.AsmPoly Lemmas.AsmSound Lemmas.AsmCall Lemmas.AsmFam Lemmas.AsmFamCsidh

'''
    gl = {'p': 2, 'pNegInv': 3}
    globs = [Pw, [NINV]+[0]*7]
    for nm, rn, fl, lens0, pats in [
        ('mul512', 'mul512', 0, (8, 8), [('', (0, 1, 'n0')), ('zx', (0, 0, 'n0'))]),
        ('mul512', 'mul512_bmi2', 1, (8, 8), [('', (0, 1, 'n0')), ('zx', (0, 0, 'n0'))]),
        ('mul576', 'mul576', 0, (9, 8), [('', (0, 1, 'n0'))]),
        ('mulBmiAsm', 'mulBmi', 0, (8, 8, 8), PAT3)]:
        rs = a.routines[nm]
        pr = paths(rs, {'hasBMI2': fl})
        fr = a.frames[nm][0]//8
        usesg = nm == 'mulBmiAsm'
        first, last = min(i for i, _, _ in rs), max(i for i, _, _ in rs)
        mod += program(rn, PATH, pr, gl, fr, '[Csidh.p, Csidh.pNegInv]' if usesg else '[]',
            '%s:%d-%d `%s`%s' % (PATH, first, last, nm, ', with BMI2' if fl else ''))
        prog = [x86((m, o), gl) for _, m, o in pr]
        for pn, args in pats:
            na = [x for x in args if not isinstance(x, str)]
            lens = [0]*(max(na)+1)
            for k, b in enumerate(na): lens[b] = lens0[k]
            cn = rn+('_'+pn if pn else '')
            if nm != 'mulBmiAsm':
                R = Run(prog, fr, [], lens, args)
                n = lens0[0]
                out = R.out(args[0], n)
                c = var(R.inp(sum(lens)+2))
                lam = R.solve(add(out, mul(R.blk(args[1], 8), c), -1), B**n)
                chk = 'mul1Chk Model.AsmCsidh.%s C.%s %d %d %s' % (rn, cn, n, args[1], lamstr(lam, len(R.C.facts)))
            else:
                # rounds: positions of the two products with pNegInv, and of the last additions to each register
                ninv = [i for i, ins in enumerate(prog) if ins[0] == 'mulw' and ins[3] == ('glob', 3, 0)]
                assert len(ninv) == 8
                ends = ninv[1:]+[len(prog)]
                zeros, rename, rounds = [], [], []
                for i, q in enumerate(ninv):
                    seg = range(q, ends[i])
                    regs = [('reg', r) for r in [8, 9, 10, 11, 12, 13, 14, 15, 5]]
                    regs = regs[i:]+regs[:i]
                    lastw = []
                    for r in regs:
                        lastw.append(max(pc for pc in seg if prog[pc][0] == 'addc' and prog[pc][-1] == r))
                    zeros.append(lastw[0])
                    rename += lastw[1:]+[q, q-1]
                    rounds.append((q, lastw))
                R = Run(prog, fr, globs, lens, args, (), zeros, rename)
                n = 8
                out = R.out(args[0], n)
                S = {}
                rs_ = []
                hist = {pc: h for h, (_, pc) in enumerate(R.sym.hist)}
                dpos = {lead: f for f, (_, lead) in enumerate(R.sym.defs) if lead}
                nh, nf = len(R.sym.hist), len(R.sym.defs)
                for i, (q, lw) in enumerate(rounds):
                    hs = [hist[pc] for pc in lw[1:]]
                    S2 = valp([R.sym.hist[h][0] for h in hs])
                    qp = R.sym.hist[hist[q]][0]
                    goal = add(scale(B, S2), S, -1)
                    goal = add(goal, mul(var(R.inp(R.off[args[1]]+i)), R.blk(args[2], 8)), -1)
                    goal = add(goal, qp, -P)
                    lam = [(R.sym.zeros[lw[0]], 0, 1)]
                    g = add(goal, R.sym.defs[R.sym.zeros[lw[0]]][0])
                    for k, pc in enumerate(lw[1:], 1):
                        f = dpos[idx(pc, 1, 0)]
                        lam.append((f, 0, -B**k))
                        g = add(g, R.sym.defs[f][0], -B**k)
                    bad = {k: x for k, x in g.items() if x % B**9}
                    assert not bad, (i, len(bad))
                    rs_.append('⟨%s, %d, %s⟩' % (L(str(nh-1-h) for h in hs), nh-1-hist[q], lamstr(lam, nf)))
                    S = S2
                assert out == S
                chk = 'mulBmiChk Model.AsmCsidh.%s C.%s %d %d %s' % (rn, cn, args[1], args[2], L(rs_))
            scratch = R.changed(args[0], n)
            assert scratch == [] and not R.C.hints
            certs += cert('C.'+cn, R, R.C, args[0], scratch, args)
            certs += 'theorem %s_ok : %s = true := by decide +kernel\n\n' % (cn, chk)
            print(cn, 'bp' if R.keepbp else 'BP LOST')
    mod += '/-- The code of `mul512` that runs on each kind of CPU. -/\ndef mul512On : Cpu → Routine\n  | .base => mul512\n  | _ => mul512_bmi2\n\n'
    rs = a.routines['cswap512']
    mod += swapprog('cswap512', PATH, simd(paths(rs, {})), 0, '%s:%d-%d `cswap512`' % (PATH, min(i for i, _, _ in rs), max(i for i, _, _ in rs)))
    for f in W:
        pth = 'dh/sidh/internal/p%d/arith_amd64.s' % f
        b = Asm('/repo/'+pth)
        rs = b.routines['cswapP%d' % f]
        pr = [(n, m, [operand(al(t), X86) for t in o]) for n, m, o in paths(rs, {})]
        mod += swapprog('cswapP%d' % f, pth, pr, b.frames['cswapP%d' % f][0]//8, '%s:%d-%d `cswapP%d`' % (pth, min(i for i, _, _ in rs), max(i for i, _, _ in rs), f))
    mod += 'end Model.AsmCsidh\n'
    open(ROOT+'/Model/AsmCsidh.lean', 'w').write(mod)
    open(ROOT+'/Lemmas/AsmCertCsidh.lean', 'w').write(certs+'end Lemmas.AsmCertCsidh\n')

if __name__ == '__main__': main()
