"""Symbolic execution of the routines (the same computation as Lemmas/AsmSym.lean) and search for the facts about carries
that the certificates in Lemmas/Asm*.lean contain."""
from asmparse import *

B = 2**64
def bndv(n):
    if n == 0: return 1
    return [B-1, 1, B-2, 2**56-1, 2**63-1, 255, 0, 0][n % 8]
def mbnd(k): return bndv(k // 65536) * bndv(k % 65536)
def idx(pc, slot, kind): return 8*(128 + 2*pc + slot) + kind
def inp(i, kind=0): return 8*(i+1) + kind

def add(p, q, c=1):
    r = dict(p)
    for k, a in q.items():
        s = r.get(k, 0) + c*a
        if s: r[k] = s
        else: r.pop(k, None)
    return r
def scale(c, p): return {k: c*a for k, a in p.items()} if c else {}
def mmul(k, l):
    if k == 0: return l
    if l == 0: return k
    if k >= 65536 or l >= 65536: return None
    return min(k, l)*65536 + max(k, l)
def mul(p, q):
    r = {}
    for k, a in p.items():
        for l, b in q.items():
            m = mmul(k, l)
            if m is None: return None
            s = r.get(m, 0) + a*b
            if s: r[m] = s
            else: r.pop(m, None)
    return r
def hi(p): return sum(c if k == 0 else max(c, 0)*mbnd(k) for k, c in p.items())
def lo(p): return sum(c if k == 0 else min(c, 0)*mbnd(k) for k, c in p.items())
def isbit(p): return lo(p) >= 0 and hi(p) <= 1
def var(n): return {n: 1}
def compl(p): return add({0: 1}, p, -1)

class Stuck(Exception): pass

class Rename(Exception): pass

class Sym:
    """mem: list of blocks of values; a value is None, ('ptr', b) or a dict (polynomial)."""
    def __init__(self, nreg, mem, regs):
        self.reg = [None]*nreg
        for r, v in regs.items(): self.reg[r] = v
        self.cf = self.of = None
        self.mem = [list(b) for b in mem]
        self.prov = {}       # location -> pc of the instruction that produced its polynomial
        self.hist = []       # (poly, pc)
        self.defs = []       # (poly, lead)
        self.carry = {}      # carry variable -> (pc, index into hist of the word, sign)
        self.first = {}      # pc -> does it start a chain
        self.chain = {}      # pc -> (index into hist, carry-in polynomial, kind)
        self.anns = []
        self.prods = {}      # polynomial of a product -> (index into hist, variable of its high word)
        self.zeros = {}      # pc -> index into defs of the polynomial found to be zero
        self.eff = {}        # index into hist -> (poly without the renaming, index into defs or None)
    def loc(self, o):
        if o[0] == 'reg': return ('r', o[1])
        if o[0] == 'mem':
            p = self.reg[o[1]]
            if not (isinstance(p, tuple) and p[0] == 'ptr'): raise Stuck('not a pointer %s' % (o,))
            b = p[1]
        else: b = o[1]
        if not (0 <= o[2] < len(self.mem[b])): raise Stuck('outside block %d: %d' % (b, o[2]))
        return ('m', b, o[2])
    def rd(self, o):
        if o[0] == 'imm': return {0: o[1]} if o[1] else {}
        l = self.loc(o)
        return self.reg[l[1]] if l[0] == 'r' else self.mem[l[1]][l[2]]
    def rdp(self, o):
        v = self.rd(o)
        if not isinstance(v, dict): raise Stuck('not a number: %s' % (o,))
        return v
    def wr(self, o, v, prov=None):
        l = self.loc(o)
        if l[0] == 'r': self.reg[l[1]] = v
        else: self.mem[l[1]][l[2]] = v
        self.prov[l] = prov
    def getprov(self, o):
        return None if o[0] == 'imm' else self.prov.get(self.loc(o))
    def res(self, pc, rn, d, r):
        if rn:
            v = idx(pc, 1, 0)
            self.wr(d, var(v), pc)
            self.defs.append((add(var(v), r, -1), v))
            self.hist.append((var(v), pc))
            self.eff[len(self.hist)-1] = (r, len(self.defs)-1)
        else:
            self.wr(d, r, pc)
            self.hist.append((r, pc))
            self.eff[len(self.hist)-1] = (r, None)
    def mulop(self, *os):
        for o in os:
            if len(self.rdp(o)) > 1: raise Rename(self.getprov(o))
    def cin(self, ci):
        c = {} if ci == 'no' else (self.cf if ci == 'cf' else self.of)
        if c is None: raise Stuck('flag %s' % ci)
        return c
    def cout(self, co, c):
        if co == 'both': self.cf, self.of = c, None
        if co == 'cf': self.cf = c
        if co == 'of': self.of = c
    def step(self, pc, ins, rn, zero=None):
        op = ins[0]
        nc = False
        reuse = None
        if op == 'mov':
            v = self.rd(ins[1])
            self.wr(ins[2], v, self.getprov(ins[1]))
        elif op == 'addc':
            _, ci, co, a, b, d = ins
            cin = self.cin(ci)
            t = add(add(self.rdp(a), self.rdp(b)), cin)
            if hi(t) <= B-1 and lo(t) >= 0:
                nc = True
                self.res(pc, rn, d, t); self.cout(co, {})
            else:
                c = idx(pc, 0, 1)
                self.res(pc, rn, d, add(t, {c: -B})); self.cout(co, var(c))
                self.carry[c] = (pc, len(self.hist)-1, 1)
            self.chain[pc] = (len(self.hist)-1, cin, 'add')
            self.first[pc] = ci == 'no'
        elif op == 'subc':
            _, inv, ci, co, a, b, d = ins
            cin = self.cin(ci)
            bo = {} if ci == 'no' else (compl(cin) if inv else cin)
            x = self.rdp(a)
            t = add(self.rdp(b), bo)
            out = lambda q: compl(q) if inv else q
            if not x and isbit(t):
                nc = True
                self.res(pc, rn, d, scale(B-1, t)); self.cout(co, out(t))
            else:
                c = idx(pc, 0, 1)
                self.res(pc, rn, d, add(add(x, t, -1), {c: B})); self.cout(co, out(var(c)))
                self.carry[c] = (pc, len(self.hist)-1, -1)
            self.chain[pc] = (len(self.hist)-1, cin, 'sub')
            self.first[pc] = ci == 'no'
        elif op in ('mulw', 'mullo', 'mulhi'):
            a, b = (ins[2], ins[3]) if op == 'mulw' else (ins[1], ins[2])
            self.mulop(a, b)
            t = mul(self.rdp(a), self.rdp(b))
            h = idx(pc, 0, 2)
            if op == 'mulw':
                self.res(pc, rn, ins[4], add(t, {h: -B}))
                self.wr(ins[5], var(h), None)
                if ins[1]: self.cf = self.of = None
            elif frozenset(t.items()) in self.prods:
                # the other word of a product computed before: the same variable
                assert not rn
                j, h = self.prods[frozenset(t.items())]
                reuse = (j, len(self.hist), h)
                if op == 'mullo':
                    self.res(pc, rn, ins[3], add(t, {h: -B}))
                else: self.wr(ins[3], var(h), None)
            elif op == 'mullo':
                self.res(pc, rn, ins[3], add(t, {h: -B}))
                if not rn: self.prods[frozenset(t.items())] = (len(self.hist)-1, h)
            else:
                self.prods[frozenset(t.items())] = (len(self.hist), h)
                self.wr(ins[3], var(h), None)
                self.hist.append((add(t, {h: -B}), pc))
                self.eff[len(self.hist)-1] = (self.hist[-1][0], None)
        elif op == 'xor':
            _, fl, a, b, d = ins
            if not (fl and a == b): raise Stuck('xor')
            self.wr(d, {}, None); self.cf = {}; self.of = {}
        elif op == 'and':
            _, fl, a, b, d = ins
            x, y = self.rdp(a), self.rdp(b)
            px, py = a, b
            if list(y.values()) == [B-1] and list(x.values()) != [B-1]:
                raise Stuck('mask second')
            if not x or not y: t = {}
            elif list(x.values()) == [B-1] and isbit(scale(1, {k: 1 for k in x})):
                if len(y) > 1: raise Rename(self.getprov(b))
                t = mul({k: 1 for k in x}, y)
            elif isbit(x) and isbit(y): t = mul(x, y)
            else: raise Stuck('and %s %s' % (x, y))
            self.wr(d, t, None)
            if fl: self.cf = {}; self.of = {}
        elif op == 'bt0':
            x = self.rdp(ins[1])
            if not isbit(x): raise Stuck('bt')
            self.cf, self.of = x, None
        elif op == 'orshr':
            # the upper 56 bits and the lower byte of b become variables
            _, n, b, a, d = ins
            y, x = self.rdp(b), self.rdp(a)
            h, l = idx(pc, 0, 3), idx(pc, 1, 5)
            if n != 8 or any(c % 2**56 for c in x.values()): raise Stuck('orshr')
            q = {h: 256, l: 1}
            self.wr(b, q, None)
            self.wr(d, add(x, var(h)), None)
            self.defs.append((add(y, q, -1), l))
            self.hist.append((add(x, var(h)), pc))
            self.eff[len(self.hist)-1] = (self.hist[-1][0], None)
        elif op == 'shl':
            _, n, a, d = ins
            t = {k: c << n for k, c in self.rdp(a).items() if (c << n) % B}
            if not (lo(t) >= 0 and hi(t) <= B-1): raise Stuck('shl')
            self.wr(d, t, None)
        else: raise Stuck(op)
        self.anns.append((1 if nc else 0) + (2 if rn else 0) if reuse is None else ('u', reuse))
        if zero is not None:
            # the result is 0: its polynomial plus combinations of defs is divisible by 2^64
            d = ins[-1]
            r = p = self.rdp(d)
            lam = []
            while any(a % B for a in p.values()):
                fs = [f for f, (q, lead) in enumerate(self.defs) if lead and any(lead in (k // 65536, k % 65536) and a % B for k, a in p.items())]
                if not fs: raise Stuck('not zero')
                f = max(fs)
                q, lead = self.defs[f]
                k = [k for k, a in p.items() if lead in (k // 65536, k % 65536) and a % B][0]
                co = 0 if k < 65536 else (k % 65536 if k // 65536 == lead else k // 65536)
                lam.append((f, co, -p[k]))
                p = add(p, mul({co: p[k]}, q), -1)
            self.anns[-1] = (self.anns[-1], lam, len(self.defs))
            self.defs.append((r, None))
            self.zeros[pc] = len(self.defs)-1
            self.wr(d, {}, None)

def execute(nreg, prog, mem, regs, zeros=(), rename=()):
    """run with renaming on demand"""
    rn = set(rename)
    while True:
        s = Sym(nreg, mem, regs)
        try:
            for pc, ins in enumerate(prog):
                s.step(pc, ins, pc in rn, True if pc in zeros else None)
            return s, rn
        except Rename as e:
            if e.args[0] is None: raise Stuck('cannot rename at %d' % pc)
            rn.add(e.args[0])
        except Stuck as e:
            raise Stuck('%d: %s: %s' % (pc, prog[pc], e))

def x86(ops, gl):
    """the instruction of Model.Asm for an amd64 instruction; gl: name of global -> block"""
    m = ops[0]
    o = []
    for t in ops[1]:
        q = operand(t, X86)
        if q[0] == 'glob': q = ('glob', gl[q[1]], q[2])
        o.append(q)
    AX, DX = ('reg', 0), ('reg', 2)
    if m == 'MOVQ': return ('mov', o[0], o[1])
    if m == 'ADDQ': return ('addc', 'no', 'both', o[0], o[1], o[1])
    if m == 'ADCQ': return ('addc', 'cf', 'both', o[0], o[1], o[1])
    if m == 'ADCXQ': return ('addc', 'cf', 'cf', o[0], o[1], o[1])
    if m == 'ADOXQ': return ('addc', 'of', 'of', o[0], o[1], o[1])
    if m == 'SUBQ': return ('subc', False, 'no', 'both', o[1], o[0], o[1])
    if m == 'SBBQ': return ('subc', False, 'cf', 'both', o[1], o[0], o[1])
    if m == 'MULQ': return ('mulw', True, AX, o[0], AX, DX)
    if m == 'MULXQ': return ('mulw', False, DX, o[0], o[1], o[2])
    if m == 'XORQ': return ('xor', True, o[0], o[1], o[1])
    if m == 'ANDQ': return ('and', True, o[0], o[1], o[1])
    if m == 'BTQ': return ('bt0', o[1])
    raise Exception(m)
