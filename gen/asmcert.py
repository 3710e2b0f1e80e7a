"""Search for certificates: facts about carries that are always zero, and the final congruence.

A certificate is a list of hints, each adding one polynomial with value 0 to the list of facts (which starts as the list of
definitions of the renamed words), and a list of multipliers for the final check.  Lemmas/AsmCert.lean checks them."""
from asmsym import *

def deg2(k): return k >= 65536
def vars_of(k): return [v for v in (k // 65536, k % 65536) if v]

def isfresh(v): return v >= 8*128

class Cert:
    def __init__(self, s):
        self.s = s
        self.facts = [(d, lead) for d, lead in s.defs]     # index = order of creation
        self.hints = []
        self.chains = False
        self.zero = {}        # carry variable -> index of fact
    def subst_zero(self, p, lam):
        """remove variables known to be zero"""
        changed = True
        while changed:
            changed = False
            for k, c in list(p.items()):
                for v in vars_of(k):
                    if v in self.zero:
                        f = self.zero[v]
                        co = k % 65536 if k // 65536 == v else k // 65536
                        if deg2(k) is False: co = 0
                        d = self.facts[f][0]
                        q = mul({co: c}, d)
                        sgn = d[v]
                        assert sgn in (1, -1) and q is not None
                        p = add(p, q, -sgn)
                        lam.append((f, co, -c*sgn))
                        changed = True
                        break
                if changed: break
        return p
    def word(self, h):
        """polynomial of word h without its renaming, with the multiplier that removes it"""
        r, d = self.s.eff[h]
        return r, d
    def prove_zero(self, c, depth=12, verbose=False):
        """hint that carry variable c is zero"""
        pc, h, sg = self.s.carry[c]
        W = [h]
        # for additions word = t - 2^64 c, for subtractions word = t + 2^64 c
        D = {c: sg}
        for m in range(1, depth + 1):
            T, lam = self.sumT(W, D, m)
            if lo(T) >= 0 and hi(T) < B**m:
                return W, D, lam
            # extend downwards
            best = None
            low = self.s.eff[W[0]][1]
            bad = [k for k, a in T.items() if not deg2(k) and k and isfresh(k) and 0 < abs(a) < B]
            for g in range(W[0]-1, -1, -1):
                r = self.s.eff[g][0]
                if not any(r.get(k, 0) == -B*T[k] for k in bad): continue
                T2, _ = self.sumT([g] + W, D, m+1)
                ok = lo(T2) >= 0 and hi(T2) < B**(m+1)
                sc = (0 if ok else 1, sum(1 for k in bad if k in T2), sum(1 for k in T2 if k and isfresh(k % 65536) and (k % 8 == 1 or k%8 == 2) and not deg2(k)), -g)
                if best is None or sc < best[0]: best = (sc, g)
            if best is None: return None
            W = [best[1]] + W
        return None
    def chain_words(self, c):
        """the words of the carry chain that ends with carry c"""
        pc, h, sg = self.s.carry[c]
        pcs = sorted(q for q in self.s.chain if q <= pc)
        W = []
        while True:
            q = pcs.pop()
            h, cin, kind = self.s.chain[q]
            W = [h] + W
            if self.s.first[q]: return W
    def lows(self, T, h):
        """words before h whose high part occurs in T"""
        bad = [k for k, a in T.items() if k and isfresh(k) and not deg2(k) and 0 < abs(a) < B]
        return bad, [g for g in range(h-1, -1, -1) if any(self.s.eff[g][0].get(k, 0) == -B*T[k] for k in bad)]
    def prove_chain(self, c, depth=4):
        """as prove_zero, from a whole chain of words, replacing some renamed words by their definitions"""
        pc, h, sg = self.s.carry[c]
        D = {c: sg}
        W0 = self.chain_words(c)
        def attempt(W):
            m = len(W)
            T0, lam0 = self.sumT(W, D, m)
            nd = len(self.s.defs)
            for t in range(nd, -1, -1):
                if t < nd and not any(self.facts[t][1] in vars_of(k) for k in T0): continue
                lam = list(lam0)
                T = self.elim_defs(T0, lam, set(range(t, nd)))
                T = self.subst_zero(T, lam)
                if lo(T) >= 0 and hi(T) < B**m: return W, D, lam
            return None
        todo = [W0]
        for _ in range(depth+1):
            new = []
            for W in todo:
                r = attempt(W)
                if r: return r
                T, _ = self.sumT(W, D, len(W))
                bad, gs = self.lows(T, W[0])
                sc = sorted((sum(1 for k in bad if k in self.sumT([g]+W, D, len(W)+1)[0]), -g) for g in gs)
                new += [[-g]+W for _, g in sc[:3]]
            todo = new
        return None
    def sumT(self, W, D, m):
        T = scale(B**m, D)
        lam = []
        for i, h in enumerate(W):
            r, d = self.s.eff[h]
            T = add(T, r, B**i)
            if d is not None: lam.append((d, 0, -B**i))
        T = self.subst_zero(T, lam)
        return T, lam
    def add_rng(self, W, D, lam, lead):
        self.hints.append(('rng', W, D, lam))
        self.facts.append((D, lead))
        return len(self.facts) - 1
    def elim_defs(self, p, lam, only=None):
        """substitute the renamed words by their definitions, newest first"""
        for f in range(len(self.facts)-1, -1, -1):
            d, lead = self.facts[f]
            if only is not None and f not in only: continue
            while True:
                ks = [k for k in p if lead in vars_of(k)]
                if not ks: break
                k = ks[0]
                co = 0 if not deg2(k) else (k % 65536 if k // 65536 == lead else k // 65536)
                q = mul({co: p[k]*d[lead]}, d)
                if q is None: raise Exception('degree')
                lam.append((f, co, -p[k]*d[lead]))
                p = add(p, q, -1)
        return p
    def residual(self, p, M):
        return {k: a for k, a in p.items() if M == 0 or a % M}
    def solve(self, goal, M, groups=(), verbose=False):
        """goal: function (cert) -> (polynomial, lam) to be shown divisible by M"""
        groups = list(groups)
        while True:
            p, lam = goal(self)
            p = self.subst_zero(p, lam)
            r = self.residual(p, M)
            if not r: return lam
            cand = sorted({v for k in r for v in vars_of(k) if v in self.s.carry and v not in self.zero})
            if verbose: print('residual', len(r), 'candidates', len(cand))
            done = False
            for c in cand:
                h = self.prove_zero(c) or (self.chains and self.prove_chain(c))
                if h:
                    f = self.add_rng(h[0], h[1], h[2], c)
                    self.zero[c] = f
                    if verbose: print('  zero', c, 'pc', self.s.carry[c][0], 'words', len(h[0]))
                    done = True
                    break
            if done: continue
            if groups:
                g = groups.pop(0)
                self.group(g, verbose)
                continue
            return ('FAIL', r, cand)
    def group(self, W, verbose=False):
        """fact from the words W (indices into hist): sum = T with T in input words only"""
        m = len(W)
        while True:
            T, lam = self.sumT(W, {}, m)
            T = self.elim_defs(T, lam)
            T = self.subst_zero(T, lam)
            rest = {k: a for k, a in T.items() if any(isfresh(v) for v in vars_of(k))}
            if all(a % B**m == 0 for a in rest.values()): break
            cand = sorted({v for k in rest if rest[k] % B**m for v in vars_of(k) if v in self.s.carry and v not in self.zero})
            for c in cand:
                h = self.prove_zero(c)
                if h:
                    f = self.add_rng(h[0], h[1], h[2], c)
                    self.zero[c] = f
                    if verbose: print('  zero', c, 'pc', self.s.carry[c][0], 'words', len(h[0]))
                    break
            else:
                raise Exception('group: stuck %s' % [(k, vars_of(k), a) for k, a in rest.items() if a % B**m][:6])
        D = {k: -a // B**m for k, a in rest.items()}
        T = add(T, D, B**m)
        assert lo(T) >= 0 and hi(T) < B**m, (lo(T) >= 0, hi(T) / B**m)
        lead = max(k for k in D if not deg2(k) and abs(D[k]) == 1)
        self.add_rng(W, D, lam, lead)
        if verbose: print('  group fact', len(D), 'terms, lead', lead)
