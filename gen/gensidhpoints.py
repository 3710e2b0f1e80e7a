"""Writes lean/Verif/Lemmas/SidhPoints.lean."""
import re
src=open('/verif/lean/Verif/Model/SidhParams.lean').read()
def val(l): return sum(int(x,16)<<(64*i) for i,x in enumerate(l))
def dom(name):
    m=re.search(r'def dom'+name+r' : DomainParams where(.*?)secretByteLen',src,re.S).group(1)
    r=[]
    for k in ('affineP','affineQ','affineR'):
        mm=re.search(k+r' := ⟨\[(.*?)\],\s*\[(.*?)\]⟩',m,re.S)
        r.append(tuple(val([t.strip() for t in g.split(',')]) for g in mm.groups()))
    return r
P={'434':(216,137,7),'503':(250,159,8),'751':(372,239,12)}
def setup(f):
    e2,e3,w=P[f]; p=2**e2*3**e3-1; R=pow(2,64*w,p); Ri=pow(R,-1,p)
    d={}
    for s in 'AB':
        d[s]=[tuple(c*Ri%p for c in x) for x in dom(s+f)]
    return p,e2,e3,d
class F:
    def __init__(s,p):s.p=p
    def add(s,a,b):return((a[0]+b[0])%s.p,(a[1]+b[1])%s.p)
    def sub(s,a,b):return((a[0]-b[0])%s.p,(a[1]-b[1])%s.p)
    def mul(s,a,b):return((a[0]*b[0]-a[1]*b[1])%s.p,(a[0]*b[1]+a[1]*b[0])%s.p)
    def inv(s,a):
        n=pow(a[0]*a[0]+a[1]*a[1],-1,s.p); return(a[0]*n%s.p,-a[1]*n%s.p)
    def sqrt(s,a):
        p=s.p
        def rs(v):
            r=pow(v,(p+1)//4,p); return r if r*r%p==v%p else None
        if a[1]==0:
            r=rs(a[0])
            if r is not None: return (r,0)
            r=rs(-a[0]%p); return (0,r)
        n=rs((a[0]**2+a[1]**2)%p)
        if n is None: return None
        i2=pow(2,-1,p)
        for nn in(n,-n):
            d=(a[0]+nn)*i2%p
            x=rs(d)
            if x: 
                y=a[1]*pow(2*x,-1,p)%p
                assert s.mul((x,y),(x,y))==a
                return(x,y)
        return None
out=['''import Verif.Spec.SidhFp2
/-
Affine coordinates of the starting points of SIDH (params.go holds the x-coordinates in Montgomery form; the
y-coordinates were computed by square roots and are checked in SidhBase).  Generated by gen/gensidhpoints.py.
-/
namespace Lemmas.SidhBase
open Spec.Sidh

/-- a point: x and y, each a pair (re, im) -/
structure Raw where
  x : Nat × Nat
  y : Nat × Nat
''']
D={}
for f in P:
    p,e2,e3,d=setup(f);k=F(p)
    for s in 'AB':
        ys=[]
        for x in d[s][:2]:
            x2=k.mul(x,x); rhs=k.add(k.add(k.mul(x2,x),k.mul((6,0),x2)),x)
            ys.append(k.sqrt(rhs))
        xp,xq,r=d[s]
        def test(yp,yq):
            l=k.mul(k.add(yp,yq),k.inv(k.sub(xp,xq)))
            return k.sub(k.sub(k.sub(k.mul(l,l),(6,0)),xp),xq)
        yp,yq=ys
        if test(yp,yq)!=r: yq=(-yq[0]%p,-yq[1]%p)
        assert test(yp,yq)==r
        D['p'+s,f]=(xp,yp);D['q'+s,f]=(xq,yq);D['r'+s,f]=r
h=lambda a:'(0x%x, 0x%x)'%a
for s in 'AB':
    for n,t in (('p','P'),('q','Q')):
        out.append('/-- `params.%s.Affine%s` -/\ndef %s%s : Fld → Raw'%(s,t,n,s))
        for f in P: out.append('  | .p%s => ⟨%s,\n      %s⟩'%(f,h(D[n+s,f][0]),h(D[n+s,f][1])))
        out.append('')
    out.append('/-- `params.%s.AffineR` -/\ndef r%s : Fld → Nat × Nat'%(s,s))
    for f in P: out.append('  | .p%s => %s'%(f,h(D['r'+s,f])))
    out.append('')
out.append('end Lemmas.SidhBase')
open('/verif/lean/Verif/Lemmas/SidhPoints.lean','w').write('\n'.join(out)+'\n')
