#!/usr/bin/env python3
"""Transcribes dh/sidh/internal/p*/params.go and the p34 tables of fp2.go into Verif/Model/SidhParams.lean."""
import re
R='/repo/dh/sidh/internal/'
out=['''import Verif.Model.SidhFp2
/-
The constants of dh/sidh/internal/{p434,p503,p751}/params.go, transcribed by gen/gensidhparams.py.
Arrays are cut to FpWords words (the remaining ones are zero in the source).
-/
namespace Model.Sidh
open Model
''']
def line(src,i): return src[:i].count('\n')+1
def braces(src,i):
    # i at '{': return body
    d=0
    for j in range(i,len(src)):
        if src[j]=='{': d+=1
        if src[j]=='}':
            d-=1
            if d==0: return src[i+1:j],j
def words(body,n):
    w=[int(x,0) for x in re.findall(r'0x[0-9A-Fa-f]+|\b\d+\b',body)]
    assert n is None or len(w)<=n
    if n: w+= [0]*(n-len(w))
    return w
def lst(w): return '['+', '.join('0x%x'%x for x in w)+']'
def fp2(body,n):
    r={}
    for c in 'AB':
        m=re.search(r'\b%s:\s*common\.Fp\{'%c,body)
        r[c]=words(braces(body,m.end()-1)[0],n) if m else [0]*n
    return '⟨%s,\n    %s⟩'%(lst(r['A']),lst(r['B']))
for p,n in (('434',7),('503',8),('751',12)):
    f='p%s/params.go'%p
    src=open(R+f).read()
    src=re.sub(r'//.*','',src)
    assert re.search(r'FpWords\s*=\s*%d\b'%n,src)
    def fp(name):
        m=re.search(r'\b%s\s*=\s*common\.Fp\{'%name,src)
        b,j=braces(src,m.end()-1)
        return lst(words(b,n)),line(src,m.start()),line(src,j)
    def fp2v(name):
        m=re.search(r'\b%s\s*=\s*common\.Fp2\{'%name,src)
        b,j=braces(src,m.end()-1)
        return fp2(b,n),line(src,m.start()),line(src,j)
    z=re.search(r'P%sp1Zeros\s*=\s*(\d+)'%p,src)
    f2=open(R+'p%s/fp2.go'%p).read()
    def tab(name):
        m=re.search(name+r' := \[\]uint8\{([^}]*)\}',f2)
        return '['+', '.join(str(int(x,0)) for x in m.group(1).split(','))+']'
    im=re.search(r'initialMul := uint8\((\d+)\)',f2).group(1)
    P,l1,_=fp('P'+p); P2,_,_=fp('P%sx2'%p); P1,_,_=fp('P%sp1'%p); R2,_,l2=fp('P%sR2'%p)
    out.append('''/-- %s:%d-%d, %d `P%s`, `P%sx2`, `P%sp1`, `P%sR2`, `P%sp1Zeros` and fp2.go:31-33 the tables of `p34` -/
def prime%s : Prime where
  n := %d
  p := %s
  px2 := %s
  p1 := %s
  r2 := %s
  p1Zeros := %s
  powStrategy := %s
  mulStrategy := %s
  initialMul := %s
'''%(f,l1,l2,line(src,z.start()),p,p,p,p,p,p,n,P,P2,P1,R2,z.group(1),tab('powStrategy'),tab('mulStrategy'),im))
    for nm in ('half','one','six'):
        v,a,b=fp2v(nm)
        out.append('''/-- %s:%d-%d `%s` -/
def %s%s : Fp2 :=
  %s
'''%(f,a,b,nm,nm,p,v))
    m=re.search(r'params = common\.SidhParams\{',src)
    body,j=braces(src,m.end()-1)
    off=m.end()
    def dom(c):
        mm=re.search(r'\b%s: common\.DomainParams\{'%c,body)
        b,k=braces(body,mm.end()-1)
        r={}
        for q in ('P','Q','R'):
            x=re.search(r'Affine%s: common\.Fp2\{'%q,b)
            r[q]=fp2(braces(b,x.end()-1)[0],n)
        sb=re.search(r'SecretBitLen:\s*(\d+)',b).group(1)
        sB=re.search(r'SecretByteLen:\s*(\d+)',b).group(1)
        x=re.search(r'IsogenyStrategy: \[\]uint32\{',b)
        st=words(braces(b,x.end()-1)[0],None)
        out.append('''/-- %s:%d-%d `params.%s` -/
def dom%s%s : DomainParams where
  affineP := %s
  affineQ := %s
  affineR := %s
  isogenyStrategy := %s
  secretBitLen := %s
  secretByteLen := %s
'''%(f,line(src,off+mm.start()),line(src,off+k),c,c,p,r['P'],r['Q'],r['R'],'['+', '.join(map(str,st))+']',sb,sB))
    dom('A'); dom('B')
    def num(k):
        e=re.search(r'\b%s:\s*([0-9 +]+)'%k,body).group(1)
        return str(eval(e))
    ids={'503':0,'751':1,'434':2}
    assert 'common.Fp'+p in body
    assert re.search(r'OneFp2:\s*one,',body) and re.search(r'HalfFp2:\s*half,',body)
    ic=re.search(r'InitCurve: common\.ProjectiveCurveParameters\{\s*A:\s*six,\s*C:\s*one,',body)
    assert ic
    out.append('''/-- %s:%d-%d `params` -/
def params%s : SidhParams where
  id := %d
  prime := prime%s
  bytelen := %s
  publicKeySize := %s
  sharedSecretSize := %s
  A := domA%s
  B := domB%s
  oneFp2 := one%s
  halfFp2 := half%s
  msgLen := %s
  kemSize := %s
  ciphertextSize := %s
  initA := six%s
  initC := one%s
'''%(f,line(src,m.start()),line(src,j),p,ids[p],p,num('Bytelen'),num('PublicKeySize'),num('SharedSecretSize'),p,p,p,p,num('MsgLen'),num('KemSize'),num('CiphertextSize'),p,p))
out.append('end Model.Sidh')
open('/verif/lean/Verif/Model/SidhParams.lean','w').write('\n'.join(out)+'\n')
