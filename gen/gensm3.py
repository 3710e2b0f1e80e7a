#!/usr/bin/env python3
"""Generate lean/Verif/Model/SM3Gen.lean: the straight-line body of compress, hash/sm3/compress.go:119-234."""
import re
src = open('/repo/hash/sm3/compress.go').read().split('\n')
start = next(i for i, l in enumerate(src) if l.strip().startswith('r1(A'))
end = next(i for i, l in enumerate(src) if l.strip().startswith('d.h[0] ^= A'))
out = []
R = {c: i for i, c in enumerate('ABCDEFGH')}
for n in range(start, end):
    l = src[n].strip()
    if not l: continue
    m = re.fullmatch(r'(r[12])\((\w), &(\w), (\w), &(\w), (\w), &(\w), (\w), &(\w), (0x[0-9A-F]+), W(\d\d), W(\d\d)\^W(\d\d)\)', l)
    if m:
        g = m.groups()
        out.append('.%s %s %s %s %s %s' % (g[0], ' '.join(str(R[x]) for x in g[1:9]), g[9], int(g[10]), int(g[11]), int(g[12])))
        continue
    m = re.fullmatch(r'W(\d\d) = sm3e\(W(\d\d), W(\d\d), W(\d\d), W(\d\d), W(\d\d)\)', l)
    assert m, l
    out.append('.sm3e ' + ' '.join(str(int(x)) for x in m.groups()))
body = ',\n  '.join(out)
open('/verif/lean/Verif/Model/SM3Gen.lean', 'w').write(f'''import Verif.Model.SM3Ins
/- Generated by gen/gensm3.py from hash/sm3/compress.go:{start+1}-{end}; one instruction per line. -/
namespace Model.SM3

def prog : List Ins := [
  {body}]

end Model.SM3
''')
print(start+1, end, len(out))
