#!/usr/bin/env python3
"""Print lean/Verif/Lemmas/SikeKat.lean: the first test vector of /repo/dh/sidh/testdata/PQCkemKAT_374.rsp (SIKEp434) as literals."""
P = 2**216 * 3**137 - 1
L = open('/repo/dh/sidh/testdata/PQCkemKAT_374.rsp').read().split('\n')
d = {l.split(' = ')[0]: bytes.fromhex(l.split(' = ')[1]) for l in L[3:8]}
S, sk, pk, ct, ss = d['sk'][:16], d['sk'][16:44], d['pk'], d['ct'], d['ss']
# message and scalar of the vector (not in the file), and the j-invariant
m = [207, 146, 151, 212, 60, 62, 118, 58, 27, 150, 214, 88, 66, 142, 195, 86]
j = (22507078063140459729109624066535928449955404568491669170815942328129122687112984345510513235125546738175456178669014901976648838618,
     18482617287451391366310325424172528128296424529826440409993520727610497053960379848244901195071619137056285227982410513906946769272)
import hashlib
r = int.from_bytes(hashlib.shake_256(bytes(m) + pk).digest(28), 'little') % 2**216
r = r.to_bytes(28, 'little')
num = lambda b: [int.from_bytes(b[55*i:55*i+55], 'little') for i in range(6)]
def lst(x):
    x = list(map(str, x)); out = []; row = ''
    for y in x:
        if len(row) + len(y) > 130: out.append(row); row = ''
        row += y + ', '
    out.append(row.rstrip(', '))
    return '[' + '\n  '.join(o.rstrip(' ') for o in out) + ']'
def tri(n): return '⟨(%d,\n   %d),\n  (%d,\n   %d),\n  (%d,\n   %d)⟩' % tuple(n)
print(f'''import Verif.Lemmas.SidhRun
/-
The first test vector of /repo/dh/sidh/testdata/PQCkemKAT_374.rsp (SIKEp434), and the values that occur in its
calculation.  Printed by gen/kat.py.
-/
namespace Lemmas.SikeKat
open Model Model.Sidh Lemmas.SidhRun

/-- the first 16 bytes of sk -/
def S : List Byte := {lst(S)}

/-- the following 28 bytes of sk: the scalar -/
def sk : List Byte := {lst(sk)}

def pk : List Byte := {lst(pk)}

def ct : List Byte := {lst(ct)}

def ss : List Byte := {lst(ss)}

/-- the message -/
def m : List Byte := {lst(m)}

/-- the scalar of the sender -/
def r : List Byte := {lst(r)}

/-- p434 -/
def p : Nat := {P}

/-- the field elements of pk -/
def pkN : Tri N2 := {tri(num(pk))}

/-- the field elements of ct -/
def ctN : Tri N2 := {tri(num(ct))}

/-- the j-invariant -/
def jN : N2 := ({j[0]},
  {j[1]})

end Lemmas.SikeKat''')
