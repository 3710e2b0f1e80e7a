import re
src=open('/repo/hash/sha3/keccakf.go').read().split('\n')
# rc table
rcs=[l.strip().rstrip(',') for l in src if re.match(r'^\s*0x[0-9A-Fa-f]{16},$',l)]
assert len(rcs)==24
rounds=[];cur=None;start=None
for n,l in enumerate(src,1):
    s=l.strip()
    m=re.match(r'// Round (\d)',s)
    if m:
        if cur is not None: rounds.append((start,n-1,cur))
        cur=[];start=n;continue
    if cur is None: continue
    if s=='}':
        rounds.append((start,n-1,cur));cur=None;break
    if s: cur.append(s)
assert len(rounds)==4
def expr(e):
    e=re.sub(r'bits\.RotateLeft64\(([^,]+), (\d+)\)',r'(\1).rotateLeft \2',e)
    e=re.sub(r'a\[(\d+)\]',r'a\1',e)
    e=re.sub(r'rc\[i(\+\d)?\]','rcv',e)
    e=re.sub(r'\((\w+) &\^ (\w+)\)',r'(\1 &&& ~~~\2)',e)
    e=re.sub(r' \^ ',' ^^^ ',e)
    return e
out=[]
out.append('''/-
GENERATED from /repo/hash/sha3/keccakf.go (statement by statement; `a[k] = e` becomes `let ak := e`,
`x &^ y` becomes `x &&& ~~~y`, `bits.RotateLeft64` becomes `rotateLeft`).
-/
namespace Model.Sha3

abbrev W64 := BitVec 64

/-- hash/sha3/keccakf.go:12-37, variable `rc`. -/
def rcTable : List W64 := [
''' + ',\n'.join('  '+r for r in rcs)+']\n')
for k,(s,e,body) in enumerate(rounds):
    # check rc index
    for l in body:
        m=re.search(r'rc\[i(\+(\d))?\]',l)
        if m: assert int(m.group(2) or 0)==k,(l,k)
    out.append(f'/-- hash/sha3/keccakf.go:{s}-{e}, "Round {k+1}" of the unrolled loop body; `rcv` is `rc[i{"+"+str(k) if k else ""}]`. -/')
    out.append(f'def round{k+1} (a : Vector W64 25) (rcv : W64) : Vector W64 25 :=')
    for j in range(25): out.append(f'  let a{j} := a[{j}]')
    for l in body:
        lhs,rhs=l.split(' = ')
        lhs=re.sub(r'a\[(\d+)\]',r'a\1',lhs)
        out.append(f'  let {lhs} := {expr(rhs)}')
    out.append('  #v['+', '.join(f'a{j}' for j in range(25))+']\n')
out.append('''/-- hash/sha3/keccakf.go:46-: one iteration of `for i := 0; i < 24; i += 4`. -/
def rounds4 (a : Vector W64 25) (i : Nat) : Vector W64 25 :=
  round4 (round3 (round2 (round1 a (rcTable.getD i 0)) (rcTable.getD (i + 1) 0))
    (rcTable.getD (i + 2) 0)) (rcTable.getD (i + 3) 0)

/-- hash/sha3/keccakf.go:41-, `keccakF1600`: the loop runs for `i = 0, 4, …, 20`. -/
def keccakF1600 (a : Vector W64 25) : Vector W64 25 :=
  [0, 4, 8, 12, 16, 20].foldl rounds4 a

end Model.Sha3''')
open('/verif/lean/Verif/Model/KeccakGen.lean','w').write('\n'.join(out)+'\n')
