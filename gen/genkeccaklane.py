import re
exec(open('/tmp/genkeccak.py').read().split("def expr")[0])
sig=[list(range(25))]
for s,e,b in rounds:
    st=[]
    for l in b:
        m=re.match(r'a\[(\d+)\] = (bc.) \^',l)
        if m: st.append(int(m.group(1)))
    sig.append(st)
print(sig)
def cases(k):
    r=[]
    for x in range(5):
        l=' ^^^ '.join('a[%d]'%sig[k][5*y+x] for y in range(5))
        rr=' ^^^ '.join('a[%d]'%(5*y+x) for y in range(5))
        r.append('  | %d => show %s = %s; ac_rfl'%(x,l,rr))
    return '\n'.join(r)
o='''import Verif.Model.KeccakGen
import Verif.Spec.Keccak
/-! Lane-level form of the round and its equality with the generated unrolled code. -/
namespace Lemmas.Keccak
open Model.Sha3

abbrev Lanes := Fin 5 → Fin 5 → W64

/-- The column parities. -/
def par (L : Lanes) (x : Fin 5) : W64 := L x 0 ^^^ L x 1 ^^^ L x 2 ^^^ L x 3 ^^^ L x 4

/-- rho offsets of lane (x,y). -/
def off (x y : Fin 5) : Nat := Spec.Keccak.rhoOffset x y % 64

/-- Rotation, with the zero rotation made syntactically trivial. -/
def rotl (w : W64) : Nat → W64
  | 0 => w
  | n + 1 => w.rotateLeft (n + 1)

/-- Everything of a round after the column parities `C`. -/
def step (C : Fin 5 → W64) (L : Lanes) (rc : W64) : Lanes :=
  let D : Fin 5 → W64 := fun x => C (x - 1) ^^^ (C (x + 1)).rotateLeft 1
  let T : Lanes := fun x y => L x y ^^^ D x
  let B : Lanes := fun x y => rotl (T (x + 3 * y) x) (off (x + 3 * y) x)
  let X : Lanes := fun x y => B x y ^^^ (B (x + 2) y &&& ~~~ B (x + 1) y)
  fun x y => if x = 0 ∧ y = 0 then X x y ^^^ rc else X x y

def laneRnd (L : Lanes) (rc : W64) : Lanes := step (par L) L rc

'''
for k in range(5):
    o+=f'def sig{k} : Vector (Fin 25) 25 := #v['+', '.join(map(str,sig[k]))+']\n'
o+='''
/-- Lanes of an array stored in the order `σ`. -/
def view (σ : Vector (Fin 25) 25) (a : Vector W64 25) : Lanes :=
  fun x y => a[σ[5 * y.val + x.val]]

'''
for k in range(1,5):
    o+=f'''theorem parity{k} (a : Vector W64 25) (x : Fin 5) :
    par (view sig{k-1} a) x = a[x.val] ^^^ a[x.val+5] ^^^ a[x.val+10] ^^^ a[x.val+15] ^^^ a[x.val+20] := by
  match x with
{cases(k-1)}

theorem round{k}_step (a : Vector W64 25) (rc : W64) :
    view sig{k} (round{k} a rc) =
      step (fun x => a[x.val] ^^^ a[x.val+5] ^^^ a[x.val+10] ^^^ a[x.val+15] ^^^ a[x.val+20]) (view sig{k-1} a) rc := by
  funext x y
  match x, y with
'''
    for x in range(5):
        for y in range(5):
            o+=f'  | {x}, {y} => rfl\n'
    o+=f'''
theorem round{k}_lane (a : Vector W64 25) (rc : W64) :
    view sig{k} (round{k} a rc) = laneRnd (view sig{k-1} a) rc := by
  rw [round{k}_step, laneRnd]; congr 1; funext x; rw [parity{k}]

'''
o+='end Lemmas.Keccak\n'
open('/verif/lean/Verif/Lemmas/KeccakLane.lean','w').write(o)
