import Verif.Model.KeccakGen
import Verif.Spec.Keccak
/-! Lane-level form of the round and its equality with the generated unrolled code. -/
namespace Lemmas.Keccak
open Model Model.Sha3

abbrev Lanes := Fin 5 → Fin 5 → W64

/-- The column parities. -/
def par (L : Lanes) (x : Fin 5) : W64 := L x 0 ^^^ L x 1 ^^^ L x 2 ^^^ L x 3 ^^^ L x 4

/-- rho offsets of lane (x,y). -/
def off (x y : Fin 5) : Nat := Spec.Keccak.rhoOffset x y % 64

/-- Rotation, with the zero rotation made syntactically trivial. -/
def rotl (w : W64) : Nat → W64
  | 0 => w
  | n + 1 => w.rotateLeft (n + 1)

/-- Everything of a round after the column parities `C`. -/
def step (C : Fin 5 → W64) (L : Lanes) (rc : W64) : Lanes :=
  let D : Fin 5 → W64 := fun x => C (x - 1) ^^^ (C (x + 1)).rotateLeft 1
  let T : Lanes := fun x y => L x y ^^^ D x
  let B : Lanes := fun x y => rotl (T (x + 3 * y) x) (off (x + 3 * y) x)
  let X : Lanes := fun x y => B x y ^^^ (B (x + 2) y &&& ~~~ B (x + 1) y)
  fun x y => if x = 0 ∧ y = 0 then X x y ^^^ rc else X x y

def laneRnd (L : Lanes) (rc : W64) : Lanes := step (par L) L rc

def sig0 : Vector (Fin 25) 25 := #v[0, 1, 2, 3, 4, 5, 6, 7, 8, 9, 10, 11, 12, 13, 14, 15, 16, 17, 18, 19, 20, 21, 22, 23, 24]
def sig1 : Vector (Fin 25) 25 := #v[0, 6, 12, 18, 24, 10, 16, 22, 3, 9, 20, 1, 7, 13, 19, 5, 11, 17, 23, 4, 15, 21, 2, 8, 14]
def sig2 : Vector (Fin 25) 25 := #v[0, 16, 7, 23, 14, 20, 11, 2, 18, 9, 15, 6, 22, 13, 4, 10, 1, 17, 8, 24, 5, 21, 12, 3, 19]
def sig3 : Vector (Fin 25) 25 := #v[0, 11, 22, 8, 19, 15, 1, 12, 23, 9, 5, 16, 2, 13, 24, 20, 6, 17, 3, 14, 10, 21, 7, 18, 4]
def sig4 : Vector (Fin 25) 25 := #v[0, 1, 2, 3, 4, 5, 6, 7, 8, 9, 10, 11, 12, 13, 14, 15, 16, 17, 18, 19, 20, 21, 22, 23, 24]

/-- Lanes of an array stored in the order `σ`. -/
def view (σ : Vector (Fin 25) 25) (a : Vector W64 25) : Lanes :=
  fun x y => a[σ[5 * y.val + x.val]]

theorem parity1 (a : Vector W64 25) (x : Fin 5) :
    par (view sig0 a) x = a[x.val] ^^^ a[x.val+5] ^^^ a[x.val+10] ^^^ a[x.val+15] ^^^ a[x.val+20] := by
  match x with
  | 0 => show a[0] ^^^ a[5] ^^^ a[10] ^^^ a[15] ^^^ a[20] = a[0] ^^^ a[5] ^^^ a[10] ^^^ a[15] ^^^ a[20]; ac_rfl
  | 1 => show a[1] ^^^ a[6] ^^^ a[11] ^^^ a[16] ^^^ a[21] = a[1] ^^^ a[6] ^^^ a[11] ^^^ a[16] ^^^ a[21]; ac_rfl
  | 2 => show a[2] ^^^ a[7] ^^^ a[12] ^^^ a[17] ^^^ a[22] = a[2] ^^^ a[7] ^^^ a[12] ^^^ a[17] ^^^ a[22]; ac_rfl
  | 3 => show a[3] ^^^ a[8] ^^^ a[13] ^^^ a[18] ^^^ a[23] = a[3] ^^^ a[8] ^^^ a[13] ^^^ a[18] ^^^ a[23]; ac_rfl
  | 4 => show a[4] ^^^ a[9] ^^^ a[14] ^^^ a[19] ^^^ a[24] = a[4] ^^^ a[9] ^^^ a[14] ^^^ a[19] ^^^ a[24]; ac_rfl

theorem round1_step (a : Vector W64 25) (rc : W64) :
    view sig1 (round1 a rc) =
      step (fun x => a[x.val] ^^^ a[x.val+5] ^^^ a[x.val+10] ^^^ a[x.val+15] ^^^ a[x.val+20]) (view sig0 a) rc := by
  funext x y
  match x, y with
  | 0, 0 => rfl
  | 0, 1 => rfl
  | 0, 2 => rfl
  | 0, 3 => rfl
  | 0, 4 => rfl
  | 1, 0 => rfl
  | 1, 1 => rfl
  | 1, 2 => rfl
  | 1, 3 => rfl
  | 1, 4 => rfl
  | 2, 0 => rfl
  | 2, 1 => rfl
  | 2, 2 => rfl
  | 2, 3 => rfl
  | 2, 4 => rfl
  | 3, 0 => rfl
  | 3, 1 => rfl
  | 3, 2 => rfl
  | 3, 3 => rfl
  | 3, 4 => rfl
  | 4, 0 => rfl
  | 4, 1 => rfl
  | 4, 2 => rfl
  | 4, 3 => rfl
  | 4, 4 => rfl

theorem round1_lane (a : Vector W64 25) (rc : W64) :
    view sig1 (round1 a rc) = laneRnd (view sig0 a) rc := by
  rw [round1_step, laneRnd]; congr 1; funext x; rw [parity1]

theorem parity2 (a : Vector W64 25) (x : Fin 5) :
    par (view sig1 a) x = a[x.val] ^^^ a[x.val+5] ^^^ a[x.val+10] ^^^ a[x.val+15] ^^^ a[x.val+20] := by
  match x with
  | 0 => show a[0] ^^^ a[10] ^^^ a[20] ^^^ a[5] ^^^ a[15] = a[0] ^^^ a[5] ^^^ a[10] ^^^ a[15] ^^^ a[20]; ac_rfl
  | 1 => show a[6] ^^^ a[16] ^^^ a[1] ^^^ a[11] ^^^ a[21] = a[1] ^^^ a[6] ^^^ a[11] ^^^ a[16] ^^^ a[21]; ac_rfl
  | 2 => show a[12] ^^^ a[22] ^^^ a[7] ^^^ a[17] ^^^ a[2] = a[2] ^^^ a[7] ^^^ a[12] ^^^ a[17] ^^^ a[22]; ac_rfl
  | 3 => show a[18] ^^^ a[3] ^^^ a[13] ^^^ a[23] ^^^ a[8] = a[3] ^^^ a[8] ^^^ a[13] ^^^ a[18] ^^^ a[23]; ac_rfl
  | 4 => show a[24] ^^^ a[9] ^^^ a[19] ^^^ a[4] ^^^ a[14] = a[4] ^^^ a[9] ^^^ a[14] ^^^ a[19] ^^^ a[24]; ac_rfl

theorem round2_step (a : Vector W64 25) (rc : W64) :
    view sig2 (round2 a rc) =
      step (fun x => a[x.val] ^^^ a[x.val+5] ^^^ a[x.val+10] ^^^ a[x.val+15] ^^^ a[x.val+20]) (view sig1 a) rc := by
  funext x y
  match x, y with
  | 0, 0 => rfl
  | 0, 1 => rfl
  | 0, 2 => rfl
  | 0, 3 => rfl
  | 0, 4 => rfl
  | 1, 0 => rfl
  | 1, 1 => rfl
  | 1, 2 => rfl
  | 1, 3 => rfl
  | 1, 4 => rfl
  | 2, 0 => rfl
  | 2, 1 => rfl
  | 2, 2 => rfl
  | 2, 3 => rfl
  | 2, 4 => rfl
  | 3, 0 => rfl
  | 3, 1 => rfl
  | 3, 2 => rfl
  | 3, 3 => rfl
  | 3, 4 => rfl
  | 4, 0 => rfl
  | 4, 1 => rfl
  | 4, 2 => rfl
  | 4, 3 => rfl
  | 4, 4 => rfl

theorem round2_lane (a : Vector W64 25) (rc : W64) :
    view sig2 (round2 a rc) = laneRnd (view sig1 a) rc := by
  rw [round2_step, laneRnd]; congr 1; funext x; rw [parity2]

theorem parity3 (a : Vector W64 25) (x : Fin 5) :
    par (view sig2 a) x = a[x.val] ^^^ a[x.val+5] ^^^ a[x.val+10] ^^^ a[x.val+15] ^^^ a[x.val+20] := by
  match x with
  | 0 => show a[0] ^^^ a[20] ^^^ a[15] ^^^ a[10] ^^^ a[5] = a[0] ^^^ a[5] ^^^ a[10] ^^^ a[15] ^^^ a[20]; ac_rfl
  | 1 => show a[16] ^^^ a[11] ^^^ a[6] ^^^ a[1] ^^^ a[21] = a[1] ^^^ a[6] ^^^ a[11] ^^^ a[16] ^^^ a[21]; ac_rfl
  | 2 => show a[7] ^^^ a[2] ^^^ a[22] ^^^ a[17] ^^^ a[12] = a[2] ^^^ a[7] ^^^ a[12] ^^^ a[17] ^^^ a[22]; ac_rfl
  | 3 => show a[23] ^^^ a[18] ^^^ a[13] ^^^ a[8] ^^^ a[3] = a[3] ^^^ a[8] ^^^ a[13] ^^^ a[18] ^^^ a[23]; ac_rfl
  | 4 => show a[14] ^^^ a[9] ^^^ a[4] ^^^ a[24] ^^^ a[19] = a[4] ^^^ a[9] ^^^ a[14] ^^^ a[19] ^^^ a[24]; ac_rfl

theorem round3_step (a : Vector W64 25) (rc : W64) :
    view sig3 (round3 a rc) =
      step (fun x => a[x.val] ^^^ a[x.val+5] ^^^ a[x.val+10] ^^^ a[x.val+15] ^^^ a[x.val+20]) (view sig2 a) rc := by
  funext x y
  match x, y with
  | 0, 0 => rfl
  | 0, 1 => rfl
  | 0, 2 => rfl
  | 0, 3 => rfl
  | 0, 4 => rfl
  | 1, 0 => rfl
  | 1, 1 => rfl
  | 1, 2 => rfl
  | 1, 3 => rfl
  | 1, 4 => rfl
  | 2, 0 => rfl
  | 2, 1 => rfl
  | 2, 2 => rfl
  | 2, 3 => rfl
  | 2, 4 => rfl
  | 3, 0 => rfl
  | 3, 1 => rfl
  | 3, 2 => rfl
  | 3, 3 => rfl
  | 3, 4 => rfl
  | 4, 0 => rfl
  | 4, 1 => rfl
  | 4, 2 => rfl
  | 4, 3 => rfl
  | 4, 4 => rfl

theorem round3_lane (a : Vector W64 25) (rc : W64) :
    view sig3 (round3 a rc) = laneRnd (view sig2 a) rc := by
  rw [round3_step, laneRnd]; congr 1; funext x; rw [parity3]

theorem parity4 (a : Vector W64 25) (x : Fin 5) :
    par (view sig3 a) x = a[x.val] ^^^ a[x.val+5] ^^^ a[x.val+10] ^^^ a[x.val+15] ^^^ a[x.val+20] := by
  match x with
  | 0 => show a[0] ^^^ a[15] ^^^ a[5] ^^^ a[20] ^^^ a[10] = a[0] ^^^ a[5] ^^^ a[10] ^^^ a[15] ^^^ a[20]; ac_rfl
  | 1 => show a[11] ^^^ a[1] ^^^ a[16] ^^^ a[6] ^^^ a[21] = a[1] ^^^ a[6] ^^^ a[11] ^^^ a[16] ^^^ a[21]; ac_rfl
  | 2 => show a[22] ^^^ a[12] ^^^ a[2] ^^^ a[17] ^^^ a[7] = a[2] ^^^ a[7] ^^^ a[12] ^^^ a[17] ^^^ a[22]; ac_rfl
  | 3 => show a[8] ^^^ a[23] ^^^ a[13] ^^^ a[3] ^^^ a[18] = a[3] ^^^ a[8] ^^^ a[13] ^^^ a[18] ^^^ a[23]; ac_rfl
  | 4 => show a[19] ^^^ a[9] ^^^ a[24] ^^^ a[14] ^^^ a[4] = a[4] ^^^ a[9] ^^^ a[14] ^^^ a[19] ^^^ a[24]; ac_rfl

theorem round4_step (a : Vector W64 25) (rc : W64) :
    view sig4 (round4 a rc) =
      step (fun x => a[x.val] ^^^ a[x.val+5] ^^^ a[x.val+10] ^^^ a[x.val+15] ^^^ a[x.val+20]) (view sig3 a) rc := by
  funext x y
  match x, y with
  | 0, 0 => rfl
  | 0, 1 => rfl
  | 0, 2 => rfl
  | 0, 3 => rfl
  | 0, 4 => rfl
  | 1, 0 => rfl
  | 1, 1 => rfl
  | 1, 2 => rfl
  | 1, 3 => rfl
  | 1, 4 => rfl
  | 2, 0 => rfl
  | 2, 1 => rfl
  | 2, 2 => rfl
  | 2, 3 => rfl
  | 2, 4 => rfl
  | 3, 0 => rfl
  | 3, 1 => rfl
  | 3, 2 => rfl
  | 3, 3 => rfl
  | 3, 4 => rfl
  | 4, 0 => rfl
  | 4, 1 => rfl
  | 4, 2 => rfl
  | 4, 3 => rfl
  | 4, 4 => rfl

theorem round4_lane (a : Vector W64 25) (rc : W64) :
    view sig4 (round4 a rc) = laneRnd (view sig3 a) rc := by
  rw [round4_step, laneRnd]; congr 1; funext x; rw [parity4]

end Lemmas.Keccak
