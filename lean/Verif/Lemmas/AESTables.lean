import Verif.Model.AESTab
import Verif.Spec.AES
/-! The tables of the code are the functions of FIPS 197: complete checks over the 256 bytes. -/
namespace Lemmas.AES
open Model Model.AES
open Spec.AES hiding Byte

/-- Inverses in GF(2^8), as a table for fast evaluation. -/
def invT : List (List Byte) :=
  [[0x00, 0x01, 0x8d, 0xf6, 0xcb, 0x52, 0x7b, 0xd1, 0xe8, 0x4f, 0x29, 0xc0, 0xb0, 0xe1, 0xe5, 0xc7],
   [0x74, 0xb4, 0xaa, 0x4b, 0x99, 0x2b, 0x60, 0x5f, 0x58, 0x3f, 0xfd, 0xcc, 0xff, 0x40, 0xee, 0xb2],
   [0x3a, 0x6e, 0x5a, 0xf1, 0x55, 0x4d, 0xa8, 0xc9, 0xc1, 0x0a, 0x98, 0x15, 0x30, 0x44, 0xa2, 0xc2],
   [0x2c, 0x45, 0x92, 0x6c, 0xf3, 0x39, 0x66, 0x42, 0xf2, 0x35, 0x20, 0x6f, 0x77, 0xbb, 0x59, 0x19],
   [0x1d, 0xfe, 0x37, 0x67, 0x2d, 0x31, 0xf5, 0x69, 0xa7, 0x64, 0xab, 0x13, 0x54, 0x25, 0xe9, 0x09],
   [0xed, 0x5c, 0x05, 0xca, 0x4c, 0x24, 0x87, 0xbf, 0x18, 0x3e, 0x22, 0xf0, 0x51, 0xec, 0x61, 0x17],
   [0x16, 0x5e, 0xaf, 0xd3, 0x49, 0xa6, 0x36, 0x43, 0xf4, 0x47, 0x91, 0xdf, 0x33, 0x93, 0x21, 0x3b],
   [0x79, 0xb7, 0x97, 0x85, 0x10, 0xb5, 0xba, 0x3c, 0xb6, 0x70, 0xd0, 0x06, 0xa1, 0xfa, 0x81, 0x82],
   [0x83, 0x7e, 0x7f, 0x80, 0x96, 0x73, 0xbe, 0x56, 0x9b, 0x9e, 0x95, 0xd9, 0xf7, 0x02, 0xb9, 0xa4],
   [0xde, 0x6a, 0x32, 0x6d, 0xd8, 0x8a, 0x84, 0x72, 0x2a, 0x14, 0x9f, 0x88, 0xf9, 0xdc, 0x89, 0x9a],
   [0xfb, 0x7c, 0x2e, 0xc3, 0x8f, 0xb8, 0x65, 0x48, 0x26, 0xc8, 0x12, 0x4a, 0xce, 0xe7, 0xd2, 0x62],
   [0x0c, 0xe0, 0x1f, 0xef, 0x11, 0x75, 0x78, 0x71, 0xa5, 0x8e, 0x76, 0x3d, 0xbd, 0xbc, 0x86, 0x57],
   [0x0b, 0x28, 0x2f, 0xa3, 0xda, 0xd4, 0xe4, 0x0f, 0xa9, 0x27, 0x53, 0x04, 0x1b, 0xfc, 0xac, 0xe6],
   [0x7a, 0x07, 0xae, 0x63, 0xc5, 0xdb, 0xe2, 0xea, 0x94, 0x8b, 0xc4, 0xd5, 0x9d, 0xf8, 0x90, 0x6b],
   [0xb1, 0x0d, 0xd6, 0xeb, 0xc6, 0x0e, 0xcf, 0xad, 0x08, 0x4e, 0xd7, 0xe3, 0x5d, 0x50, 0x1e, 0xb3],
   [0x5b, 0x23, 0x38, 0x34, 0x68, 0x46, 0x03, 0x8c, 0xdd, 0x9c, 0x7d, 0xa0, 0xcd, 0x1a, 0x41, 0x1c]]

theorem byte_forall {P : Byte → Prop} (h : ∀ i : Fin 256, P ⟨i⟩) (b : Byte) : P b := h b.toFin

theorem inv_eq (b : Byte) : inv b = at8 invT b := byte_forall (P := fun b => inv b = at8 invT b) (by decide +kernel) b

/-- Inversion is inversion. -/
theorem inv_mul (b : Byte) (h : b ≠ 0) : mul b (inv b) = 1 := by
  rw [inv_eq]
  exact byte_forall (P := fun b => b ≠ 0 → mul b (at8 invT b) = 1) (by decide +kernel) b h

/-- `sbox` on an evaluated inverse. -/
def affine (b : Byte) : Byte :=
  BitVec.ofBoolListLE ((List.range 8).map fun i =>
    Bool.xor (b.getLsbD i) (Bool.xor (b.getLsbD ((i + 4) % 8)) (Bool.xor (b.getLsbD ((i + 5) % 8))
      (Bool.xor (b.getLsbD ((i + 6) % 8)) (Bool.xor (b.getLsbD ((i + 7) % 8)) ((0x63 : Byte).getLsbD i))))))

def invAffine (a : Byte) : Byte :=
  BitVec.ofBoolListLE ((List.range 8).map fun i =>
    Bool.xor (a.getLsbD ((i + 2) % 8)) (Bool.xor (a.getLsbD ((i + 5) % 8)) (Bool.xor (a.getLsbD ((i + 7) % 8))
      ((0x05 : Byte).getLsbD i))))

theorem sbox0_eq (b : Byte) : at8 sbox0 b = sbox b := by
  show _ = affine (inv b)
  rw [inv_eq]
  exact byte_forall (P := fun b => at8 sbox0 b = affine (at8 invT b)) (by decide +kernel) b

theorem sbox1_eq (b : Byte) : at8 sbox1 b = invSbox b := by
  show _ = inv (invAffine b)
  rw [inv_eq]
  exact byte_forall (P := fun b => at8 sbox1 b = at8 invT (invAffine b)) (by decide +kernel) b

theorem invSbox_sbox (b : Byte) : invSbox (sbox b) = b := by
  rw [← sbox0_eq, ← sbox1_eq]
  exact byte_forall (P := fun b => at8 sbox1 (at8 sbox0 b) = b) (by decide +kernel) b

theorem sbox_invSbox (b : Byte) : sbox (invSbox b) = b := by
  rw [← sbox0_eq, ← sbox1_eq]
  exact byte_forall (P := fun b => at8 sbox0 (at8 sbox1 b) = b) (by decide +kernel) b

theorem mul2 (b : Byte) : mul 2 b = xtime b := byte_forall (P := fun b => mul 2 b = xtime b) (by decide +kernel) b
theorem mul3 (b : Byte) : mul 3 b = xtime b ^^^ b := byte_forall (P := fun b => mul 3 b = xtime b ^^^ b) (by decide +kernel) b
theorem mul9 (b : Byte) : mul 9 b = xtime (xtime (xtime b)) ^^^ b :=
  byte_forall (P := fun b => mul 9 b = xtime (xtime (xtime b)) ^^^ b) (by decide +kernel) b
theorem mulb (b : Byte) : mul 0xb b = xtime (xtime (xtime b)) ^^^ xtime b ^^^ b :=
  byte_forall (P := fun b => mul 0xb b = xtime (xtime (xtime b)) ^^^ xtime b ^^^ b) (by decide +kernel) b
theorem muld (b : Byte) : mul 0xd b = xtime (xtime (xtime b)) ^^^ xtime (xtime b) ^^^ b :=
  byte_forall (P := fun b => mul 0xd b = xtime (xtime (xtime b)) ^^^ xtime (xtime b) ^^^ b) (by decide +kernel) b
theorem mule (b : Byte) : mul 0xe b = xtime (xtime (xtime b)) ^^^ xtime (xtime b) ^^^ xtime b :=
  byte_forall (P := fun b => mul 0xe b = xtime (xtime (xtime b)) ^^^ xtime (xtime b) ^^^ xtime b) (by decide +kernel) b

theorem xtime_xor (a b : Byte) : xtime (a ^^^ b) = xtime a ^^^ xtime b := by
  have h : ∀ a : Byte, xtime a = (a <<< 1) ^^^ (if a.msb then 0x1b else 0) := by
    intro a; rw [xtime]; split <;> simp
  rw [h, h, h, BitVec.msb_xor, BitVec.shiftLeft_xor_distrib]
  have e : (if (a.msb ^^ b.msb) = true then (0x1b : Byte) else 0) =
      (if a.msb then 0x1b else 0) ^^^ (if b.msb then 0x1b else 0) := by
    cases a.msb <;> cases b.msb <;> decide
  rw [e]
  ac_rfl

theorem te0_eq (b : Byte) : at8 te0 b = mkWord (mul 2 (sbox b)) (sbox b) (sbox b) (mul 3 (sbox b)) := by
  rw [← sbox0_eq]
  exact byte_forall (P := fun b => at8 te0 b = mkWord (mul 2 (at8 sbox0 b)) (at8 sbox0 b) (at8 sbox0 b) (mul 3 (at8 sbox0 b)))
    (by decide +kernel) b
theorem te1_eq (b : Byte) : at8 te1 b = mkWord (mul 3 (sbox b)) (mul 2 (sbox b)) (sbox b) (sbox b) := by
  rw [← sbox0_eq]
  exact byte_forall (P := fun b => at8 te1 b = mkWord (mul 3 (at8 sbox0 b)) (mul 2 (at8 sbox0 b)) (at8 sbox0 b) (at8 sbox0 b))
    (by decide +kernel) b
theorem te2_eq (b : Byte) : at8 te2 b = mkWord (sbox b) (mul 3 (sbox b)) (mul 2 (sbox b)) (sbox b) := by
  rw [← sbox0_eq]
  exact byte_forall (P := fun b => at8 te2 b = mkWord (at8 sbox0 b) (mul 3 (at8 sbox0 b)) (mul 2 (at8 sbox0 b)) (at8 sbox0 b))
    (by decide +kernel) b
theorem te3_eq (b : Byte) : at8 te3 b = mkWord (sbox b) (sbox b) (mul 3 (sbox b)) (mul 2 (sbox b)) := by
  rw [← sbox0_eq]
  exact byte_forall (P := fun b => at8 te3 b = mkWord (at8 sbox0 b) (at8 sbox0 b) (mul 3 (at8 sbox0 b)) (mul 2 (at8 sbox0 b)))
    (by decide +kernel) b

theorem td0_eq (b : Byte) : at8 td0 b = mkWord (mul 0xe (invSbox b)) (mul 0x9 (invSbox b)) (mul 0xd (invSbox b)) (mul 0xb (invSbox b)) := by
  rw [← sbox1_eq]
  exact byte_forall (P := fun b => at8 td0 b = mkWord (mul 0xe (at8 sbox1 b)) (mul 0x9 (at8 sbox1 b)) (mul 0xd (at8 sbox1 b)) (mul 0xb (at8 sbox1 b)))
    (by decide +kernel) b
theorem td1_eq (b : Byte) : at8 td1 b = mkWord (mul 0xb (invSbox b)) (mul 0xe (invSbox b)) (mul 0x9 (invSbox b)) (mul 0xd (invSbox b)) := by
  rw [← sbox1_eq]
  exact byte_forall (P := fun b => at8 td1 b = mkWord (mul 0xb (at8 sbox1 b)) (mul 0xe (at8 sbox1 b)) (mul 0x9 (at8 sbox1 b)) (mul 0xd (at8 sbox1 b)))
    (by decide +kernel) b
theorem td2_eq (b : Byte) : at8 td2 b = mkWord (mul 0xd (invSbox b)) (mul 0xb (invSbox b)) (mul 0xe (invSbox b)) (mul 0x9 (invSbox b)) := by
  rw [← sbox1_eq]
  exact byte_forall (P := fun b => at8 td2 b = mkWord (mul 0xd (at8 sbox1 b)) (mul 0xb (at8 sbox1 b)) (mul 0xe (at8 sbox1 b)) (mul 0x9 (at8 sbox1 b)))
    (by decide +kernel) b
theorem td3_eq (b : Byte) : at8 td3 b = mkWord (mul 0x9 (invSbox b)) (mul 0xd (invSbox b)) (mul 0xb (invSbox b)) (mul 0xe (invSbox b)) := by
  rw [← sbox1_eq]
  exact byte_forall (P := fun b => at8 td3 b = mkWord (mul 0x9 (at8 sbox1 b)) (mul 0xd (at8 sbox1 b)) (mul 0xb (at8 sbox1 b)) (mul 0xe (at8 sbox1 b)))
    (by decide +kernel) b

theorem powx_eq (j : Fin 10) : powx[j.val]? = some (rconByte (j.val + 1)) := by
  revert j; decide +kernel

end Lemmas.AES
