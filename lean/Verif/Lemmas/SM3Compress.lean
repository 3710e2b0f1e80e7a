import Verif.Model.SM3
import Verif.Spec.SM3
/-! The unrolled SM3 compression equals the specification. -/
namespace Lemmas.SM3
open Model Model.SM3

/-! ### word functions -/

theorem rotl32_eq (n : Nat) (h : n < 32) (x : W32) : rotl32 n x = x.rotateLeft n := by
  rw [rotl32, BitVec.rotateLeft_def, Nat.mod_eq_of_lt h]

theorem p0_eq (x : W32) : p0 x = Spec.SM3.P0 x := by
  rw [p0, Spec.SM3.P0, rotl32_eq _ (by decide), rotl32_eq _ (by decide)]
theorem p1_eq (x : W32) : p1 x = Spec.SM3.P1 x := by
  rw [p1, Spec.SM3.P1, rotl32_eq _ (by decide), rotl32_eq _ (by decide)]

theorem ch_eq (x y z : W32) : ch x y z = (x &&& y) ||| (~~~x &&& z) := by
  rw [ch]
  apply BitVec.eq_of_getLsbD_eq
  intro i hi
  simp only [BitVec.getLsbD_xor, BitVec.getLsbD_and, BitVec.getLsbD_or, BitVec.getLsbD_not, hi, decide_true, Bool.true_and]
  cases x.getLsbD i <;> cases y.getLsbD i <;> cases z.getLsbD i <;> rfl

theorem maj_eq (x y z : W32) : maj x y z = (x &&& y) ||| (x &&& z) ||| (y &&& z) := by
  rw [maj, ch]
  apply BitVec.eq_of_getLsbD_eq
  intro i hi
  simp only [BitVec.getLsbD_xor, BitVec.getLsbD_and, BitVec.getLsbD_or]
  cases x.getLsbD i <;> cases y.getLsbD i <;> cases z.getLsbD i <;> rfl

theorem get_eq {n : Nat} (v : Vector W32 n) (i : Fin n) : v.get i = v[i.val] := rfl

theorem get_put {n : Nat} (v : Vector W32 n) (i j : Fin n) (x : W32) :
    (put v i x).get j = if i = j then x else v.get j := by
  simp only [put, get_eq, Vector.getElem_set, Fin.ext_iff]

/-! ### the program as a formula -/

def fin8 (n : Nat) : Fin 8 := Fin.ofNat 8 n
def fin16 (n : Nat) : Fin 16 := Fin.ofNat 16 n

/-- Round `j` as it should look. -/
def roundIns (j : Nat) : List Ins :=
  let k := 4 - j % 4
  let x (i : Nat) := fin8 ((i + k) % 4)
  let y (i : Nat) := fin8 (4 + (i + k) % 4)
  let t := (Spec.SM3.T j).rotateLeft (j % 32)
  (if j < 16 then [.r1 (x 0) (x 1) (x 2) (x 3) (y 0) (y 1) (y 2) (y 3) t (fin16 j) (fin16 j) (fin16 (j + 4))]
   else [.r2 (x 0) (x 1) (x 2) (x 3) (y 0) (y 1) (y 2) (y 3) t (fin16 j) (fin16 j) (fin16 (j + 4))]) ++
  if j < 52 then [.sm3e (fin16 j) (fin16 j) (fin16 (j + 7)) (fin16 (j + 13)) (fin16 (j + 3)) (fin16 (j + 10))] else []

theorem prog_eq : prog = (List.range 64).flatMap roundIns := by decide +kernel

/-! ### the invariant -/

/-- Registers after `j` rounds: the roles rotate. -/
structure RegInv (j : Nat) (r : Vector W32 8) (s : Spec.SM3.Regs) : Prop where
  a : r.get (fin8 ((0 + (4 - j % 4)) % 4)) = s.A
  b : r.get (fin8 ((1 + (4 - j % 4)) % 4)) = s.B
  c : r.get (fin8 ((2 + (4 - j % 4)) % 4)) = s.C
  d : r.get (fin8 ((3 + (4 - j % 4)) % 4)) = s.D
  e : r.get (fin8 (4 + (0 + (4 - j % 4)) % 4)) = s.E
  f : r.get (fin8 (4 + (1 + (4 - j % 4)) % 4)) = s.F
  g : r.get (fin8 (4 + (2 + (4 - j % 4)) % 4)) = s.G
  h : r.get (fin8 (4 + (3 + (4 - j % 4)) % 4)) = s.H

/-- Message words after `j` rounds. -/
def WInv (M : List Byte) (j : Nat) (w : Vector W32 16) : Prop :=
  ∀ i, i < 16 → w.get (fin16 (min j 52 + i)) = Spec.SM3.W M (min j 52 + i)

/-- One round of register updates, for each of the four role assignments. -/
theorem regs_step (ff gg : W32 → W32 → W32 → W32) (M : List Byte) (j : Nat) (r : Vector W32 8) (s : Spec.SM3.Regs)
    (hff : ∀ x y z, ff x y z = Spec.SM3.FF j x y z) (hgg : ∀ x y z, gg x y z = Spec.SM3.GG j x y z)
    (h : RegInv j r s) (wi wj : W32) (hwi : wi = Spec.SM3.W M j) (hwj : wj = Spec.SM3.W' M j) :
    RegInv (j + 1)
      (roundBody ff gg r (fin8 ((0 + (4 - j % 4)) % 4)) (fin8 ((1 + (4 - j % 4)) % 4)) (fin8 ((2 + (4 - j % 4)) % 4))
        (fin8 ((3 + (4 - j % 4)) % 4)) (fin8 (4 + (0 + (4 - j % 4)) % 4)) (fin8 (4 + (1 + (4 - j % 4)) % 4))
        (fin8 (4 + (2 + (4 - j % 4)) % 4)) (fin8 (4 + (3 + (4 - j % 4)) % 4))
        ((Spec.SM3.T j).rotateLeft (j % 32)) wi wj)
      (Spec.SM3.round M j s) := by
  obtain ⟨ha, hb, hc, hd, he, hf, hg, hh⟩ := h
  have hj : (j + 1) % 4 = (j % 4 + 1) % 4 := by omega
  have hlt : j % 4 < 4 := Nat.mod_lt _ (by decide)
  rw [hwi, hwj]
  have key : ∀ m, m < 4 → j % 4 = m → RegInv (j + 1)
      (roundBody ff gg r (fin8 ((0 + (4 - m)) % 4)) (fin8 ((1 + (4 - m)) % 4)) (fin8 ((2 + (4 - m)) % 4))
        (fin8 ((3 + (4 - m)) % 4)) (fin8 (4 + (0 + (4 - m)) % 4)) (fin8 (4 + (1 + (4 - m)) % 4))
        (fin8 (4 + (2 + (4 - m)) % 4)) (fin8 (4 + (3 + (4 - m)) % 4))
        ((Spec.SM3.T j).rotateLeft (j % 32)) (Spec.SM3.W M j) (Spec.SM3.W' M j))
      (Spec.SM3.round M j s) := by
    intro m hm hjm
    rw [hjm] at ha hb hc hd he hf hg hh hj
    match m, hm with
    | 0, _ | 1, _ | 2, _ | 3, _ =>
      simp [fin8, Fin.ofNat] at ha hb hc hd he hf hg hh hj
      constructor <;>
        simp [hj, roundBody, Spec.SM3.round, fin8, Fin.ofNat, ha, hb, hc, hd, he, hf, hg, hh,
          hff, hgg, rotl32_eq, p0_eq, get_put]
  exact key _ hlt rfl

theorem fin16_ne {a b : Nat} (h : a % 16 ≠ b % 16) : fin16 a ≠ fin16 b := by
  intro e; exact h (by simpa [fin16, Fin.ofNat] using e)

theorem fin16_congr {a b : Nat} (h : a % 16 = b % 16) : fin16 a = fin16 b := by
  apply Fin.ext; simpa [fin16, Fin.ofNat] using h

theorem WInv.get {M : List Byte} {j : Nat} {w : Vector W32 16} (h : WInv M j w) {k : Nat}
    (h1 : min j 52 ≤ k) (h2 : k < min j 52 + 16) : w.get (fin16 k) = Spec.SM3.W M k := by
  have := h (k - min j 52) (by omega)
  rwa [show min j 52 + (k - min j 52) = k by omega] at this

theorem W_unfold (M : List Byte) (j : Nat) : Spec.SM3.W M (j + 16) =
    Spec.SM3.P1 (Spec.SM3.W M j ^^^ Spec.SM3.W M (j + 7) ^^^ (Spec.SM3.W M (j + 13)).rotateLeft 15) ^^^
      (Spec.SM3.W M (j + 3)).rotateLeft 7 ^^^ Spec.SM3.W M (j + 10) := by
  conv => lhs; rw [Spec.SM3.W]
  rw [if_neg (by omega), show j + 16 - 16 = j by omega, show j + 16 - 9 = j + 7 by omega,
    show j + 16 - 3 = j + 13 by omega, show j + 16 - 13 = j + 3 by omega, show j + 16 - 6 = j + 10 by omega]

theorem words_step {M : List Byte} {j : Nat} (hj : j < 52) {w : Vector W32 16} (h : WInv M j w) :
    WInv M (j + 1) (put w (fin16 j) (sm3e (w.get (fin16 j)) (w.get (fin16 (j + 7))) (w.get (fin16 (j + 13))) (w.get (fin16 (j + 3))) (w.get (fin16 (j + 10))))) := by
  intro i hi
  rw [show min (j + 1) 52 = j + 1 by omega]
  by_cases hi15 : i = 15
  · subst hi15
    have e : fin16 (j + 1 + 15) = fin16 j := fin16_congr (by omega)
    rw [e]
    rw [get_put, if_pos rfl]
    have g := fun (k : Nat) (a : min j 52 ≤ k) (b : k < min j 52 + 16) => h.get a b
    rw [g j (by omega) (by omega), g (j + 7) (by omega) (by omega), g (j + 13) (by omega) (by omega),
      g (j + 3) (by omega) (by omega), g (j + 10) (by omega) (by omega), show j + 1 + 15 = j + 16 by omega, W_unfold,
      sm3e, p1_eq, rotl32_eq _ (by decide), rotl32_eq _ (by decide)]
  · have hne := fin16_ne (a := j) (b := j + 1 + i) (by omega)
    rw [get_put, if_neg hne]
    exact h.get (by omega) (by omega)

theorem FF_lt {j : Nat} (h : j < 16) (x y z : W32) : x ^^^ y ^^^ z = Spec.SM3.FF j x y z := by
  rw [Spec.SM3.FF, if_pos h]
theorem GG_lt {j : Nat} (h : j < 16) (x y z : W32) : x ^^^ y ^^^ z = Spec.SM3.GG j x y z := by
  rw [Spec.SM3.GG, if_pos h]
theorem FF_ge {j : Nat} (h : ¬ j < 16) (x y z : W32) : maj x y z = Spec.SM3.FF j x y z := by
  rw [Spec.SM3.FF, if_neg h, maj_eq]
theorem GG_ge {j : Nat} (h : ¬ j < 16) (x y z : W32) : ch x y z = Spec.SM3.GG j x y z := by
  rw [Spec.SM3.GG, if_neg h, ch_eq]

theorem round_step {M : List Byte} {j : Nat} (hj : j < 64) {m : Mach} {s : Spec.SM3.Regs} (hr : RegInv j m.r s)
    (hw : WInv M j m.w) :
    RegInv (j + 1) ((roundIns j).foldl step m).r (Spec.SM3.round M j s) ∧
    WInv M (j + 1) ((roundIns j).foldl step m).w := by
  have hwi : m.w.get (fin16 j) = Spec.SM3.W M j := hw.get (by omega) (by omega)
  have hwk : m.w.get (fin16 (j + 4)) = Spec.SM3.W M (j + 4) := hw.get (by omega) (by omega)
  have hwj : m.w.get (fin16 j) ^^^ m.w.get (fin16 (j + 4)) = Spec.SM3.W' M j := by rw [hwi, hwk]; rfl
  have hw' : j < 52 ∨ WInv M (j + 1) m.w := by
    by_cases h : j < 52
    · exact Or.inl h
    · right; intro i hi; have := hw i hi; rwa [show min j 52 = min (j + 1) 52 by omega] at this
  by_cases h16 : j < 16
  · have hj52 : j < 52 := by omega
    rw [roundIns, if_pos h16, if_pos hj52]
    simp only [List.cons_append, List.nil_append, List.foldl_cons, List.foldl_nil, step]
    exact ⟨regs_step _ _ M j m.r s (FF_lt h16) (GG_lt h16) hr _ _ hwi hwj, words_step hj52 hw⟩
  · rw [roundIns, if_neg h16]
    by_cases hj52 : j < 52
    · rw [if_pos hj52]
      simp only [List.cons_append, List.nil_append, List.foldl_cons, List.foldl_nil, step]
      exact ⟨regs_step _ _ M j m.r s (FF_ge h16) (GG_ge h16) hr _ _ hwi hwj, words_step hj52 hw⟩
    · rw [if_neg hj52]
      simp only [List.append_nil, List.foldl_cons, List.foldl_nil, step]
      exact ⟨regs_step _ _ M j m.r s (FF_ge h16) (GG_ge h16) hr _ _ hwi hwj, hw'.resolve_left hj52⟩

theorem rounds_inv (M : List Byte) (m : Mach) (s : Spec.SM3.Regs) (hr : RegInv 0 m.r s) (hw : WInv M 0 m.w) (n : Nat) (hn : n ≤ 64) :
    RegInv n (((List.range n).flatMap roundIns).foldl step m).r (Spec.SM3.rounds M n s) ∧
    WInv M n (((List.range n).flatMap roundIns).foldl step m).w := by
  induction n with
  | zero => exact ⟨hr, hw⟩
  | succ n ih =>
    obtain ⟨h1, h2⟩ := ih (by omega)
    rw [List.range_succ, List.flatMap_append, List.foldl_append]
    simp only [List.flatMap_cons, List.flatMap_nil, List.append_nil]
    exact round_step (by omega) h1 h2

/-- The chaining value as a specification record. -/
def toRegs (h : Vector W32 8) : Spec.SM3.Regs :=
  ⟨h.get 0, h.get 1, h.get 2, h.get 3, h.get 4, h.get 5, h.get 6, h.get 7⟩

theorem compress1_eq (h : Vector W32 8) (w : Vector W32 16) (M : List Byte)
    (hw : ∀ i (hi : i < 16), w[i] = Spec.SM3.blockWord M i) :
    toRegs (compress1 h w) = Spec.SM3.CF (toRegs h) M := by
  have h0 : RegInv 0 h (toRegs h) := by
    constructor <;> simp [fin8, Fin.ofNat, toRegs]
  have hw0 : WInv M 0 w := by
    intro i hi
    rw [show min 0 52 + i = i by omega]
    have e : (fin16 i : Nat) = i := by simp [fin16, Fin.ofNat]; omega
    have : w.get (fin16 i) = w[i] := by simp only [get_eq, e]
    rw [this, hw i hi, Spec.SM3.W, if_pos hi]
  obtain ⟨⟨ha, hb, hc, hd, he, hf, hg, hh⟩, -⟩ := rounds_inv M ⟨h, w⟩ (toRegs h) h0 hw0 64 (by decide)
  rw [← prog_eq] at ha hb hc hd he hf hg hh
  simp [fin8, Fin.ofNat] at ha hb hc hd he hf hg hh
  simp only [compress1, Spec.SM3.CF, Spec.SM3.Regs.xor]
  have hof : ∀ (f : Fin 8 → W32) i, (Vector.ofFn f).get i = f i := by intro f i; simp [get_eq]
  simp only [toRegs] at ha hb hc hd he hf hg hh
  simp only [toRegs, hof, ha, hb, hc, hd, he, hf, hg, hh, BitVec.xor_comm]

end Lemmas.SM3
