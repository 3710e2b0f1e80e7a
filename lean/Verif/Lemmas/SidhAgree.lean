import Verif.Lemmas.SidhWalk
import Mathlib.GroupTheory.OrderOfElement
/-
Both parties of SIDH end on the same curve: the agreement theorem over a field.
-/
namespace Lemmas.SidhAgree
open Model Model.Sidh Lemmas.SidhNat Lemmas.SidhTrace Verif.XOnly Lemmas.SidhX Lemmas.SidhLadder Lemmas.SidhWalk Spec

variable {K : Type} [Field K] {Γ : Type} [AddCommGroup Γ]

/-- points killed by `m` -/
def tors (Γ : Type) [AddCommGroup Γ] (m : Nat) : AddSubgroup Γ := (nsmulAddMonoidHom (α := Γ) m).ker

theorem mem_tors {m : Nat} {x : Γ} : x ∈ tors Γ m ↔ m • x = 0 := Iff.rfl

theorem tors_coprime {m n : Nat} (h : Nat.Coprime m n) {x : Γ} (h1 : x ∈ tors Γ m) (h2 : x ∈ tors Γ n) : x = 0 := by
  have d1 := addOrderOf_dvd_of_nsmul_eq_zero (mem_tors.mp h1)
  have d2 := addOrderOf_dvd_of_nsmul_eq_zero (mem_tors.mp h2)
  exact AddMonoid.addOrderOf_eq_one_iff.mp (Nat.eq_one_of_dvd_coprimes h d1 d2)

theorem cop43 (a b : Nat) : Nat.Coprime (4 ^ a) (3 ^ b) := (by decide : Nat.Coprime 4 3).pow a b
theorem cop23 (a b : Nat) : Nat.Coprime (2 ^ a) (3 ^ b) := (by decide : Nat.Coprime 2 3).pow a b

/-- The four starting points generate the two torsion groups the protocol needs. -/
structure Basis (nA nB : Nat) (T PA QA PB QB : Γ) : Prop where
  pa : (4 ^ (nA + 1) : Nat) • PA = 0
  qa : (4 ^ (nA + 1) : Nat) • QA = 0
  qaT : (2 * 4 ^ nA : Nat) • QA = T
  pa0 : (2 * 4 ^ nA : Nat) • PA ≠ 0
  paT : (2 * 4 ^ nA : Nat) • PA ≠ T
  pb : (3 ^ (nB + 1) : Nat) • PB = 0
  qb : (3 ^ (nB + 1) : Nat) • QB = 0
  qb0 : QB ≠ 0
  ind : ∀ z : ℤ, (3 ^ nB : Nat) • (PB + z • QB) ≠ 0

section
variable {nA nB : Nat} {T PA QA PB QB : Γ} (B : Basis nA nB T PA QA PB QB)
include B

theorem Basis.T2 : T + T = 0 := by
  rw [← B.qaT, ← two_smul Nat, ← mul_smul]
  have : 2 * (2 * 4 ^ nA) = 4 ^ (nA + 1) := by rw [pow_succ]; ring
  rw [this, B.qa]

theorem Basis.zT (z : ℤ) : z • T = 0 ∨ z • T = T := by
  rcases Int.even_or_odd' z with ⟨w, rfl | rfl⟩
  · left
    have : (2 * w) • T = w • (T + T) := by module
    rw [this, B.T2, smul_zero]
  · right
    have : (2 * w + 1) • T = w • (T + T) + T := by module
    rw [this, B.T2, smul_zero, zero_add]

theorem Basis.memA (z : ℤ) : PA + z • QA ∈ tors Γ (4 ^ (nA + 1)) :=
  AddSubgroup.add_mem _ (mem_tors.mpr B.pa) (AddSubgroup.zsmul_mem _ (mem_tors.mpr B.qa) _)

theorem Basis.memB (z : ℤ) : PB + z • QB ∈ tors Γ (3 ^ (nB + 1)) :=
  AddSubgroup.add_mem _ (mem_tors.mpr B.pb) (AddSubgroup.zsmul_mem _ (mem_tors.mpr B.qb) _)

theorem Basis.memT : T ∈ tors Γ (4 ^ (nA + 1)) := by
  rw [← B.qaT]; exact AddSubgroup.nsmul_mem _ (mem_tors.mpr B.qa) _

theorem Basis.half (z : ℤ) : (2 * 4 ^ nA : Nat) • (PA + z • QA) = (2 * 4 ^ nA : Nat) • PA ∨
    (2 * 4 ^ nA : Nat) • (PA + z • QA) = (2 * 4 ^ nA : Nat) • PA + T := by
  rw [smul_add, smul_comm _ z, B.qaT]
  rcases B.zT z with h | h <;> rw [h]
  · left; rw [add_zero]
  · right; rfl

theorem Basis.half0 (z : ℤ) : (2 * 4 ^ nA : Nat) • (PA + z • QA) ≠ 0 := by
  intro h0
  rcases B.half z with h | h <;> rw [h] at h0
  · exact B.pa0 h0
  · apply B.paT
    have e : (2 * 4 ^ nA : Nat) • PA = (2 * 4 ^ nA : Nat) • PA + T + T - (T + T) := by abel
    rw [e, h0, B.T2]; simp

theorem Basis.halfT (z : ℤ) : (2 * 4 ^ nA : Nat) • (PA + z • QA) ≠ T := by
  intro h0
  rcases B.half z with h | h <;> rw [h] at h0
  · exact B.paT h0
  · exact B.pa0 (by simpa using h0)

/-- an element of the A-torsion lying in a group of B-torsion is zero -/
theorem Basis.zeroA {N : AddSubgroup Γ} (hN : N ≤ tors Γ (3 ^ (nB + 1))) {x : Γ} (h : x ∈ N) (hx : x ∈ tors Γ (4 ^ (nA + 1))) : x = 0 :=
  tors_coprime (cop43 _ _) hx (hN h)

theorem Basis.zeroB {N : AddSubgroup Γ} (hN : N ≤ tors Γ (4 ^ (nA + 1))) {x : Γ} (h : x ∈ N) (hx : x ∈ tors Γ (3 ^ (nB + 1))) : x = 0 :=
  tors_coprime (cop43 _ _) (hN h) hx

theorem Basis.indepA {N : AddSubgroup Γ} (hN : N ≤ tors Γ (3 ^ (nB + 1))) : Indep N T PA QA := by
  constructor
  · intro z h
    apply B.half0 z
    rw [B.zeroA hN h (B.memA z), smul_zero]
  · intro z h
    apply B.half0 z
    have := B.zeroA hN h (AddSubgroup.sub_mem _ (B.memA z) B.memT)
    rw [sub_eq_zero.mp this, mul_comm, mul_smul, two_smul, B.T2, smul_zero]

theorem Basis.indepB {N : AddSubgroup Γ} (hN : N ≤ tors Γ (4 ^ (nA + 1))) : Indep N T PB QB := by
  constructor
  · intro z h
    apply B.ind z
    rw [B.zeroB hN h (B.memB z), smul_zero]
  · intro z h
    apply B.ind z
    have := AddSubgroup.add_mem _ (hN h) B.memT
    rw [sub_add_cancel] at this
    rw [tors_coprime (cop43 _ _) this (B.memB z), smul_zero]

theorem Basis.ker4 {N : AddSubgroup Γ} (hN : N ≤ tors Γ (3 ^ (nB + 1))) (z : ℤ) : Ker4 N T ((4 ^ nA : Nat) • (PA + z • QA)) := by
  have e : (4 ^ nA : Nat) • (PA + z • QA) + (4 ^ nA : Nat) • (PA + z • QA) = (2 * 4 ^ nA : Nat) • (PA + z • QA) := by
    rw [← two_smul Nat, ← mul_smul]
  have e4 : (2 * 4 ^ nA : Nat) • (PA + z • QA) + (2 * 4 ^ nA : Nat) • (PA + z • QA) = 0 := by
    have := mem_tors.mp (B.memA z)
    rw [← two_smul Nat, ← mul_smul, ← this]
    congr 1; rw [pow_succ]; ring
  refine ⟨?_, ?_, ?_⟩
  · rw [e, e4]; exact N.zero_mem
  · rw [e]
    intro h
    exact B.half0 z (B.zeroA hN h (AddSubgroup.nsmul_mem _ (B.memA z) _))
  · rw [e]
    intro h
    have := B.zeroA hN h (AddSubgroup.sub_mem _ (AddSubgroup.nsmul_mem _ (B.memA z) _) B.memT)
    exact B.halfT z (sub_eq_zero.mp this)

theorem Basis.ker3 {N : AddSubgroup Γ} (hN : N ≤ tors Γ (4 ^ (nA + 1))) (z : ℤ) : Ker3 N ((3 ^ nB : Nat) • (PB + z • QB)) := by
  refine ⟨?_, ?_⟩
  · have e : (3 ^ nB : Nat) • (PB + z • QB) + (3 ^ nB : Nat) • (PB + z • QB) + (3 ^ nB : Nat) • (PB + z • QB) = 0 := by
      have := mem_tors.mp (B.memB z)
      rw [← this, pow_succ, mul_comm, mul_smul]
      generalize (3 ^ nB : Nat) • (PB + z • QB) = w
      abel
    rw [e]; exact N.zero_mem
  · intro h
    exact B.ind z (B.zeroB hN h (AddSubgroup.nsmul_mem _ (B.memB z) _))

theorem Basis.powA {N : AddSubgroup Γ} (hT : T ∉ N) (j : Nat) (hj : j < 2 * (nA + 1)) : (2 ^ j : ℤ) • QA ∉ N := by
  intro h
  apply hT
  rw [← B.qaT]
  have e : (2 * 4 ^ nA : Nat) • QA = (2 ^ (2 * nA + 1 - j) : ℤ) • ((2 ^ j : ℤ) • QA) := by
    rw [← mul_smul, ← pow_add, show 2 * nA + 1 - j + j = 2 * nA + 1 by omega, ← natCast_zsmul]
    congr 1
    push_cast
    rw [pow_succ, pow_mul]; norm_num; ring
  rw [e]
  exact N.zsmul_mem h _

theorem Basis.powB {N : AddSubgroup Γ} (hN : N ≤ tors Γ (4 ^ (nA + 1))) (j : Nat) : (2 ^ j : ℤ) • QB ∉ N := by
  intro h
  apply B.qb0
  have := B.zeroB hN h (AddSubgroup.zsmul_mem _ (mem_tors.mpr B.qb) _)
  have h2 : QB ∈ tors Γ (2 ^ j) := by
    rw [mem_tors, ← natCast_zsmul]
    push_cast
    exact this
  exact tors_coprime (cop23 _ _) h2 (mem_tors.mpr B.qb)

theorem Basis.shiftA {N : AddSubgroup Γ} (hT : T ∉ N) : QA ∉ N ∧ QA - T ∉ N := by
  refine ⟨?_, ?_⟩
  · intro h
    apply hT
    rw [← B.qaT]
    exact N.nsmul_mem h _
  · intro h
    apply hT
    have := N.nsmul_mem h (2 * 4 ^ nA)
    rw [smul_sub, B.qaT, mul_comm, mul_smul _ _ T, two_smul, B.T2, smul_zero, sub_zero] at this
    exact this

theorem Basis.shiftB {N : AddSubgroup Γ} (hN : N ≤ tors Γ (4 ^ (nA + 1))) : QB ∉ N ∧ QB - T ∉ N := by
  refine ⟨?_, ?_⟩
  · have := B.powB hN 0
    simpa using this
  · intro h
    apply B.qb0
    have := AddSubgroup.add_mem _ (hN h) B.memT
    rw [sub_add_cancel] at this
    exact tors_coprime (cop43 _ _) this (mem_tors.mpr B.qb)

end

theorem _root_.Lemmas.SidhLadder.Indep.p {N : AddSubgroup Γ} {T P Q : Γ} (h : Indep N T P Q) : P ∉ N ∧ P - T ∉ N := by
  have := h.ne 0
  have h2 := h.neT 0
  rw [zero_smul, add_zero] at this h2
  exact ⟨this, h2⟩

theorem _root_.Lemmas.SidhLadder.Indep.add {N : AddSubgroup Γ} {T P Q : Γ} (h : Indep N T P Q) : P + Q ∉ N := by
  have := h.ne 1
  rwa [one_smul] at this

theorem _root_.Lemmas.SidhLadder.Indep.sub {N : AddSubgroup Γ} {T P Q : Γ} (h : Indep N T P Q) : P - Q ∉ N ∧ P - Q - T ∉ N := by
  have := h.ne (-1)
  have h2 := h.neT (-1)
  rw [neg_one_smul, ← sub_eq_add_neg] at this h2
  exact ⟨this, h2⟩

/-- the coefficient is recovered from the three x-coordinates -/
theorem recover_spec {s : St K Γ} {T P Q : Γ} (X : s.Ok T) (hI : Indep s.N T P Q) (hQ : Q ∉ s.N) (hQ' : Q - T ∉ s.N) :
    recoverCoordinateA (fieldOps K) 1 (s.g P) (s.g Q) (s.g (P - Q)) = s.A := by
  have D := X.add P Q hI.p.1 hQ hI.add hI.sub.1
  refine recoverCoordinateA_eq X.four (X.ne_zero hI.p.1 hI.p.2) (X.ne_zero hQ hQ') (X.ne_zero hI.sub.1 hI.sub.2) ?_
  rw [D.summ, sub_self, mul_zero, mul_zero]

/-- The constants of the parameter set are the x-coordinates of the points. -/
structure Consts (c : CParams K) (s : St K Γ) (T PA QA PB QB : Γ) : Prop where
  one : c.one = 1
  half : c.half + c.half = 1
  initA : c.initA = s.A
  initC : c.initC = 1
  pA : c.pA = s.g PA
  qA : c.qA = s.g QA
  rA : c.rA = s.g (PA - QA)
  pB : c.pB = s.g PB
  qB : c.qB = s.g QB
  rB : c.rB = s.g (PB - QB)
  stratA : idxOk' c.stratA.length c.stratA [] 0 = true
  stratB : idxOk' c.stratB.length c.stratB [] 0 = true
  bitsA : c.bitsA ≤ 2 * (c.stratA.length + 1)

/-- secret point of A -/
def RA (c : CParams K) (PA QA : Γ) (sk : List Byte) : Γ := PA + ((bval sk % 2 ^ c.bitsA : Nat) : ℤ) • QA
/-- secret point of B -/
def RB (c : CParams K) (PB QB : Γ) (sk : List Byte) : Γ := PB + ((bval sk % 2 ^ c.bitsB : Nat) : ℤ) • QB

/-- quotient by A's secret point -/
def quoA (c : CParams K) (PA QA : Γ) (sk : List Byte) (s : St K Γ) : St K Γ := s.run4 (kers 4 (RA c PA QA sk) (c.stratA.length + 1))
def quoB (c : CParams K) (PB QB : Γ) (sk : List Byte) (s : St K Γ) : St K Γ := s.run3 (kers 3 (RB c PB QB sk) (c.stratB.length + 1))

section
variable {T PA QA PB QB : Γ} {c : CParams K} {s0 : St K Γ} (C : Consts c s0 T PA QA PB QB)
variable (B : Basis c.stratA.length c.stratB.length T PA QA PB QB)
include C B

theorem pubA_spec (X : s0.Ok T) (h0 : s0.N = ⊥) (sk : List Byte) (hl : c.bitsA ≤ 8 * sk.length) :
    publicKeyGenA (fieldOps K) c sk =
      some ⟨(quoA c PA QA sk s0).g PB, (quoA c PA QA sk s0).g QB, (quoA c PA QA sk s0).g (PB - QB)⟩ := by
  have hN : s0.N ≤ tors Γ (3 ^ (c.stratB.length + 1)) := by rw [h0]; exact bot_le
  have hI := B.indepA hN
  obtain ⟨x, h1, h2⟩ := scalarMul3Pt_spec X hI (c := ⟨c.initA, c.initC⟩) ⟨by rw [C.initC]; exact one_ne_zero, by rw [C.initA, C.initC, mul_one]⟩
    sk c.bitsA hl (fun j hj => B.powA X.TN j (lt_of_lt_of_le hj C.bitsA))
    (p := ⟨c.pA, c.one⟩) (q := ⟨c.qA, c.one⟩) (r := ⟨c.rA, c.one⟩) (by rw [C.one, C.pA]; exact rep_one _)
    (fun _ => by rw [C.one, C.qA]; exact rep_one _) (by rw [C.one, C.rA]; exact rep_one _)
  have hNA : (quoA c PA QA sk s0).N ≤ tors Γ (4 ^ (c.stratA.length + 1)) := by
    refine le_trans (run4_le _ _ _ _) ?_
    rw [h0, bot_sup_eq]
    exact AddSubgroup.zmultiples_le_of_mem (B.memA _)
  have hIB := B.indepB hNA
  obtain ⟨y, e, h3, _, h4⟩ := traverseTreeA_spec X (R := RA c PA QA sk) C.stratA (B.ker4 hN _) (c := ⟨c.initA, c.initC⟩)
    ⟨by rw [C.initC]; exact one_ne_zero, by rw [C.initA, C.initC, mul_one]⟩ h2 [PB, QB, PB - QB]
    (by
      intro P hP
      simp only [List.mem_cons, List.not_mem_nil, or_false] at hP
      rcases hP with rfl | rfl | rfl
      · exact hIB.p.1
      · exact (B.shiftB hNA).1
      · exact hIB.sub.1)
    (extra := [⟨c.pB, c.one⟩, ⟨c.qB, c.one⟩, ⟨c.rB, c.one⟩])
    (by
      rw [C.one, C.pB, C.qB, C.rB]
      exact .cons (rep_one _) (.cons (rep_one _) (.cons (rep_one _) .nil)))
  rw [publicKeyGenA, h1]
  simp only [Option.bind_eq_bind, Option.bind_some]
  rw [h3]
  simp only [Option.bind_some]
  match e, h4 with
  | [e1, e2, e3], .cons r1 (.cons r2 (.cons r3 .nil)) =>
    simp only
    rw [batch3_eq r1.1 r2.1 r3.1]
    simp only [fmul]
    rw [rep_div r1, rep_div r2, rep_div r3]
    rfl

theorem pubB_spec (X : s0.Ok T) (h0 : s0.N = ⊥) (sk : List Byte) (hl : c.bitsB ≤ 8 * sk.length) :
    publicKeyGenB (fieldOps K) c sk =
      some ⟨(quoB c PB QB sk s0).g PA, (quoB c PB QB sk s0).g QA, (quoB c PB QB sk s0).g (PA - QA)⟩ := by
  have hN : s0.N ≤ tors Γ (4 ^ (c.stratA.length + 1)) := by rw [h0]; exact bot_le
  have hI := B.indepB hN
  obtain ⟨x, h1, h2⟩ := scalarMul3Pt_spec X hI (c := ⟨c.initA, c.initC⟩) ⟨by rw [C.initC]; exact one_ne_zero, by rw [C.initA, C.initC, mul_one]⟩
    sk c.bitsB hl (fun j _ => B.powB hN j)
    (p := ⟨c.pB, c.one⟩) (q := ⟨c.qB, c.one⟩) (r := ⟨c.rB, c.one⟩) (by rw [C.one, C.pB]; exact rep_one _)
    (fun _ => by rw [C.one, C.qB]; exact rep_one _) (by rw [C.one, C.rB]; exact rep_one _)
  have hNB : (quoB c PB QB sk s0).N ≤ tors Γ (3 ^ (c.stratB.length + 1)) := by
    refine le_trans (run3_le _ _ _ _) ?_
    rw [h0, bot_sup_eq]
    exact AddSubgroup.zmultiples_le_of_mem (B.memB _)
  have hIA := B.indepA hNB
  have Xq : (quoB c PB QB sk s0).Ok T := X.run3 (Good3.kers (B.ker3 hN _))
  obtain ⟨y, e, h3, _, h4⟩ := traverseTreeB_spec X (R := RB c PB QB sk) C.stratB (B.ker3 hN _) (c := ⟨c.initA, c.initC⟩)
    ⟨by rw [C.initC]; exact one_ne_zero, by rw [C.initA, C.initC, mul_one]⟩ h2 [PA, QA, PA - QA]
    (by
      intro P hP
      simp only [List.mem_cons, List.not_mem_nil, or_false] at hP
      rcases hP with rfl | rfl | rfl
      · exact hIA.p.1
      · exact (B.shiftA Xq.TN).1
      · exact hIA.sub.1)
    (extra := [⟨c.pA, c.one⟩, ⟨c.qA, c.one⟩, ⟨c.rA, c.one⟩])
    (by
      rw [C.one, C.pA, C.qA, C.rA]
      exact .cons (rep_one _) (.cons (rep_one _) (.cons (rep_one _) .nil)))
  rw [publicKeyGenB, h1]
  simp only [Option.bind_eq_bind, Option.bind_some]
  rw [h3]
  simp only [Option.bind_some]
  match e, h4 with
  | [e1, e2, e3], .cons r1 (.cons r2 (.cons r3 .nil)) =>
    simp only
    rw [batch3_eq r1.1 r2.1 r3.1]
    simp only [fmul]
    rw [rep_div r1, rep_div r2, rep_div r3]
    rfl

/-- Deriving with A's key from the images of PA, QA, PA − QA on any curve divided by B-torsion. -/
theorem deriveA_spec {s : St K Γ} (X : s.Ok T) (hN : s.N ≤ tors Γ (3 ^ (c.stratB.length + 1))) (sk : List Byte)
    (hl : c.bitsA ≤ 8 * sk.length) :
    deriveA (fieldOps K) c sk ⟨s.g PA, s.g QA, s.g (PA - QA)⟩ = some (jInv (quoA c PA QA sk s).A) := by
  have hI := B.indepA hN
  have hrec : recoverCoordinateA (fieldOps K) c.one (s.g PA) (s.g QA) (s.g (PA - QA)) = s.A := by
    rw [C.one]; exact recover_spec X hI (B.shiftA X.TN).1 (B.shiftA X.TN).2
  obtain ⟨x, h1, h2⟩ := scalarMul3Pt_spec X hI (c := ⟨s.A, c.initC⟩) ⟨by rw [C.initC]; exact one_ne_zero, by rw [C.initC, mul_one]⟩
    sk c.bitsA hl (fun j hj => B.powA X.TN j (lt_of_lt_of_le hj C.bitsA))
    (p := ⟨s.g PA, c.one⟩) (q := ⟨s.g QA, c.one⟩) (r := ⟨s.g (PA - QA), c.one⟩) (by rw [C.one]; exact rep_one _)
    (fun _ => by rw [C.one]; exact rep_one _) (by rw [C.one]; exact rep_one _)
  obtain ⟨y, e, h3, h4, _⟩ := traverseTreeA_spec X (R := RA c PA QA sk) C.stratA (B.ker4 hN _) (c := ⟨s.A, c.initC⟩)
    ⟨by rw [C.initC]; exact one_ne_zero, by rw [C.initC, mul_one]⟩ h2 [] (by simp) (extra := []) .nil
  rw [deriveA]
  simp only [hrec, Option.bind_eq_bind]
  rw [h1]
  simp only [Option.bind_some]
  rw [h3]
  simp only [Option.bind_some]
  rw [jinvariant_eq (recover4 C.half h4)]
  rfl

theorem deriveB_spec {s : St K Γ} (X : s.Ok T) (hN : s.N ≤ tors Γ (4 ^ (c.stratA.length + 1))) (sk : List Byte)
    (hl : c.bitsB ≤ 8 * sk.length) :
    deriveB (fieldOps K) c sk ⟨s.g PB, s.g QB, s.g (PB - QB)⟩ = some (jInv (quoB c PB QB sk s).A) := by
  have hI := B.indepB hN
  have hrec : recoverCoordinateA (fieldOps K) c.one (s.g PB) (s.g QB) (s.g (PB - QB)) = s.A := by
    rw [C.one]; exact recover_spec X hI (B.shiftB hN).1 (B.shiftB hN).2
  obtain ⟨x, h1, h2⟩ := scalarMul3Pt_spec X hI (c := ⟨s.A, c.initC⟩) ⟨by rw [C.initC]; exact one_ne_zero, by rw [C.initC, mul_one]⟩
    sk c.bitsB hl (fun j _ => B.powB hN j)
    (p := ⟨s.g PB, c.one⟩) (q := ⟨s.g QB, c.one⟩) (r := ⟨s.g (PB - QB), c.one⟩) (by rw [C.one]; exact rep_one _)
    (fun _ => by rw [C.one]; exact rep_one _) (by rw [C.one]; exact rep_one _)
  obtain ⟨y, e, h3, h4, _⟩ := traverseTreeB_spec X (R := RB c PB QB sk) C.stratB (B.ker3 hN _) (c := ⟨s.A, c.initC⟩)
    ⟨by rw [C.initC]; exact one_ne_zero, by rw [C.initC, mul_one]⟩ h2 [] (by simp) (extra := []) .nil
  rw [deriveB]
  simp only [hrec, Option.bind_eq_bind]
  rw [h1]
  simp only [Option.bind_some]
  rw [h3]
  simp only [Option.bind_some]
  rw [jinvariant_eq (recover3 X.four h4)]
  rfl

/-- Agreement. -/
theorem agree (X : s0.Ok T) (h0 : s0.N = ⊥) (a b : List Byte) (ha : c.bitsA ≤ 8 * a.length) (hb : c.bitsB ≤ 8 * b.length) :
    ∃ pa pb j, publicKeyGenA (fieldOps K) c a = some pa ∧ publicKeyGenB (fieldOps K) c b = some pb ∧
      deriveA (fieldOps K) c a pb = some j ∧ deriveB (fieldOps K) c b pa = some j := by
  have hN4 : s0.N ≤ tors Γ (4 ^ (c.stratA.length + 1)) := by rw [h0]; exact bot_le
  have hN3 : s0.N ≤ tors Γ (3 ^ (c.stratB.length + 1)) := by rw [h0]; exact bot_le
  have hNA : (quoA c PA QA a s0).N ≤ tors Γ (4 ^ (c.stratA.length + 1)) := by
    refine le_trans (run4_le _ _ _ _) ?_
    rw [h0, bot_sup_eq]
    exact AddSubgroup.zmultiples_le_of_mem (B.memA _)
  have hNB : (quoB c PB QB b s0).N ≤ tors Γ (3 ^ (c.stratB.length + 1)) := by
    refine le_trans (run3_le _ _ _ _) ?_
    rw [h0, bot_sup_eq]
    exact AddSubgroup.zmultiples_le_of_mem (B.memB _)
  have gA : Good4 T (kers 4 (RA c PA QA a) (c.stratA.length + 1)) s0.N := Good4.kers (B.ker4 hN3 _) X.T2
  have gB : Good3 (kers 3 (RB c PB QB b) (c.stratB.length + 1)) s0.N := Good3.kers (B.ker3 hN4 _)
  have XA : (quoA c PA QA a s0).Ok T := X.run4 gA
  have XB : (quoB c PB QB b s0).Ok T := X.run3 gB
  refine ⟨_, _, _, pubA_spec C B X h0 a ha, pubB_spec C B X h0 b hb, deriveA_spec C B XB hNB a ha, ?_⟩
  rw [deriveB_spec C B XA hNA b hb]
  have := (St.confluent X gA gB).1.A
  rw [quoA, quoB, quoB, quoA, this]

end

end Lemmas.SidhAgree
