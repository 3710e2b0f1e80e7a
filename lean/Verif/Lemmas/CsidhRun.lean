import Verif.Lemmas.CsidhValidate
/-
Runs of `Validate` by calculation with numbers modulo p: the word arithmetic gives the same answers, and numbers are fast
enough to be evaluated by the kernel.
-/
namespace Lemmas.CsidhRun
open Model Model.Limb Model.Csidh Lemmas.CsidhNat Spec Spec.Csidh Lemmas.CsidhLadder Lemmas.CsidhField Lemmas.CsidhCurve
  Lemmas.CsidhValidate Lemmas.CsidhAction

local notation "𝕡" => Spec.Csidh.p

/-- p, written out -/
def pl : Nat := 5326738796327623094747867617954605554069371494832722337612446642054009560026576537626892113026381253624626941643949444792662881241621373288942880288065659

theorem pl_eq : pl = 𝕡 := by decide +kernel

/-- numbers modulo p -/
def natOps : Ops Nat where
  zero := 0
  one := 1
  four := 4
  add := fun x y => (x + y) % pl
  sub := fun x y => (x + (pl - y)) % pl
  mul := fun x y => x * y % pl
  exp64 := fun x n => x ^ n.toNat % pl
  cswap := fun x y c => if c = 0 then (x, y) else (y, x)

/-- the words represent the number -/
structure RN (x : Fp) (n : Nat) : Prop where
  elt : IsElt x (n : ZMod 𝕡)
  lt : n < 𝕡

theorem cast_mod (n : Nat) : ((n % pl : Nat) : ZMod 𝕡) = n := by rw [pl_eq, ZMod.natCast_mod]

theorem mod_lt (n : Nat) : n % pl < 𝕡 := by rw [pl_eq]; exact Nat.mod_lt _ (by decide +kernel)

theorem nat_rel : OpsRel limbOps natOps RN := by
  have h := limb_rel
  constructor
  case zero => exact ⟨by have := h.zero; simpa [natOps, fieldOps] using this, by decide +kernel⟩
  case one => exact ⟨by have := h.one; simpa [natOps, fieldOps] using this, by decide +kernel⟩
  case four => exact ⟨by have := h.four; simpa [natOps, fieldOps] using this, by decide +kernel⟩
  case add =>
    intro x y x' y' hx hy
    refine ⟨?_, mod_lt _⟩
    have := h.add hx.elt hy.elt
    show IsElt _ (((x' + y') % pl : Nat) : ZMod 𝕡)
    rw [cast_mod, Nat.cast_add]; exact this
  case sub =>
    intro x y x' y' hx hy
    refine ⟨?_, mod_lt _⟩
    have := h.sub hx.elt hy.elt
    show IsElt _ (((x' + (pl - y')) % pl : Nat) : ZMod 𝕡)
    rw [cast_mod, Nat.cast_add, Nat.cast_sub (by rw [pl_eq]; exact hy.lt.le), pl_eq, ZMod.natCast_self, zero_sub, ← sub_eq_add_neg]; exact this
  case mul =>
    intro x y x' y' hx hy
    refine ⟨?_, mod_lt _⟩
    have := h.mul hx.elt hy.elt
    show IsElt _ ((x' * y' % pl : Nat) : ZMod 𝕡)
    rw [cast_mod, Nat.cast_mul]; exact this
  case exp64 =>
    intro x x' n hx
    refine ⟨?_, mod_lt _⟩
    have := h.exp64 n hx.elt
    show IsElt _ ((x' ^ n.toNat % pl : Nat) : ZMod 𝕡)
    rw [cast_mod, Nat.cast_pow]; exact this
  case cswap =>
    intro x y x' y' c hc hx hy
    have hl := hx.elt.len.trans hy.elt.len.symm
    have hs := Lemmas.CsidhArith.cswap512_spec x y hl
    show RN (cswap512 x y c).1 (if c = 0 then (x', y') else (y', x')).1 ∧ RN (cswap512 x y c).2 (if c = 0 then (x', y') else (y', x')).2
    rcases hc with rfl | rfl
    · rw [hs.1]; exact ⟨hx, hy⟩
    · rw [hs.2]; exact ⟨hy, hx⟩

/-- evaluate the number before going on -/
def force {α : Type} (x : Nat) (f : Nat → α) : α :=
  match x with
  | 0 => f 0
  | n + 1 => f (n + 1)

theorem force_eq {α : Type} (x : Nat) (f : Nat → α) : force x f = f x := by cases x <;> rfl

/-- the loop of `xMul` -/
def ladN (P : Pt Nat) (c : Coef Nat) (k : Nat) : Nat → Nat → Nat → Nat → Nat → Bool → Pt Nat × Pt Nat
  | 0, qx, qz, rx, rz, _ => (⟨qx, qz⟩, ⟨rx, rz⟩)
  | i + 1, qx, qz, rx, rz, prev =>
    let r := if prev = k.testBit i then xDblAdd natOps ⟨qx, qz⟩ ⟨rx, rz⟩ P c else xDblAdd natOps ⟨rx, rz⟩ ⟨qx, qz⟩ P c
    force r.1.x fun qx => force r.1.z fun qz => force r.2.x fun rx => force r.2.z fun rz => ladN P c k i qx qz rx rz (k.testBit i)

theorem ladN_eq (P : Pt Nat) (c : Coef Nat) (k : Fp) : ∀ (i : Nat) (Q R : Pt Nat) (b : Bool),
    xMulLoop natOps P c k i Q R (if b then 1 else 0) = ladN P c (val k) i Q.x Q.z R.x R.z b
  | 0, _, _, _ => rfl
  | i + 1, Q, R, b => by
    rw [xMulLoop, ladN]
    simp only [force_eq]
    have hsw : cswappoint natOps Q R ((if b then 1 else 0) ^^^ bitAt k i) = if b = (val k).testBit i then (Q, R) else (R, Q) := by
      rw [bitAt_testBit]
      cases b <;> cases (val k).testBit i <;> rfl
    simp only [hsw]
    rw [bitAt_testBit, ladN_eq P c k i]
    by_cases h : b = (val k).testBit i
    · simp only [if_pos h]
    · simp only [if_neg h]

/-- the position of the top bit -/
def topN (k : Nat) : Nat → Nat
  | 0 => 0
  | j + 1 => if k.testBit (j + 1) then j + 1 else topN k j

theorem topN_eq (k : Fp) : ∀ j, topBit k j = topN (val k) j
  | 0 => rfl
  | j + 1 => by
    rw [topBit, topN, bitAt_testBit, topN_eq k j]
    cases (val k).testBit (j + 1) <;> rfl

/-- `xMul` on the curve with coefficient (a : 1) -/
def mulN (P : Pt Nat) (a : Nat) (k : Nat) : Pt Nat :=
  let Q := xDbl natOps P ⟨a, 1⟩
  let r := force Q.x fun qx => force Q.z fun qz => ladN P ⟨(2 + a) % pl, 4⟩ k (topN k 511) qx qz P.x P.z true
  if k.testBit 0 then r.2 else r.1

theorem mulN_eq (P : Pt Nat) {a : Nat} (k : Fp) : xMul natOps P ⟨a, 1⟩ k = mulN P a (val k) := by
  rw [xMul, mulN]
  simp only [force_eq, topN_eq]
  have e1 : natOps.add (natOps.add 1 1) a = (2 + a) % pl := by
    show ((1 + 1) % pl + a) % pl = _
    rw [show (1 + 1) % pl = 2 by decide +kernel]
  have e2 : natOps.mul 1 natOps.four = 4 := by decide +kernel
  have hl := ladN_eq P ⟨(2 + a) % pl, 4⟩ k (topN (val k) 511) (xDbl natOps P ⟨a, 1⟩) P true
  rw [if_pos rfl] at hl
  rw [e1, e2, hl, word0_bit, bitAt_testBit]
  cases (val k).testBit 0 <;> rfl

/-- the product of the primes with indices `lo`, …, `lo + n − 1` -/
def prodN (lo n : Nat) : Nat := ((ell.drop lo).take n).prod

/-- `cofactorMul`, with `fuel` nested calls at most -/
def cofN (a : Nat) : Nat → Nat → Nat → Nat → Nat → Nat → Bool × Bool × Nat
  | 0, _, _, _, _, order => (false, false, order)
  | fuel + 1, x, z, lo, n, order =>
    if n = 1 then
      if z = 0 then (false, false, order)
      else if (mulN ⟨x, z⟩ a (ell.getD lo 0)).z = 0 then
        if val fourSqrtP < order * ell.getD lo 0 then (true, true, order * ell.getD lo 0) else (false, false, order * ell.getD lo 0)
      else (true, false, order)
    else
      let h := (n + 1) / 2
      let Q := force (prodN lo h) fun k => mulN ⟨x, z⟩ a k
      let P := force (prodN (lo + h) (n - h)) fun k => mulN ⟨x, z⟩ a k
      let r1 := force Q.x fun x => force Q.z fun z => cofN a fuel x z (lo + h) (n - h) order
      let r2 := force P.x fun x => force P.z fun z => force r1.2.2 fun o => cofN a fuel x z lo h o
      (r1.1 || r2.1, r1.2.1 || r2.2.1, r2.2.2)

theorem primes_ell : primes.map BitVec.toNat = ell := by decide +kernel

theorem prodN_eq (lo n : Nat) : prodN lo n = prodL lo n := by
  rw [prodN, prodL, ← primes_ell, List.map_take, List.map_drop]

theorem ell_word {i : Nat} (h : i < 74) : ell.getD i 0 = (word primes i).toNat := by
  rw [word_primes h, ← primes_ell, List.getD_eq_getElem?_getD, List.getElem?_map, List.getElem?_eq_getElem (by rw [primes_len]; exact h)]
  rfl

theorem isZero_rn {x : Fp} {n : Nat} (h : RN x n) : isZero x = decide (n = 0) := by
  rw [Bool.eq_iff_iff, isZero_elt h.elt, decide_eq_true_iff]
  constructor
  · intro h0
    exact eq_of_cast h.lt (by decide +kernel) (by rw [h0, Nat.cast_zero])
  · intro h0
    rw [h0, Nat.cast_zero]

theorem mul_rn {P : Pt Fp} {P' : Pt Nat} {la : Fp} {a : Nat} (ha : RN la a) (hP : RPt RN P P') (k : Fp) :
    RPt RN (xMul limbOps P ⟨la, one⟩ k) (mulN P' a (val k)) := by
  have := xMul_rel nat_rel hP (A := ⟨la, one⟩) (A' := ⟨a, 1⟩) ⟨ha, nat_rel.one⟩ k
  rwa [mulN_eq] at this

/-- the two agree -/
theorem cofN_spec {la : Fp} {a : Nat} (ha : RN la a) : ∀ (fuel n lo : Nat) (P : Pt Fp) (x z o : Nat) (order : Fp), n ≠ 0 → n ≤ fuel → lo + n ≤ 74 →
    RPt RN P ⟨x, z⟩ → order.length = 8 → val order = o → o * prodL lo n < 2 ^ 512 →
    (cofactorMul P ⟨la, one⟩ lo n order).1 = (cofN a fuel x z lo n o).1 ∧
    (cofactorMul P ⟨la, one⟩ lo n order).2.1 = (cofN a fuel x z lo n o).2.1 ∧
    val (cofactorMul P ⟨la, one⟩ lo n order).2.2 = (cofN a fuel x z lo n o).2.2 ∧
    (cofactorMul P ⟨la, one⟩ lo n order).2.2.length = 8 ∧ (cofN a fuel x z lo n o).2.2 ≤ o * prodL lo n := by
  intro fuel
  induction fuel with
  | zero => intro n lo P x z o order h0 h1; omega
  | succ fuel ih =>
    intro n lo P x z o order hn hf hlo hP ho hv hlt
    rw [cofactorMul, if_neg hn, cofN]
    by_cases h1 : n = 1
    · subst h1
      rw [if_pos rfl, if_pos rfl]
      rw [prodL_one (by omega)] at hlt ⊢
      rw [ell_word (by omega)]
      have hmem : word primes lo ∈ primes := by rw [word_primes (by omega)]; exact List.getElem_mem _
      obtain ⟨l, hl⟩ : ∃ l, word primes lo = l := ⟨_, rfl⟩
      rw [hl] at hmem hlt
      simp only [hl]
      have hpos := primes_pos l hmem
      have hfv := fpw_val l
      have hM := mul_rn ha hP (fpw l)
      rw [hfv.2] at hM
      obtain ⟨P', hP'⟩ : ∃ P', xMul limbOps P ⟨la, one⟩ (fpw l) = P' := ⟨_, rfl⟩
      obtain ⟨P'', hP''⟩ : ∃ P', mulN ⟨x, z⟩ a l.toNat = P' := ⟨_, rfl⟩
      simp only [hP', hP''] at hM ⊢
      have hms := Lemmas.CsidhArith.mul512_spec order l ho
      rw [hv, Nat.mod_eq_of_lt hlt] at hms
      obtain ⟨o', ho'⟩ : ∃ o', mul512 order l = o' := ⟨_, rfl⟩
      simp only [ho'] at hms ⊢
      have hless : isLess fourSqrtP o' = decide (val fourSqrtP < o * l.toNat) := by
        rw [Bool.eq_iff_iff, Lemmas.CsidhArith.isLess_spec _ _ (by rw [hms.1]; rfl), hms.2, decide_eq_true_iff]
      have hle : o ≤ o * l.toNat := Nat.le_mul_of_pos_right _ hpos
      rw [isZero_rn hP.z, isZero_rn hM.z, hless]
      by_cases hz : z = 0
      · simp [hz, hv, ho, hle]
      · by_cases hz' : P''.z = 0
        · by_cases hb : val fourSqrtP < o * l.toNat
          · simp [hz, hz', hb, hms]
          · simp [hz, hz', hb, hms]
        · simp [hz, hz', hv, ho, hle]
    · rw [if_neg h1, if_neg h1]
      obtain ⟨h, hh⟩ : ∃ h, (n + 1) / 2 = h := ⟨_, rfl⟩
      obtain ⟨m, hm⟩ : ∃ m, n - h = m := ⟨_, rfl⟩
      have hnm : n = h + m := by omega
      simp only [hh, hm, force_eq, prodN_eq]
      have hsplit : prodL lo n = prodL lo h * prodL (lo + h) m := by rw [hnm, prodL_split]
      have hR := mulPrimes_val (lo := lo) (n := h) (by omega)
      have hL := mulPrimes_val (lo := lo + h) (n := m) (by omega)
      have hAR := mul_rn ha hP (mulPrimes lo h (fpw 1))
      have hAL := mul_rn ha hP (mulPrimes (lo + h) m (fpw 1))
      rw [hR.2] at hAR
      rw [hL.2] at hAL
      obtain ⟨PR, hPR⟩ : ∃ x, xMul limbOps P ⟨la, one⟩ (mulPrimes lo h (fpw 1)) = x := ⟨_, rfl⟩
      obtain ⟨PL, hPL⟩ : ∃ x, xMul limbOps P ⟨la, one⟩ (mulPrimes (lo + h) m (fpw 1)) = x := ⟨_, rfl⟩
      obtain ⟨NR, hNR⟩ : ∃ y, mulN ⟨x, z⟩ a (prodL lo h) = y := ⟨_, rfl⟩
      obtain ⟨NL, hNL⟩ : ∃ y, mulN ⟨x, z⟩ a (prodL (lo + h) m) = y := ⟨_, rfl⟩
      simp only [hPR, hNR] at hAR ⊢
      simp only [hPL, hNL] at hAL ⊢
      have hp1 := prodL_pos lo h
      have hp2 := prodL_pos (lo + h) m
      have b1 : o * prodL (lo + h) m < 2 ^ 512 := lt_of_le_of_lt (by
        rw [hsplit]
        exact Nat.mul_le_mul_left _ (Nat.le_mul_of_pos_left _ hp1)) hlt
      obtain ⟨i1, i2, i3, i4, i5⟩ := ih m (lo + h) PR NR.x NR.z o order (by omega) (by omega) (by omega) hAR ho hv b1
      obtain ⟨r1, hr1⟩ : ∃ x, cofactorMul PR ⟨la, one⟩ (lo + h) m order = x := ⟨_, rfl⟩
      obtain ⟨q1, hq1⟩ : ∃ x, cofN a fuel NR.x NR.z (lo + h) m o = x := ⟨_, rfl⟩
      simp only [hr1, hq1] at i1 i2 i3 i4 i5 ⊢
      have b3 : q1.2.2 * prodL lo h ≤ o * prodL lo n := by
        rw [hsplit]
        calc q1.2.2 * prodL lo h ≤ o * prodL (lo + h) m * prodL lo h := Nat.mul_le_mul_right _ i5
          _ = _ := by ring
      obtain ⟨j1, j2, j3, j4, j5⟩ := ih h lo PL NL.x NL.z q1.2.2 r1.2.2 (by omega) (by omega) (by omega) hAL i4 i3 (lt_of_le_of_lt b3 hlt)
      obtain ⟨r2, hr2⟩ : ∃ x, cofactorMul PL ⟨la, one⟩ lo h r1.2.2 = x := ⟨_, rfl⟩
      obtain ⟨q2, hq2⟩ : ∃ x, cofN a fuel NL.x NL.z lo h q1.2.2 = x := ⟨_, rfl⟩
      simp only [hr2, hq2] at j1 j2 j3 j4 j5 ⊢
      exact ⟨by rw [i1, j1], by rw [i2, j2], j3, j4, j5.trans b3⟩

/-- one round of `Validate` -/
def roundN (a x : Nat) : Bool × Bool × Nat :=
  let P := xDbl natOps ⟨x, 1⟩ ⟨a, 1⟩
  force P.x fun x => force P.z fun z =>
  let P := xDbl natOps ⟨x, z⟩ ⟨a, 1⟩
  force P.x fun x => force P.z fun z => cofN a 74 x z 0 74 1

theorem validateLoop_run {la lx : Fp} {a x : Nat} (ha : RN la a) (hx : RN lx x) {rng rest : List Byte} (hr : randFp rng = some (lx, rest))
    (h : (roundN a x).1 = true) : validateLoop la rng = some ((roundN a x).2.1, rest) := by
  have h1 := xDbl_rel nat_rel (P := ⟨lx, one⟩) (P' := ⟨x, 1⟩) ⟨hx, nat_rel.one⟩ (A := ⟨la, one⟩) (A' := ⟨a, 1⟩) ⟨ha, nat_rel.one⟩
  have h2 := xDbl_rel nat_rel h1 (A := ⟨la, one⟩) (A' := ⟨a, 1⟩) ⟨ha, nat_rel.one⟩
  have hf := fpw_val 1
  have hs := cofN_spec ha 74 74 0 _ (xDbl natOps (xDbl natOps ⟨x, 1⟩ ⟨a, 1⟩) ⟨a, 1⟩).x (xDbl natOps (xDbl natOps ⟨x, 1⟩ ⟨a, 1⟩) ⟨a, 1⟩).z 1 (fpw 1) (by decide) le_rfl (by decide) h2 hf.1 hf.2 (by rw [one_mul]; exact prodL_lt (by decide))
  have e : cofN a 74 (xDbl natOps (xDbl natOps ⟨x, 1⟩ ⟨a, 1⟩) ⟨a, 1⟩).x (xDbl natOps (xDbl natOps ⟨x, 1⟩ ⟨a, 1⟩) ⟨a, 1⟩).z 0 74 1 = roundN a x := by
    rw [roundN]
    simp only [force_eq]
  rw [e] at hs
  rw [validateLoop_def hr]
  rw [hs.1, if_pos h, hs.2.1]

theorem four_rn : RN four 4 := nat_rel.four
theorem zero_rn : RN (List.replicate 8 0) 0 := nat_rel.zero
theorem one_rn : RN one 1 := nat_rel.one

/-- drawing a given number -/
theorem rand_elt {v : Fp} {α : ZMod 𝕡} (hv : IsElt v α) (l : List Byte) : randFp (fpBytes v ++ l) = some (v, l) := by
  have hlen : (fpBytes v).length = 64 := by simp [fpBytes]
  have hc : Spec.Csidh.candidate (fpBytes v ++ l) 0 = val v := by
    rw [Spec.Csidh.candidate]
    simp only [Nat.mul_zero, List.drop_zero]
    rw [List.take_append_of_le_length (by omega), List.take_of_length_le (by omega), Lemmas.CsidhKeys.fpBytes_eq v,
      Lemmas.SidhBytes.bval_leBytes]
    have hp : 𝕡 < 2 ^ 511 := by decide +kernel
    have hlt := lt_trans hv.lt hp
    rw [Nat.mod_eq_of_lt (a := val v) (lt_trans hlt (by decide +kernel)), Nat.mod_eq_of_lt hlt]
  refine (Lemmas.CsidhKeys.randFp_some _ _ _).mpr ⟨0, ?_, ?_, by simp, hv.len, hc.symm, ?_⟩
  · rw [List.length_append]; omega
  · rw [hc]; exact hv.lt
  · show l = List.drop (64 * 1) _
    rw [← hlen, Nat.mul_one, List.drop_left]

theorem square68 : IsSquare (68 : ZMod 𝕡) := by
  refine ⟨((4845768305685746581324956377815708074922378338153254023399275925243913881833732187394622851233006811365783990935448873431141725059301450007731379579311082 : Nat) : ZMod 𝕡), ?_⟩
  have h : ((4845768305685746581324956377815708074922378338153254023399275925243913881833732187394622851233006811365783990935448873431141725059301450007731379579311082 * 4845768305685746581324956377815708074922378338153254023399275925243913881833732187394622851233006811365783990935448873431141725059301450007731379579311082 % 𝕡 : Nat) : ZMod 𝕡) = ((68 : Nat) : ZMod 𝕡) := congrArg _ (by decide +kernel)
  rw [ZMod.natCast_mod, Nat.cast_mul] at h
  exact_mod_cast h.symm

theorem square_neg2 : IsSquare (-2 : ZMod 𝕡) := by
  refine ⟨((4658138014885095396202969690430164610438270413308904342249635333513364405248504404899924984309883651192555231459836100379909702359450121272527111400746801 : Nat) : ZMod 𝕡), ?_⟩
  have h : ((((4658138014885095396202969690430164610438270413308904342249635333513364405248504404899924984309883651192555231459836100379909702359450121272527111400746801 * 4658138014885095396202969690430164610438270413308904342249635333513364405248504404899924984309883651192555231459836100379909702359450121272527111400746801) + 2) % 𝕡 : Nat) : ZMod 𝕡) = ((0 : Nat) : ZMod 𝕡) := congrArg _ (by decide +kernel)
  rw [ZMod.natCast_mod, Nat.cast_add, Nat.cast_mul, Nat.cast_zero, Nat.cast_two] at h
  linear_combination -h

/-- the points with x = 4 on y² = x³ + x -/
theorem round_0_4 : (roundN 0 4).1 = true ∧ (roundN 0 4).2.1 = true := by decide +kernel

/-- the points with x = 4 on y² = x³ + x² + x -/
theorem round_1_4 : (roundN 1 4).1 = true ∧ (roundN 1 4).2.1 = false := by decide +kernel

end Lemmas.CsidhRun
