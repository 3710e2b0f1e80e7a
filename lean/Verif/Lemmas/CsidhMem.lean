import Verif.Model.CsidhMem
import Mathlib.Data.List.GetD
/-
Lemmas for Props/CsidhMem.
-/
namespace Lemmas.CsidhMem
open Model Model.Limb Model.Csidh Model.Csidh.Mem

variable {F : Type} (o : Ops F) {L : Type} [DecidableEq L]

@[simp] theorem setX_ne (m : L → Pt F) {l b : L} (v : F) (h : b ≠ l) : setX m l v b = m b := if_neg h
@[simp] theorem setZ_ne (m : L → Pt F) {l b : L} (v : F) (h : b ≠ l) : setZ m l v b = m b := if_neg h
@[simp] theorem setX_x (m : L → Pt F) (l : L) (v : F) : (setX m l v l).x = v := by simp [setX]
@[simp] theorem setX_z (m : L → Pt F) (l b : L) (v : F) : (setX m l v b).z = (m b).z := by
  unfold setX; split <;> rfl
@[simp] theorem setZ_z (m : L → Pt F) (l : L) (v : F) : (setZ m l v l).z = v := by simp [setZ]
@[simp] theorem setZ_x (m : L → Pt F) (l b : L) (v : F) : (setZ m l v b).x = (m b).x := by
  unfold setZ; split <;> rfl
@[simp] theorem setX_x_ne (m : L → Pt F) {l b : L} (v : F) (h : b ≠ l) : (setX m l v b).x = (m b).x := by rw [setX_ne m v h]
@[simp] theorem setZ_z_ne (m : L → Pt F) {l b : L} (v : F) (h : b ≠ l) : (setZ m l v b).z = (m b).z := by rw [setZ_ne m v h]

theorem pt_ext {P Q : Pt F} (hx : P.x = Q.x) (hz : P.z = Q.z) : P = Q := by
  cases P; cases Q; cases hx; cases hz; rfl

theorem xAddM_spec (PaQ P Q PdQ : L) (m : L → Pt F) (h : PaQ ≠ PdQ) (l : L) :
    xAddM o PaQ P Q PdQ m l = if l = PaQ then xAdd o (m P) (m Q) (m PdQ) else m l := by
  have h' := h.symm
  by_cases hl : l = PaQ
  · subst hl
    rw [if_pos rfl]
    apply pt_ext <;> simp [xAddM, xAdd, h']
  · rw [if_neg hl]
    simp [xAddM, hl]

theorem xDblM_spec (Q P A : L) (m : L → Pt F) (h : Q ≠ A) (l : L) :
    xDblM o Q P A m l = if l = Q then xDbl o (m P) (m A) else m l := by
  have h' := h.symm
  by_cases hl : l = Q
  · subst hl
    rw [if_pos rfl]
    apply pt_ext <;> simp [xDblM, xDbl, h']
  · rw [if_neg hl]
    simp [xDblM, hl]

theorem xDblAddM_spec (PaP PaQ P Q PdQ : L) (A24 : Coef F) (m : L → Pt F) (h1 : PaP ≠ PaQ) (h2 : PaP ≠ Q)
    (h3 : PaP ≠ PdQ) (h4 : PaQ ≠ PdQ) (l : L) :
    xDblAddM o PaP PaQ P Q PdQ A24 m l =
      if l = PaP then (xDblAdd o (m P) (m Q) (m PdQ) A24).1
      else if l = PaQ then (xDblAdd o (m P) (m Q) (m PdQ) A24).2 else m l := by
  have h1' := h1.symm
  have h2' := h2.symm
  have h3' := h3.symm
  have h4' := h4.symm
  by_cases hl : l = PaP
  · subst hl
    rw [if_pos rfl]
    apply pt_ext <;> simp [xDblAddM, xDblAdd, h1, h1', h2, h2', h3, h3', h4, h4']
  · rw [if_neg hl]
    by_cases hq : l = PaQ
    · subst hq
      rw [if_pos rfl]
      apply pt_ext <;> simp [xDblAddM, xDblAdd, h1, h1', h2, h2', h3, h3', h4, h4']
    · rw [if_neg hq]
      simp [xDblAddM, hl, hq]

theorem cswappointM_spec (P1 P2 : L) (c : Byte) (m : L → Pt F) (h : P1 ≠ P2) (l : L) :
    cswappointM o P1 P2 c m l =
      if l = P1 then (cswappoint o (m P1) (m P2) c).1 else if l = P2 then (cswappoint o (m P1) (m P2) c).2 else m l := by
  have h' := h.symm
  by_cases hl : l = P1
  · subst hl
    rw [if_pos rfl]
    apply pt_ext <;> simp [cswappointM, cswappoint, h, h']
  · rw [if_neg hl]
    by_cases hq : l = P2
    · subst hq
      rw [if_pos rfl]
      apply pt_ext <;> simp [cswappointM, cswappoint, h, h']
    · rw [if_neg hq]
      simp [cswappointM, hl, hq]

/-- The loop of `xMul` in memory. -/
theorem xMulLoopM_spec (P : L) (A24 : Coef F) (k : Fp) (i : Nat) : ∀ (prev : Byte) (m : MulLoc L → Pt F),
    (∀ l, xMulLoopM o P A24 k i prev m (.caller l) = m (.caller l)) ∧
    (xMulLoopM o P A24 k i prev m .Q, xMulLoopM o P A24 k i prev m .R) =
      xMulLoop o (m (.caller P)) A24 k i (m .Q) (m .R) prev := by
  induction i with
  | zero => intro prev m; exact ⟨fun _ => rfl, rfl⟩
  | succ i ih =>
    intro prev m
    obtain ⟨ih1, ih2⟩ := ih (bitAt k i)
      (xDblAddM o .Q .R .Q .R (.caller P) A24 (cswappointM o .Q .R (prev ^^^ bitAt k i) m))
    have hc : ∀ l, xDblAddM o .Q .R .Q .R (.caller P) A24 (cswappointM o .Q .R (prev ^^^ bitAt k i) m) (.caller l) =
        m (.caller l) := by
      intro l
      rw [xDblAddM_spec o _ _ _ _ _ _ _ (by simp) (by simp) (by simp) (by simp)]
      simp [cswappointM_spec]
    refine ⟨fun l => ?_, ?_⟩
    · change xMulLoopM o P A24 k i _ _ _ = _
      rw [ih1, hc]
    · change (xMulLoopM o P A24 k i _ _ _, xMulLoopM o P A24 k i _ _ _) = _
      rw [ih2, hc, xDblAddM_spec o _ _ _ _ _ _ _ (by simp) (by simp) (by simp) (by simp),
        xDblAddM_spec o _ _ _ _ _ _ _ (by simp) (by simp) (by simp) (by simp), cswappointM_spec o _ _ _ _ (by simp),
        cswappointM_spec o _ _ _ _ (by simp), cswappointM_spec o _ _ _ _ (by simp)]
      simp [xMulLoop]

theorem xMulM_spec (kP P : L) (co : Coef F) (k : Fp) (m : L → Pt F) (l : L) :
    xMulM o kP P co k m l = if l = kP then xMul o (m P) co k else m l := by
  unfold xMulM
  generalize hmm : (fun x : MulLoc L => (match x with
    | .caller l => m l
    | .Q => ⟨o.zero, o.zero⟩
    | .R => m P
    | .A => ⟨co.a, co.c⟩ : Pt F)) = mm
  obtain ⟨h1, h2⟩ := xMulLoopM_spec o P ⟨o.add (o.add co.c co.c) co.a, o.mul co.c o.four⟩ k (topBit k 511) 1
    (xDblM o .Q (.caller P) .A mm)
  have hd : ∀ b, xDblM o .Q (.caller P) .A mm b = if b = .Q then xDbl o (m P) ⟨co.a, co.c⟩ else mm b := by
    intro b
    rw [xDblM_spec o _ _ _ _ (by simp), ← hmm]
  simp only [hd] at h1 h2
  have e1 := congrArg Prod.fst h2
  have e2 := congrArg Prod.snd h2
  simp only at e1 e2
  by_cases hl : l = kP
  · subst hl
    rw [if_pos rfl]
    simp only [setPt, if_true]
    rw [cswappointM_spec o _ _ _ _ (by simp), if_pos rfl, e1, e2, ← hmm]
    rfl
  · rw [if_neg hl]
    have hne : (MulLoc.caller l : MulLoc L) ≠ .caller kP := by simpa using hl
    simp only [setPt, if_neg hne]
    rw [cswappointM_spec o _ _ _ _ (by simp)]
    simp only [reduceCtorEq, if_false]
    rw [h1, ← hmm]
    simp

/-- The state of the loop of `xIso` in memory and as values. -/
structure SameIso (m0 : L → Pt F) (s : (IsoLoc L → Pt F) × Pt F × Pt F) (t : IsoSt F) : Prop where
  caller : ∀ l, s.1 (.caller l) = m0 l
  len : t.M.length = 3
  M : ∀ j < 3, ∀ d, s.1 (.M j) = t.M.getD j d
  prod : s.2.1 = t.prod
  Q : s.2.2 = t.Q

theorem isoStepM_spec (m0 : L → Pt F) (kern : L) (S D : F) (i : Nat) (s : (IsoLoc L → Pt F) × Pt F × Pt F) (t : IsoSt F)
    (h : SameIso m0 s t) : SameIso m0 (isoStepM o kern S D i s) (isoStep o (m0 kern) S D i t) := by
  obtain ⟨m, prod, Q⟩ := s
  obtain ⟨hc, hl, hM, hp, hQ⟩ := h
  simp only at hc hM hp hQ
  subst hp hQ
  have key : ∀ j < 3, ∀ d, (if 2 ≤ i then xAddM o (.M (i % 3)) (.M ((i - 1) % 3)) (.caller kern) (.M ((i - 2) % 3)) m else m) (.M j) =
      (if 2 ≤ i then t.M.set (i % 3) (xAdd o (t.M.getD ((i - 1) % 3) (m0 kern)) (m0 kern) (t.M.getD ((i - 2) % 3) (m0 kern))) else t.M).getD j d := by
    intro j hj d
    by_cases hi : 2 ≤ i
    · rw [if_pos hi, if_pos hi, xAddM_spec o _ _ _ _ _ (by simp only [ne_eq, IsoLoc.M.injEq]; omega)]
      rw [hM _ (by omega) (m0 kern), hM _ (by omega) (m0 kern), hc, hM j hj d]
      simp only [IsoLoc.M.injEq]
      by_cases hji : j = i % 3
      · subst hji
        generalize xAdd o _ _ _ = w
        rw [if_pos rfl, List.getD_eq_getElem _ _ (by rw [List.length_set]; omega), List.getElem_set_self]
      · generalize xAdd o _ _ _ = w
        rw [if_neg hji, List.getD_eq_getElem _ _ (by omega), List.getD_eq_getElem _ _ (by rw [List.length_set]; omega),
          List.getElem_set_ne (by omega)]
    · rw [if_neg hi, if_neg hi, hM j hj d]
  have hm := key (i % 3) (by omega) (m0 kern)
  refine ⟨fun l => ?_, ?_, key, ?_, ?_⟩
  · change (if 2 ≤ i then xAddM o (.M (i % 3)) (.M ((i - 1) % 3)) (.caller kern) (.M ((i - 2) % 3)) m else m) (.caller l) = _
    split
    · rw [xAddM_spec o _ _ _ _ _ (by simp only [ne_eq, IsoLoc.M.injEq]; omega)]
      simp [hc]
    · exact hc l
  · change (if 2 ≤ i then _ else _ : List (Pt F)).length = 3
    split
    · rw [List.length_set, hl]
    · exact hl
  · simp only [isoStepM, isoStep, hm]
  · simp only [isoStepM, isoStep, hm]

theorem isoLoopM_spec (m0 : L → Pt F) (kern : L) (S D : F) (k : Nat) : ∀ (i : Nat) (s : (IsoLoc L → Pt F) × Pt F × Pt F) (t : IsoSt F),
    SameIso m0 s t → SameIso m0 (isoLoopM o kern S D i k s) (isoLoop o (m0 kern) S D i k t) := by
  induction k with
  | zero => intro i s t h; exact h
  | succ k ih => intro i s t h; exact ih _ _ _ (isoStepM_spec o m0 kern S D i s t h)

theorem xIsoM_spec (img : L) (co : Coef F) (kern : L) (kernOrder : W64) (m : L → Pt F) :
    (∀ l, (xIsoM o img co kern kernOrder m).1 l =
      if l = img then (xIso o (m img) co (m kern) kernOrder).1 else m l) ∧
    (xIsoM o img co kern kernOrder m).2 = (xIso o (m img) co (m kern) kernOrder).2 := by
  unfold xIsoM xIso
  generalize hmm : (fun x : IsoLoc L => (match x with
    | .caller l => m l
    | .M i => if i = 0 then m kern else ⟨o.zero, o.zero⟩
    | .A => ⟨co.a, co.c⟩ : Pt F)) = mm
  have hc : ∀ l, mm (.caller l) = m l := fun l => by rw [← hmm]
  have hA : mm .A = ⟨co.a, co.c⟩ := by rw [← hmm]
  simp only [hc]
  have start : SameIso m (xDblM o (.M 1) (.caller kern) .A mm,
      ⟨o.sub (m kern).x (m kern).z, o.add (m kern).x (m kern).z⟩,
      ⟨o.add (o.mul (o.add (m kern).x (m kern).z) (o.sub (m img).x (m img).z)) (o.mul (o.sub (m kern).x (m kern).z) (o.add (m img).x (m img).z)),
       o.sub (o.mul (o.add (m kern).x (m kern).z) (o.sub (m img).x (m img).z)) (o.mul (o.sub (m kern).x (m kern).z) (o.add (m img).x (m img).z))⟩)
      ⟨[m kern, xDbl o (m kern) ⟨co.a, co.c⟩, ⟨o.zero, o.zero⟩],
      ⟨o.sub (m kern).x (m kern).z, o.add (m kern).x (m kern).z⟩,
      ⟨o.add (o.mul (o.add (m kern).x (m kern).z) (o.sub (m img).x (m img).z)) (o.mul (o.sub (m kern).x (m kern).z) (o.add (m img).x (m img).z)),
       o.sub (o.mul (o.add (m kern).x (m kern).z) (o.sub (m img).x (m img).z)) (o.mul (o.sub (m kern).x (m kern).z) (o.add (m img).x (m img).z))⟩⟩ := by
    refine ⟨fun l => ?_, rfl, fun j hj d => ?_, rfl, rfl⟩
    · dsimp only
      rw [xDblM_spec o _ _ _ _ (by simp)]
      simp [hc]
    · dsimp only
      rw [xDblM_spec o _ _ _ _ (by simp), hc, hA]
      have : j = 0 ∨ j = 1 ∨ j = 2 := by omega
      obtain rfl | rfl | rfl := this
      · rw [← hmm]; simp
      · simp
      · rw [← hmm]; simp
  have h := isoLoopM_spec o m kern (o.add (m img).x (m img).z) (o.sub (m img).x (m img).z) ((kernOrder >>> 1).toNat - 1) 1 _ _ start
  revert h
  generalize isoLoopM o kern (o.add (m img).x (m img).z) (o.sub (m img).x (m img).z) 1 ((kernOrder >>> 1).toNat - 1) _ = s
  generalize isoLoop o (m kern) (o.add (m img).x (m img).z) (o.sub (m img).x (m img).z) 1 ((kernOrder >>> 1).toNat - 1) _ = t
  intro h
  obtain ⟨mm', prod, Q⟩ := s
  obtain ⟨hc', _, _, hp, hQ⟩ := h
  simp only at hc' hp hQ ⊢
  subst hp hQ
  refine ⟨fun l => ?_, rfl⟩
  by_cases hl : l = img
  · subst hl
    rw [if_pos rfl]
    apply pt_ext <;> simp [hc']
  · rw [if_neg hl]
    have : (IsoLoc.caller l : IsoLoc L) ≠ .caller img := by simpa using hl
    simp [this, hc']

theorem montEvalM_spec (res A x : L) (m : L → F) (hA : res ≠ A) (hx : res ≠ x) (l : L) :
    montEvalM o res A x m l = if l = res then montEval o (m A) (m x) else m l := by
  have hA' := hA.symm
  have hx' := hx.symm
  by_cases hl : l = res
  · subst hl
    simp [montEvalM, montEval, hA', hx']
  · simp [montEvalM, hl]

theorem cofactorMulM_spec (a : Coef Fp) (n : Nat) : ∀ {L : Type} [DecidableEq L] (p : L) (halfL : Nat) (order : Fp) (m : L → Pt Fp),
    (cofactorMulM p a halfL n order m).2 = cofactorMul (m p) a halfL n order ∧
    ∀ l, l ≠ p → (cofactorMulM p a halfL n order m).1 l = m l := by
  induction n using Nat.strongRecOn with
  | ind n ih =>
    intro L _ p halfL order m
    rw [cofactorMulM, cofactorMul]
    by_cases h0 : n = 0
    · rw [if_pos h0, if_pos h0]; exact ⟨rfl, fun _ _ => rfl⟩
    rw [if_neg h0, if_neg h0]
    by_cases h1 : n = 1
    · rw [if_pos h1, if_pos h1]
      by_cases hz : (!isZero (m p).z) = true
      · rw [if_pos hz, if_pos hz]
        have e : xMulM limbOps p p a (fpw (word primes halfL)) m p = xMul limbOps (m p) a (fpw (word primes halfL)) := by
          rw [xMulM_spec, if_pos rfl]
        have e' : ∀ l, l ≠ p → xMulM limbOps p p a (fpw (word primes halfL)) m l = m l := fun l hl => by
          rw [xMulM_spec, if_neg hl]
        simp only [e]
        split
        · exact ⟨rfl, e'⟩
        · split
          · exact ⟨rfl, e'⟩
          · exact ⟨rfl, e'⟩
      · rw [if_neg hz, if_neg hz]; exact ⟨rfl, fun _ _ => rfl⟩
    · rw [if_neg h1, if_neg h1]
      dsimp only
      generalize hmm : (fun x : Option L => (match x with
        | none => ⟨fp0, fp0⟩
        | some l => m l : Pt Fp)) = mm
      have hs : ∀ l, mm (some l) = m l := fun l => by rw [← hmm]
      have hh : (n + 1) / 2 < n := by omega
      have hn : n - (n + 1) / 2 < n := by omega
      generalize mulPrimes halfL ((n + 1) / 2) (fpw 1) = mulR
      generalize mulPrimes (halfL + (n + 1) / 2) (n - (n + 1) / 2) (fpw 1) = mulL
      generalize hm1 : xMulM limbOps none (some p) a mulR mm = m1
      have e1 : ∀ b, m1 b = if b = none then xMul limbOps (m p) a mulR else mm b := fun b => by
        rw [← hm1, xMulM_spec, hs]
      generalize hm2 : xMulM limbOps (some p) (some p) a mulL m1 = m2
      have e2 : ∀ b, m2 b = if b = some p then xMul limbOps (m p) a mulL else m1 b := fun b => by
        rw [← hm2, xMulM_spec, e1]; simp [hs]
      obtain ⟨a1, a2⟩ := ih _ hn (none : Option L) (halfL + (n + 1) / 2) order m2
      have q1 : m2 none = xMul limbOps (m p) a mulR := by rw [e2, e1]; simp
      rw [q1] at a1
      revert a1 a2
      generalize cofactorMulM none a (halfL + (n + 1) / 2) (n - (n + 1) / 2) order m2 = R1
      obtain ⟨m3, d1, r1, o1⟩ := R1
      intro a1 a2
      simp only at a1 a2
      simp only [← a1]
      obtain ⟨b1, b2⟩ := ih _ hh (some p) halfL o1 m3
      have q2 : m3 (some p) = xMul limbOps (m p) a mulL := by rw [a2 _ (by simp), e2, if_pos rfl]
      rw [q2] at b1
      revert b1 b2
      generalize cofactorMulM (some p) a halfL ((n + 1) / 2) o1 m3 = R2
      obtain ⟨m4, d2, r2, o2⟩ := R2
      intro b1 b2
      simp only at b1 b2
      simp only [← b1]
      refine ⟨trivial, fun l hl => ?_⟩
      rw [b2 _ (by simpa using hl), a2 _ (by simp), e2, if_neg (by simpa using hl), e1, if_neg (by simp), hs]

theorem validateRoundM_spec (a x : Fp) :
    validateRoundM a x =
      ((cofactorMul (xDbl limbOps (xDbl limbOps ⟨x, one⟩ ⟨a, one⟩) ⟨a, one⟩) ⟨a, one⟩ 0 74 (fpw 1)).1,
       (cofactorMul (xDbl limbOps (xDbl limbOps ⟨x, one⟩ ⟨a, one⟩) ⟨a, one⟩) ⟨a, one⟩ 0 74 (fpw 1)).2.1) := by
  unfold validateRoundM
  generalize hm : (fun x_1 : ValLoc => (match x_1 with
    | .P => ⟨x, one⟩
    | .A => ⟨a, one⟩ : Pt Fp)) = m
  have h1 : ∀ b, xDblM limbOps .P .P .A m b = if b = .P then xDbl limbOps (m .P) (m .A) else m b :=
    xDblM_spec limbOps _ _ _ _ (by simp)
  have h2 : ∀ b, xDblM limbOps .P .P .A (xDblM limbOps .P .P .A m) b =
      if b = .P then xDbl limbOps (xDbl limbOps (m .P) (m .A)) (m .A) else m b := by
    intro b
    rw [xDblM_spec limbOps _ _ _ _ (by simp), h1, h1, h1]
    by_cases hb : b = ValLoc.P <;> simp [hb]
  have hA : xDblM limbOps .P .P .A (xDblM limbOps .P .P .A m) .A = ⟨a, one⟩ := by rw [h2, if_neg (by simp), ← hm]
  have hP : xDblM limbOps .P .P .A (xDblM limbOps .P .P .A m) .P = xDbl limbOps (xDbl limbOps ⟨x, one⟩ ⟨a, one⟩) ⟨a, one⟩ := by
    rw [h2, if_pos rfl, ← hm]
  have e := fun c => (cofactorMulM_spec c 74 ValLoc.P 0 (fpw 1) (xDblM limbOps .P .P .A (xDblM limbOps .P .P .A m))).1
  simp only [e, hA, hP]

/-- The variables of a round in memory and as values. -/
def SameAct (s : ActMem) (t : ActSt) : Prop := s.m .P = t.P ∧ s.A = t.A ∧ s.half = t.half

theorem actStepM_spec (sign : Bool) (start x : Fp) (v : W64) (i : Nat) (s : ActMem) (t : ActSt) (h : SameAct s t) :
    SameAct (actStepM v i s) (actStep sign start x v i t) := by
  obtain ⟨m, A, half⟩ := s
  obtain ⟨P, A', half', log⟩ := t
  obtain ⟨h1, h2, h3⟩ := h
  simp only at h1 h2 h3
  subst h2 h3
  unfold actStepM actStep
  by_cases he : half.e.getD i 0 ≠ 0
  · simp only [if_pos he]
    generalize hm1 : xMulM limbOps .K .P A (cofactor half.e i) (setPt m .K ⟨fp0, fp0⟩) = m1
    have e1 : ∀ b, m1 b = if b = .K then xMul limbOps P A (cofactor half.e i) else m b := by
      intro b
      rw [← hm1, xMulM_spec]
      have : setPt m ActLoc.K ⟨fp0, fp0⟩ .P = P := by rw [setPt, if_neg (by simp), h1]
      rw [this]
      by_cases hb : b = ActLoc.K
      · simp [hb]
      · rw [if_neg hb, if_neg hb, setPt, if_neg hb]
    have eK : m1 .K = xMul limbOps P A (cofactor half.e i) := by rw [e1, if_pos rfl]
    have eP : m1 .P = P := by rw [e1, if_neg (by simp), h1]
    rw [eK]
    by_cases hz : (!isZero (xMul limbOps P A (cofactor half.e i)).z) = true
    · simp only [if_pos hz]
      obtain ⟨x1, x2⟩ := xIsoM_spec limbOps ActLoc.P A ActLoc.K v m1
      rw [eK, eP] at x1 x2
      refine ⟨?_, x2, rfl⟩
      change (xIsoM limbOps ActLoc.P A ActLoc.K v m1).1 .P = _
      rw [x1, if_pos rfl]
    · simp only [if_neg hz]
      exact ⟨eP, rfl, rfl⟩
  · simp only [if_neg he]
    exact ⟨h1, rfl, rfl⟩

theorem actLoopM_spec (sign : Bool) (start x : Fp) (vs : List W64) : ∀ (i : Nat) (s : ActMem) (t : ActSt), SameAct s t →
    SameAct (actLoopM vs i s) (actLoop sign start x vs i t) := by
  induction vs with
  | nil => intro i s t h; exact h
  | cons v vs ih => intro i s t h; exact ih _ _ _ (actStepM_spec sign start x v i s t h)

theorem roundHalfM_spec (sign : Bool) (A x : Fp) (h : Half) (log : List Event) :
    SameAct (roundHalfM A x h) (roundHalf sign A x h log) := by
  apply actLoopM_spec
  refine ⟨?_, rfl, rfl⟩
  change xMulM limbOps .P .P ⟨A, one⟩ h.k _ ActLoc.P = _
  rw [xMulM_spec, if_pos rfl]

/-- The variables of the outer loop without the record. -/
def forget (s : RoundSt) : RoundMem := ⟨s.A, s.h0, s.h1⟩

theorem rhs_spec (a x : Fp) : montEvalM limbOps 0 1 2 (fun l : Nat => if l = 1 then a else if l = 2 then x else fp0) 0 = montEval limbOps a x := by
  rw [montEvalM_spec limbOps 0 1 2 _ (by decide) (by decide), if_pos rfl]
  rfl

theorem actRoundM_spec (s : RoundSt) (x : Fp) : actRoundM (forget s) x = (actRound s x).map forget := by
  unfold actRoundM actRound
  dsimp only [forget]
  rw [rhs_spec]
  generalize decide (isNonQuadRes (montEval limbOps s.A x) ≠ 0) = sign
  generalize (if sign = true then s.h1 else s.h0) = h
  obtain ⟨_, e2, e3⟩ := roundHalfM_spec sign s.A x h s.log
  rw [e2, e3]
  generalize roundHalf sign s.A x h s.log = r
  generalize mulRdc r.A.a (modExpRdc512 r.A.c pMin1) = a
  split <;> rfl

theorem actRounds_none {round : RoundSt → Fp → Option RoundSt} {s : RoundSt} {rng : List Byte} (hr : randFp rng = none) :
    actRounds round s rng = none := by
  rw [actRounds]
  split
  · rfl
  · rename_i h
    rw [hr] at h
    cases h

theorem actRounds_some {round : RoundSt → Fp → Option RoundSt} {s : RoundSt} {rng rest : List Byte} {x : Fp} (hr : randFp rng = some (x, rest)) :
    actRounds round s rng = match round s x with
      | none => actRounds round s rest
      | some s' => if s'.h0.done && s'.h1.done then some (s', rest) else actRounds round s' rest := by
  rw [actRounds]
  split
  · rename_i h
    rw [hr] at h
    cases h
  · rename_i h
    rw [hr] at h
    cases h
    rfl

theorem actRoundsM_none {round : RoundMem → Fp → Option RoundMem} {s : RoundMem} {rng : List Byte} (hr : randFp rng = none) :
    actRoundsM round s rng = none := by
  rw [actRoundsM]
  split
  · rfl
  · rename_i h
    rw [hr] at h
    cases h

theorem actRoundsM_some {round : RoundMem → Fp → Option RoundMem} {s : RoundMem} {rng rest : List Byte} {x : Fp} (hr : randFp rng = some (x, rest)) :
    actRoundsM round s rng = match round s x with
      | none => actRoundsM round s rest
      | some s' => if s'.h0.done && s'.h1.done then some (s'.A, rest) else actRoundsM round s' rest := by
  rw [actRoundsM]
  split
  · rename_i h
    rw [hr] at h
    cases h
  · rename_i h
    rw [hr] at h
    cases h
    rfl

theorem actRoundsM_spec {f : RoundMem → Fp → Option RoundMem} {g : RoundSt → Fp → Option RoundSt}
    (hfg : ∀ s x, f (forget s) x = (g s x).map forget) (n : Nat) : ∀ (rng : List Byte) (s : RoundSt), rng.length ≤ n →
    actRoundsM f (forget s) rng = (actRounds g s rng).map fun r => (r.1.A, r.2) := by
  induction n with
  | zero =>
    intro rng s h
    cases hr : randFp rng with
    | none => rw [actRoundsM_none hr, actRounds_none hr]; rfl
    | some v =>
      have := randFp_length rng v.1 v.2 hr
      omega
  | succ n ih =>
    intro rng s h
    cases hr : randFp rng with
    | none => rw [actRoundsM_none hr, actRounds_none hr]; rfl
    | some v =>
      obtain ⟨x, rest⟩ := v
      have hl := randFp_length rng _ _ hr
      rw [actRoundsM_some hr, actRounds_some hr, hfg]
      cases hs : g s x with
      | none => exact ih rest s (by omega)
      | some s' =>
        change (if s'.h0.done && s'.h1.done then some (s'.A, rest) else actRoundsM f (forget s') rest) = Option.map _ (if s'.h0.done && s'.h1.done then some (s', rest) else actRounds g s' rest)
        rw [ih rest s' (by omega)]
        split <;> rfl

theorem groupActionM_spec (a : Fp) (prv : PrivateKey) (rng : List Byte) : groupActionM a prv rng = groupAction a prv rng := by
  unfold groupActionM groupAction groupActionLog
  exact actRoundsM_spec actRoundM_spec rng.length rng ⟨a, _, _, []⟩ (Nat.le_refl _)

theorem validateLoopM_none {round : Fp → Bool × Bool} {rng : List Byte} (hr : randFp rng = none) : validateLoopM round rng = none := by
  rw [validateLoopM]
  split
  · rfl
  · rename_i h
    rw [hr] at h
    cases h

theorem validateLoopM_some {round : Fp → Bool × Bool} {rng rest : List Byte} {x : Fp} (hr : randFp rng = some (x, rest)) :
    validateLoopM round rng = if (round x).1 then some ((round x).2, rest) else validateLoopM round rest := by
  rw [validateLoopM]
  split
  · rename_i h
    rw [hr] at h
    cases h
  · rename_i h
    rw [hr] at h
    cases h
    rfl

theorem validateLoop_none {a : Fp} {rng : List Byte} (hr : randFp rng = none) : validateLoop a rng = none := by
  rw [validateLoop]
  split
  · rfl
  · rename_i h
    rw [hr] at h
    cases h

theorem validateLoop_some {a : Fp} {rng rest : List Byte} {x : Fp} (hr : randFp rng = some (x, rest)) :
    validateLoop a rng = if (cofactorMul (xDbl limbOps (xDbl limbOps ⟨x, one⟩ ⟨a, one⟩) ⟨a, one⟩) ⟨a, one⟩ 0 74 (fpw 1)).1 then
      some ((cofactorMul (xDbl limbOps (xDbl limbOps ⟨x, one⟩ ⟨a, one⟩) ⟨a, one⟩) ⟨a, one⟩ 0 74 (fpw 1)).2.1, rest) else validateLoop a rest := by
  rw [validateLoop]
  split
  · rename_i h
    rw [hr] at h
    cases h
  · rename_i h
    rw [hr] at h
    cases h
    rfl

theorem if_same {r : Bool × Bool} {w : Bool × Bool × Fp} (h : r = (w.1, w.2.1)) (rest : List Byte) (d : Option (Bool × List Byte)) :
    (if r.1 then some (r.2, rest) else d) = if w.1 then some (w.2.1, rest) else d := by
  rw [h]

theorem validateLoopM_spec (a : Fp) (n : Nat) : ∀ (rng : List Byte), rng.length ≤ n →
    validateLoopM (validateRoundM a) rng = validateLoop a rng := by
  induction n with
  | zero =>
    intro rng h
    cases hr : randFp rng with
    | none => rw [validateLoopM_none hr, validateLoop_none hr]
    | some v =>
      have := randFp_length rng v.1 v.2 hr
      omega
  | succ n ih =>
    intro rng h
    cases hr : randFp rng with
    | none => rw [validateLoopM_none hr, validateLoop_none hr]
    | some v =>
      obtain ⟨x, rest⟩ := v
      have hl := randFp_length rng _ _ hr
      rw [validateLoopM_some hr, validateLoop_some hr, ih rest (by omega)]
      exact if_same (validateRoundM_spec a x) rest _

theorem validateM_spec (pub : PublicKey) (rng : List Byte) : validateM pub rng = validate pub rng := by
  unfold validateM validate
  rw [validateLoopM_spec _ _ _ (Nat.le_refl _)]

theorem deriveSecretM_spec (out : List Byte) (pub : PublicKey) (prv : PrivateKey) (rng : List Byte) :
    deriveSecretM out pub prv rng = deriveSecret out pub prv rng := by
  unfold deriveSecretM deriveSecret
  rw [validateM_spec]
  cases validate pub rng with
  | none => rfl
  | some v =>
    obtain ⟨b, r⟩ := v
    cases b with
    | false => rfl
    | true =>
      dsimp only
      rw [groupActionM_spec]
      rfl

end Lemmas.CsidhMem
