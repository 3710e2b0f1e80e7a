import Verif.Lemmas.SidhSteps
/-! Helper lemmas: two runs of the SIDH and SIKE code see the same. -/
namespace Lemmas.SidhSteps
open Model Model.Limb Model.Sidh Model.Sidh.Tr

variable {α β : Type}

/-- Two runs see the same; both panic, or neither does and the results are related. -/
def Rel (R : α → α → Prop) (m m' : Tr α) : Prop :=
  m.2 = m'.2 ∧ match m.1, m'.1 with
    | some a, some b => R a b
    | none, none => True
    | _, _ => False

/-- No relation between the results. -/
def Any : α → α → Prop := fun _ _ => True

theorem Rel.log {R : α → α → Prop} {m m' : Tr α} (h : Rel R m m') : m.2 = m'.2 := h.1

theorem Rel.mono {R S : α → α → Prop} {m m' : Tr α} (h : Rel R m m') (hs : ∀ a b, R a b → S a b) : Rel S m m' := by
  rcases m with ⟨_ | a, l⟩ <;> rcases m' with ⟨_ | b, l'⟩ <;> simp only [Rel] at h ⊢
  · exact h
  · exact h.2.elim
  · exact h.2.elim
  · exact ⟨h.1, hs a b h.2⟩

theorem Rel.any {R : α → α → Prop} {m m' : Tr α} (h : Rel R m m') : Rel Any m m' := h.mono fun _ _ _ => trivial

theorem Rel.bind {R : α → α → Prop} {S : β → β → Prop} {m m' : Tr α} {f g : α → Tr β} (h : Rel R m m') (k : ∀ a b, R a b → Rel S (f a) (g b)) :
    Rel S (m >>= f) (m' >>= g) := by
  rcases m with ⟨_ | a, l⟩ <;> rcases m' with ⟨_ | b, l'⟩
  · exact ⟨h.1, trivial⟩
  · exact h.2.elim
  · exact h.2.elim
  · have e := k a b h.2
    refine ⟨?_, e.2⟩
    change l ++ (f a).2 = l' ++ (g b).2
    rw [e.1, show l = l' from h.1]

theorem Rel.bindAny {S : β → β → Prop} {m m' : Tr α} {f g : α → Tr β} (h : Rel Any m m') (k : ∀ a b, Rel S (f a) (g b)) :
    Rel S (m >>= f) (m' >>= g) := h.bind fun a b _ => k a b

theorem Rel.pure {R : α → α → Prop} {a b : α} (h : R a b) : Rel R (Pure.pure a) (Pure.pure b) := ⟨rfl, h⟩
theorem Rel.pureAny (a b : α) : Rel Any (Pure.pure a) (Pure.pure b) := ⟨rfl, trivial⟩
theorem Rel.tell {l l' : List Ev} (h : l = l') : Rel Any (tell l) (tell l') := ⟨h, trivial⟩
theorem Rel.panic {R : α → α → Prop} : Rel R (panic : Tr α) panic := ⟨rfl, trivial⟩
theorem Rel.call (f : Fn) (a b : α) : Rel Any (call f a) (call f b) := ⟨rfl, trivial⟩
theorem Rel.lift {R : α → α → Prop} {v v' : Option α} {l l' : List Ev} {a b : α} (h : l = l') (hv : v = some a) (hv' : v' = some b) (hr : R a b) :
    Rel R (lift v l) (lift v' l') := by
  subst h; subst hv; subst hv'; exact ⟨rfl, hr⟩
theorem Rel.liftEq (v : Option α) (l : List Ev) : Rel Eq (Tr.lift v l) (Tr.lift v l) := by
  refine ⟨rfl, ?_⟩
  cases v <;> simp [Tr.lift]
/-- After the same `tell`. -/
theorem Rel.seq {S : β → β → Prop} {l l' : List Ev} {m m' : Tr β} (h : l = l') (k : Rel S m m') :
    Rel S (Tr.tell l >>= fun _ => m) (Tr.tell l' >>= fun _ => m') := (Rel.tell h).bind fun _ _ _ => k

/-! ### fp2.go -/
section
variable (P : Prime)

/-- Straight code over the routines of the field arithmetic. -/
macro "calls" : tactic => `(tactic| repeat' (first | exact Rel.call _ _ _ | exact Rel.pureAny _ _ | refine Rel.bindAny ?_ fun _ _ => ?_))

theorem mulPT_rel (x y x' y' : List W64) : Rel Any (mulPT P x y) (mulPT P x' y') := by unfold mulPT; calls

theorem p34TableT_rel : ∀ (k i : Nat) (xx xx' a a' : List W64), Rel Any (p34TableT P xx a i k) (p34TableT P xx' a' i k)
  | 0, i, xx, xx', a, a' => Rel.seq rfl (Rel.pureAny _ _)
  | k + 1, i, xx, xx', a, a' => Rel.seq rfl ((mulPT_rel P _ _ _ _).bindAny fun _ _ =>
      (p34TableT_rel k (i + 1) _ _ _ _).bindAny fun _ _ => Rel.pureAny _ _)

theorem sqrTimesT_rel (i : Nat) : ∀ (k : Nat) (a a' : List W64), Rel Any (sqrTimesT P i a k) (sqrTimesT P i a' k)
  | 0, a, a' => Rel.seq rfl (Rel.pureAny _ _)
  | k + 1, a, a' => Rel.seq rfl ((mulPT_rel P _ _ _ _).bindAny fun _ _ => sqrTimesT_rel i k _ _)

theorem p34LoopT_rel (l l' : List (List W64)) : ∀ (pows muls : List Nat) (i : Nat) (a a' : List W64),
    Rel Any (p34LoopT P l i a pows muls) (p34LoopT P l' i a' pows muls)
  | [], muls, i, a, a' => Rel.seq rfl (Rel.pureAny _ _)
  | pw :: pows, [], i, a, a' => Rel.seq rfl (Rel.pureAny _ _)
  | pw :: pows, m :: muls, i, a, a' => Rel.seq rfl ((mulPT_rel P _ _ _ _).bindAny fun _ _ => (sqrTimesT_rel P i (pw - 1) _ _).bindAny fun _ _ =>
      Rel.seq rfl ((mulPT_rel P _ _ _ _).bindAny fun _ _ => p34LoopT_rel l l' pows muls (i + 1) _ _))

theorem p34T_rel (x x' : List W64) : Rel Any (p34T P x) (p34T P x') :=
  (mulPT_rel P _ _ _ _).bindAny fun _ _ => (p34TableT_rel P 15 1 _ _ _ _).bindAny fun _ _ => Rel.seq rfl (p34LoopT_rel P _ _ _ _ _ _ _)

theorem toMontgomeryT_rel (x x' : Fp2) : Rel Any (toMontgomeryT P x) (toMontgomeryT P x') := by unfold toMontgomeryT; calls
theorem fromMontgomeryT_rel (x x' : Fp2) : Rel Any (fromMontgomeryT P x) (fromMontgomeryT P x') := by
  unfold fromMontgomeryT
  repeat' (first | exact Rel.call _ _ _ | exact Rel.pureAny _ _ | exact Rel.tell rfl | refine Rel.bindAny ?_ fun _ _ => ?_)
end

/-- What is seen of an operation does not depend on its arguments. -/
structure TCt {F : Type} (t : TOps F) : Prop where
  add : ∀ x y x' y', Rel Any (t.add x y) (t.add x' y')
  sub : ∀ x y x' y', Rel Any (t.sub x y) (t.sub x' y')
  mul : ∀ x y x' y', Rel Any (t.mul x y) (t.mul x' y')
  sqr : ∀ x x', Rel Any (t.sqr x) (t.sqr x')
  inv : ∀ x x', Rel Any (t.inv x) (t.inv x')
  cswap : ∀ x y b x' y' b', Rel Any (t.cswap x y b) (t.cswap x' y' b')

theorem limb_ct (P : Prime) : TCt (limbOpsT P) where
  add x y x' y' := by change Rel Any (addT P x y) (addT P x' y'); unfold addT; calls
  sub x y x' y' := by change Rel Any (subT P x y) (subT P x' y'); unfold subT; calls
  mul x y x' y' := by change Rel Any (mulT P x y) (mulT P x' y'); unfold mulT; calls
  sqr x x' := by change Rel Any (sqrT P x) (sqrT P x'); unfold sqrT; calls
  inv x x' := by
    change Rel Any (invT P x) (invT P x'); unfold invT
    repeat' (first | exact Rel.call _ _ _ | exact Rel.pureAny _ _ | exact mulPT_rel P _ _ _ _ | exact p34T_rel P _ _ | refine Rel.bindAny ?_ fun _ _ => ?_)
  cswap x y b x' y' b' := by change Rel Any (cswapT x y b) (cswapT x' y' b'); unfold cswapT; calls

/-! ### curve.go -/
section
variable {F : Type} {t : TOps F} (h : TCt t)
include h

/-- Straight code over the operations of fp2.go. -/
local macro "fieldops" h:ident : tactic => `(tactic| repeat' (first
  | exact Rel.pureAny _ _
  | exact TCt.add $h _ _ _ _
  | exact TCt.sub $h _ _ _ _
  | exact TCt.mul $h _ _ _ _
  | exact TCt.sqr $h _ _
  | exact TCt.inv $h _ _
  | exact TCt.cswap $h _ _ _ _ _ _
  | refine Rel.bindAny ?_ fun _ _ => ?_))

theorem jinvariantT_rel (c c' : Coef F) : Rel Any (jinvariantT t c) (jinvariantT t c') := by unfold jinvariantT; fieldops h
theorem recoverCoordinateAT_rel (a b c d a' b' c' d' : F) : Rel Any (recoverCoordinateAT t a b c d) (recoverCoordinateAT t a' b' c' d') := by
  unfold recoverCoordinateAT; fieldops h
theorem equiv3_rel (c c' : Coef F) : Rel Any (calcCurveParamsEquiv3T t c) (calcCurveParamsEquiv3T t c') := by unfold calcCurveParamsEquiv3T; fieldops h
theorem equiv4_rel (c c' : Coef F) : Rel Any (calcCurveParamsEquiv4T t c) (calcCurveParamsEquiv4T t c') := by unfold calcCurveParamsEquiv4T; fieldops h
theorem a24_rel (c c' : Coef F) : Rel Any (calcAplus2Over4T t c) (calcAplus2Over4T t c') := by unfold calcAplus2Over4T; fieldops h
theorem recover3_rel (c c' : Coef F) : Rel Any (recoverCurveCoefficients3T t c) (recoverCurveCoefficients3T t c') := by
  unfold recoverCurveCoefficients3T; fieldops h
theorem recover4_rel (a a' : F) (c c' : Coef F) : Rel Any (recoverCurveCoefficients4T t a c) (recoverCurveCoefficients4T t a' c') := by
  unfold recoverCurveCoefficients4T; fieldops h
theorem xDbladdT_rel (p q r : Pt F) (a : F) (p' q' r' : Pt F) (a' : F) : Rel Any (xDbladdT t p q r a) (xDbladdT t p' q' r' a') := by
  unfold xDbladdT; fieldops h
theorem dblStepT_rel (c c' : Coef F) (p p' : Pt F) : Rel Any (dblStepT t c p) (dblStepT t c' p') := by unfold dblStepT; fieldops h
theorem tplStepT_rel (c c' : Coef F) (p p' : Pt F) : Rel Any (tplStepT t c p) (tplStepT t c' p') := by unfold tplStepT; fieldops h
theorem batch3InvT_rel (a b c a' b' c' : F) : Rel Any (batch3InvT t a b c) (batch3InvT t a' b' c') := by unfold batch3InvT; fieldops h
theorem cswapPtT_rel (p q : Pt F) (b : Byte) (p' q' : Pt F) (b' : Byte) : Rel Any (cswapPtT t p q b) (cswapPtT t p' q' b') := by
  unfold cswapPtT; fieldops h
theorem gen3T_rel (p p' : Pt F) : Rel Any (gen3T t p) (gen3T t p') := by unfold gen3T; fieldops h
theorem gen4T_rel (p p' : Pt F) : Rel Any (gen4T t p) (gen4T t p') := by unfold gen4T; fieldops h
theorem eval3T_rel (i i' : Iso3 F) (p p' : Pt F) : Rel Any (eval3T t i p) (eval3T t i' p') := by unfold eval3T; fieldops h
theorem eval4T_rel (i i' : Iso4 F) (p p' : Pt F) : Rel Any (eval4T t i p) (eval4T t i' p') := by unfold eval4T; fieldops h

theorem pow2kT_rel (c c' : Coef F) : ∀ (k : Nat) (p p' : Pt F), Rel Any (pow2kT t c k p) (pow2kT t c' k p')
  | 0, _, _ => Rel.seq rfl (Rel.pureAny _ _)
  | k + 1, p, p' => Rel.seq rfl ((dblStepT_rel h c c' p p').bindAny fun _ _ => pow2kT_rel c c' k _ _)
theorem pow3kT_rel (c c' : Coef F) : ∀ (k : Nat) (p p' : Pt F), Rel Any (pow3kT t c k p) (pow3kT t c' k p')
  | 0, _, _ => Rel.seq rfl (Rel.pureAny _ _)
  | k + 1, p, p' => Rel.seq rfl ((tplStepT_rel h c c' p p').bindAny fun _ _ => pow3kT_rel c c' k _ _)

theorem scalarBit_some {s : List Byte} {i : Nat} (hi : i < 8 * s.length) : ∃ b, scalarBit s i = some b := by
  have : i / 8 < s.length := by omega
  exact ⟨_, by rw [scalarBit, List.getElem?_eq_getElem this]; rfl⟩

theorem ladderLoopT_rel (a a' : F) {s s' : List Byte} : ∀ (k i : Nat), i + k ≤ 8 * s.length → i + k ≤ 8 * s'.length →
    ∀ (r0 r1 r2 r0' r1' r2' : Pt F) (b b' : Byte), Rel Any (ladderLoopT t a s i k r0 r1 r2 b) (ladderLoopT t a' s' i k r0' r1' r2' b')
  | 0, i, _, _, r0, r1, r2, r0', r1', r2', b, b' => Rel.seq rfl (Rel.pureAny _ _)
  | k + 1, i, hs, hs', r0, r1, r2, r0', r1', r2', b, b' => by
    obtain ⟨x, hx⟩ := scalarBit_some h (s := s) (i := i) (by omega)
    obtain ⟨y, hy⟩ := scalarBit_some h (s := s') (i := i) (by omega)
    exact Rel.seq rfl ((Rel.lift (R := Any) rfl hx hy trivial).bindAny fun _ _ => (cswapPtT_rel h _ _ _ _ _ _).bindAny fun _ _ =>
      (xDbladdT_rel h _ _ _ _ _ _ _ _).bindAny fun _ _ => ladderLoopT_rel a a' k (i + 1) (by omega) (by omega) _ _ _ _ _ _ _ _)

theorem scalarMul3PtT_rel (c c' : Coef F) (p q r p' q' r' : Pt F) (n : Nat) {s s' : List Byte} (hs : n ≤ 8 * s.length) (hs' : n ≤ 8 * s'.length) :
    Rel Any (scalarMul3PtT t c p q r n s) (scalarMul3PtT t c' p' q' r' n s') :=
  (a24_rel h _ _).bindAny fun _ _ => (ladderLoopT_rel h _ _ n 0 (by omega) (by omega) _ _ _ _ _ _ _ _).bindAny fun _ _ =>
    (cswapPtT_rel h _ _ _ _ _ _).bindAny fun _ _ => Rel.pureAny _ _
end

/-! ### core.go -/

/-- Stacks with the same indices. -/
def SameIdx (s s' : List (α × Nat)) : Prop := s.map (·.2) = s'.map (·.2)

theorem SameIdx.length {s s' : List (α × Nat)} (h : SameIdx s s') : s.length = s'.length := by simpa using congrArg List.length h

/-- The same place of the tree. -/
def SameDesc : (Nat × List Nat × List (α × Nat) × α × Nat) → (Nat × List Nat × List (α × Nat) × α × Nat) → Prop :=
  fun d d' => d.1 = d'.1 ∧ d.2.1 = d'.2.1 ∧ SameIdx d.2.2.1 d'.2.2.1 ∧ d.2.2.2.2 = d'.2.2.2.2

theorem descendT_rel (lim : Nat) {pw pw' : Nat → α → Tr α} (hp : ∀ k x x', Rel Any (pw k x) (pw' k x')) :
    ∀ (rest : List Nat) (j : Nat) (stk stk' : List (α × Nat)) (x x' : α) (i : Nat), SameIdx stk stk' →
    Rel SameDesc (descendT lim pw j rest stk x i) (descendT lim pw' j rest stk' x' i)
  | [], j, stk, stk', x, x', i, hs => by
    refine Rel.seq rfl ?_
    by_cases hi : i ≤ lim
    · rw [if_pos hi, if_pos hi]; exact Rel.panic
    · rw [if_neg hi, if_neg hi]; exact Rel.pure ⟨rfl, rfl, hs, rfl⟩
  | k :: rest, j, stk, stk', x, x', i, hs => by
    refine Rel.seq rfl ?_
    by_cases hi : i ≤ lim
    · rw [if_pos hi, if_pos hi]
      refine Rel.seq (by rw [hs.length]) ((hp k x x').bindAny fun a b => ?_)
      exact descendT_rel lim hp rest (j + 1) _ _ a b (i + k) (by simpa [SameIdx] using hs)
    · rw [if_neg hi, if_neg hi]; exact Rel.pure ⟨rfl, rfl, hs, rfl⟩

theorem evalStackT_rel {ev ev' : α → Tr α} (he : ∀ x x', Rel Any (ev x) (ev' x')) :
    ∀ (s s' : List (α × Nat)), SameIdx s s' → Rel SameIdx (evalStackT ev s) (evalStackT ev' s')
  | [], [], _ => Rel.pure rfl
  | [], _ :: _, h => by simp [SameIdx] at h
  | _ :: _, [], h => by simp [SameIdx] at h
  | e :: es, e' :: es', h => by
    simp only [SameIdx, List.map_cons, List.cons.injEq] at h
    refine (evalStackT_rel he es es' h.2).bind fun a b hab => ?_
    refine Rel.seq (by rw [hab.length]) ((he e.1 e'.1).bindAny fun p p' => Rel.pure ?_)
    simpa [SameIdx, h.1] using hab

theorem evalExtraT_rel {ev ev' : α → Tr α} (he : ∀ x x', Rel Any (ev x) (ev' x')) :
    ∀ (s s' : List α), s.length = s'.length → Rel (fun a b : List α => a.length = s.length ∧ b.length = s.length) (evalExtraT ev s) (evalExtraT ev' s')
  | [], [], _ => Rel.pure ⟨rfl, rfl⟩
  | [], _ :: _, h => by simp at h
  | _ :: _, [], h => by simp at h
  | e :: es, e' :: es', h => by
    refine (he e e').bindAny fun p p' => ((evalExtraT_rel he es es' (by simpa using h)).bind fun a b hab => Rel.pure ?_)
    simpa using hab

section
variable {F : Type} {t : TOps F} (h : TCt t)
include h

theorem traverse4T_rel : ∀ (n j : Nat) (rest : List Nat) (s s' : List (Pt F × Nat)) (c c' : Coef F) (x x' : Pt F) (i : Nat) (e e' : List (Pt F)),
    SameIdx s s' → e.length = e'.length →
    Rel (fun a b : Pt F × List (Pt F) => a.2.length = e.length ∧ b.2.length = e.length) (traverse4T t n j rest s c x i e) (traverse4T t n j rest s' c' x' i e')
  | 0, j, rest, s, s', c, c', x, x', i, e, e', hs, hl => Rel.seq rfl (Rel.pure ⟨rfl, hl.symm⟩)
  | n + 1, j, rest, s, s', c, c', x, x', i, e, e', hs, hl => by
    refine Rel.seq rfl ((descendT_rel n (fun k p p' => pow2kT_rel h c c' (2 * k) p p') rest j s s' x x' i hs).bind fun d d' hd => ?_)
    obtain ⟨d1, d2, d3, d4, d5⟩ := d
    obtain ⟨d1', d2', d3', d4', d5'⟩ := d'
    obtain ⟨h1, h2, h3, h4⟩ := hd
    dsimp only at h1 h2 h3 h4
    subst h1; subst h2; subst h4
    refine (gen4T_rel h d4 d4').bindAny fun g g' => ((evalStackT_rel (eval4T_rel h _ _) _ _ h3).bind fun q q' hq => Rel.seq rfl
      ((evalExtraT_rel (eval4T_rel h _ _) e e' hl).bind fun w w' hw => ?_))
    rcases q with _ | ⟨⟨y, i2⟩, q⟩ <;> rcases q' with _ | ⟨⟨y', i2'⟩, q'⟩
    · exact Rel.panic
    · simp [SameIdx] at hq
    · simp [SameIdx] at hq
    · simp only [SameIdx, List.map_cons, List.cons.injEq] at hq
      obtain ⟨rfl, hq⟩ := hq
      dsimp only
      refine Rel.seq (by rw [SameIdx.length hq]) ?_
      exact (traverse4T_rel n d1 d2 q q' g.1 g'.1 y y' _ w w' hq (hw.1.trans hw.2.symm)).mono fun a b hab => by rwa [hw.1] at hab

theorem traverse3T_rel : ∀ (n j : Nat) (rest : List Nat) (s s' : List (Pt F × Nat)) (c c' : Coef F) (x x' : Pt F) (i : Nat) (e e' : List (Pt F)),
    SameIdx s s' → e.length = e'.length →
    Rel (fun a b : Pt F × List (Pt F) => a.2.length = e.length ∧ b.2.length = e.length) (traverse3T t n j rest s c x i e) (traverse3T t n j rest s' c' x' i e')
  | 0, j, rest, s, s', c, c', x, x', i, e, e', hs, hl => Rel.seq rfl (Rel.pure ⟨rfl, hl.symm⟩)
  | n + 1, j, rest, s, s', c, c', x, x', i, e, e', hs, hl => by
    refine Rel.seq rfl ((descendT_rel n (fun k p p' => pow3kT_rel h c c' k p p') rest j s s' x x' i hs).bind fun d d' hd => ?_)
    obtain ⟨d1, d2, d3, d4, d5⟩ := d
    obtain ⟨d1', d2', d3', d4', d5'⟩ := d'
    obtain ⟨h1, h2, h3, h4⟩ := hd
    dsimp only at h1 h2 h3 h4
    subst h1; subst h2; subst h4
    refine (gen3T_rel h d4 d4').bindAny fun g g' => ((evalStackT_rel (eval3T_rel h _ _) _ _ h3).bind fun q q' hq => Rel.seq rfl
      ((evalExtraT_rel (eval3T_rel h _ _) e e' hl).bind fun w w' hw => ?_))
    rcases q with _ | ⟨⟨y, i2⟩, q⟩ <;> rcases q' with _ | ⟨⟨y', i2'⟩, q'⟩
    · exact Rel.panic
    · simp [SameIdx] at hq
    · simp [SameIdx] at hq
    · simp only [SameIdx, List.map_cons, List.cons.injEq] at hq
      obtain ⟨rfl, hq⟩ := hq
      dsimp only
      refine Rel.seq (by rw [SameIdx.length hq]) ?_
      exact (traverse3T_rel n d1 d2 q q' g.1 g'.1 y y' _ w w' hq (hw.1.trans hw.2.symm)).mono fun a b hab => by rwa [hw.1] at hab

theorem traverseTreeAT_rel (s : List Nat) (c c' : Coef F) (x x' : Pt F) (e e' : List (Pt F)) (hl : e.length = e'.length) :
    Rel (fun a b : Pt F × List (Pt F) => a.2.length = e.length ∧ b.2.length = e.length) (traverseTreeAT t s c x e) (traverseTreeAT t s c' x' e') :=
  (equiv4_rel h c c').bindAny fun _ _ => traverse4T_rel h _ _ _ _ _ _ _ _ _ _ _ _ rfl hl
theorem traverseTreeBT_rel (s : List Nat) (c c' : Coef F) (x x' : Pt F) (e e' : List (Pt F)) (hl : e.length = e'.length) :
    Rel (fun a b : Pt F × List (Pt F) => a.2.length = e.length ∧ b.2.length = e.length) (traverseTreeBT t s c x e) (traverseTreeBT t s c' x' e') :=
  (equiv3_rel h c c').bindAny fun _ _ => traverse3T_rel h _ _ _ _ _ _ _ _ _ _ _ _ rfl hl

theorem three {l : List α} (hl : l.length = 3) : ∃ a b c, l = [a, b, c] := by
  rcases l with _ | ⟨a, _ | ⟨b, _ | ⟨c, _ | ⟨d, l⟩⟩⟩⟩ <;> simp at hl
  exact ⟨a, b, c, rfl⟩

theorem publicKeyGenAT_rel (c : CParams F) {s s' : List Byte} (hs : c.bitsA ≤ 8 * s.length) (hs' : c.bitsA ≤ 8 * s'.length) :
    Rel Any (publicKeyGenAT t c s) (publicKeyGenAT t c s') := by
  refine (scalarMul3PtT_rel h _ _ _ _ _ _ _ _ _ hs hs').bindAny fun x x' => (traverseTreeAT_rel h _ _ _ _ _ _ _ rfl).bind fun r r' hr =>
    (gen4T_rel h _ _).bindAny fun g g' => ?_
  obtain ⟨r1, r2⟩ := r
  obtain ⟨r1', r2'⟩ := r'
  obtain ⟨a, b, d, rfl⟩ := three h hr.1
  obtain ⟨a', b', d', rfl⟩ := three h hr.2
  exact (eval4T_rel h _ _ _ _).bindAny fun _ _ => (eval4T_rel h _ _ _ _).bindAny fun _ _ => (eval4T_rel h _ _ _ _).bindAny fun _ _ =>
    (batch3InvT_rel h _ _ _ _ _ _).bindAny fun _ _ => (h.mul _ _ _ _).bindAny fun _ _ => (h.mul _ _ _ _).bindAny fun _ _ =>
    (h.mul _ _ _ _).bindAny fun _ _ => Rel.pureAny _ _

theorem publicKeyGenBT_rel (c : CParams F) {s s' : List Byte} (hs : c.bitsB ≤ 8 * s.length) (hs' : c.bitsB ≤ 8 * s'.length) :
    Rel Any (publicKeyGenBT t c s) (publicKeyGenBT t c s') := by
  refine (scalarMul3PtT_rel h _ _ _ _ _ _ _ _ _ hs hs').bindAny fun x x' => (traverseTreeBT_rel h _ _ _ _ _ _ _ rfl).bind fun r r' hr =>
    (gen3T_rel h _ _).bindAny fun g g' => ?_
  obtain ⟨r1, r2⟩ := r
  obtain ⟨r1', r2'⟩ := r'
  obtain ⟨a, b, d, rfl⟩ := three h hr.1
  obtain ⟨a', b', d', rfl⟩ := three h hr.2
  exact (eval3T_rel h _ _ _ _).bindAny fun _ _ => (eval3T_rel h _ _ _ _).bindAny fun _ _ => (eval3T_rel h _ _ _ _).bindAny fun _ _ =>
    (batch3InvT_rel h _ _ _ _ _ _).bindAny fun _ _ => (h.mul _ _ _ _).bindAny fun _ _ => (h.mul _ _ _ _).bindAny fun _ _ =>
    (h.mul _ _ _ _).bindAny fun _ _ => Rel.pureAny _ _

theorem deriveAT_rel (c : CParams F) {s s' : List Byte} (hs : c.bitsA ≤ 8 * s.length) (hs' : c.bitsA ≤ 8 * s'.length) (p p' : Tri F) :
    Rel Any (deriveAT t c s p) (deriveAT t c s' p') :=
  (recoverCoordinateAT_rel h _ _ _ _ _ _ _ _).bindAny fun _ _ => (scalarMul3PtT_rel h _ _ _ _ _ _ _ _ _ hs hs').bindAny fun _ _ =>
    (traverseTreeAT_rel h _ _ _ _ _ _ _ rfl).any.bindAny fun _ _ => (gen4T_rel h _ _).bindAny fun _ _ => (recover4_rel h _ _ _ _).bindAny fun _ _ =>
    jinvariantT_rel h _ _

theorem deriveBT_rel (c : CParams F) {s s' : List Byte} (hs : c.bitsB ≤ 8 * s.length) (hs' : c.bitsB ≤ 8 * s'.length) (p p' : Tri F) :
    Rel Any (deriveBT t c s p) (deriveBT t c s' p') :=
  (recoverCoordinateAT_rel h _ _ _ _ _ _ _ _).bindAny fun _ _ => (scalarMul3PtT_rel h _ _ _ _ _ _ _ _ _ hs hs').bindAny fun _ _ =>
    (traverseTreeBT_rel h _ _ _ _ _ _ _ rfl).any.bindAny fun _ _ => (gen3T_rel h _ _).bindAny fun _ _ => (recover3_rel h _ _).bindAny fun _ _ =>
    jinvariantT_rel h _ _
end

end Lemmas.SidhSteps
