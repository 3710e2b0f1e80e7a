import Verif.Lemmas.SidhTrace
import Mathlib.Algebra.Field.Basic
import Mathlib.Data.List.Forall2
/-
The curve code respects every relation between two instances of the field operations.  Used to pass from word arrays
to the field elements they denote.
-/
namespace Lemmas.SidhNat
open Model Model.Sidh Lemmas.SidhTrace

/-- The operations of a field -/
def fieldOps (K : Type) [Field K] : Ops K where
  add := (· + ·)
  sub := (· - ·)
  mul := (· * ·)
  sqr := fun x => x * x
  inv := fun x => x⁻¹
  cswap := fun x y c => if c = 0 then (x, y) else (y, x)

variable {F G : Type}

structure OpsRel (o : Ops F) (o' : Ops G) (r : F → G → Prop) : Prop where
  add : ∀ {x y x' y'}, r x x' → r y y' → r (o.add x y) (o'.add x' y')
  sub : ∀ {x y x' y'}, r x x' → r y y' → r (o.sub x y) (o'.sub x' y')
  mul : ∀ {x y x' y'}, r x x' → r y y' → r (o.mul x y) (o'.mul x' y')
  sqr : ∀ {x x'}, r x x' → r (o.sqr x) (o'.sqr x')
  inv : ∀ {x x'}, r x x' → r (o.inv x) (o'.inv x')
  cswap : ∀ {x y x' y'} {c : Byte}, c = 0 ∨ c = 1 → r x x' → r y y' →
    r (o.cswap x y c).1 (o'.cswap x' y' c).1 ∧ r (o.cswap x y c).2 (o'.cswap x' y' c).2

variable {o : Ops F} {o' : Ops G} {r : F → G → Prop}

structure RPt (r : F → G → Prop) (p : Pt F) (p' : Pt G) : Prop where
  X : r p.X p'.X
  Z : r p.Z p'.Z

structure RCoef (r : F → G → Prop) (p : Coef F) (p' : Coef G) : Prop where
  A : r p.A p'.A
  C : r p.C p'.C

structure RIso3 (r : F → G → Prop) (p : Iso3 F) (p' : Iso3 G) : Prop where
  K1 : r p.K1 p'.K1
  K2 : r p.K2 p'.K2

structure RIso4 (r : F → G → Prop) (p : Iso4 F) (p' : Iso4 G) : Prop where
  K1 : r p.K1 p'.K1
  K2 : r p.K2 p'.K2
  K3 : r p.K3 p'.K3

structure RTri (r : F → G → Prop) (t : Tri F) (t' : Tri G) : Prop where
  hp : r t.p t'.p
  hq : r t.q t'.q
  hr : r t.r t'.r

structure RCParams (r : F → G → Prop) (c : CParams F) (c' : CParams G) : Prop where
  one : r c.one c'.one
  half : r c.half c'.half
  initA : r c.initA c'.initA
  initC : r c.initC c'.initC
  pA : r c.pA c'.pA
  qA : r c.qA c'.qA
  rA : r c.rA c'.rA
  pB : r c.pB c'.pB
  qB : r c.qB c'.qB
  rB : r c.rB c'.rB
  stratA : c.stratA = c'.stratA
  stratB : c.stratB = c'.stratB
  bitsA : c.bitsA = c'.bitsA
  bitsB : c.bitsB = c'.bitsB

/-- Both panic, or both return, related values. -/
inductive ROpt {α β : Type} (r : α → β → Prop) : Option α → Option β → Prop
  | none : ROpt r none none
  | some {a b} : r a b → ROpt r (some a) (some b)

theorem ROpt.bind {α β α' β' : Type} {r : α → β → Prop} {s : α' → β' → Prop} {x : Option α} {y : Option β} {f : α → Option α'} {g : β → Option β'}
    (h : ROpt r x y) (hf : ∀ a b, r a b → ROpt s (f a) (g b)) : ROpt s (x >>= f) (y >>= g) := by
  cases h with
  | none => exact .none
  | some h => exact hf _ _ h

section
variable (h : OpsRel o o' r)
include h

local macro "rel" : tactic => `(tactic| repeat' first | assumption | apply h.add | apply h.sub | apply h.mul | apply h.sqr | apply h.inv)

theorem jinvariant_rel {c : Coef F} {c' : Coef G} (hc : RCoef r c c') : r (jinvariant o c) (jinvariant o' c') := by
  obtain ⟨h1, h2⟩ := hc
  simp only [jinvariant]; rel

theorem recoverCoordinateA_rel {w x y z : F} {w' x' y' z' : G} (hw : r w w') (hx : r x x') (hy : r y y') (hz : r z z') :
    r (recoverCoordinateA o w x y z) (recoverCoordinateA o' w' x' y' z') := by
  simp only [recoverCoordinateA]; rel

theorem calcCurveParamsEquiv3_rel {c : Coef F} {c' : Coef G} (hc : RCoef r c c') : RCoef r (calcCurveParamsEquiv3 o c) (calcCurveParamsEquiv3 o' c') := by
  obtain ⟨h1, h2⟩ := hc
  constructor <;> simp only [calcCurveParamsEquiv3] <;> rel

theorem calcCurveParamsEquiv4_rel {c : Coef F} {c' : Coef G} (hc : RCoef r c c') : RCoef r (calcCurveParamsEquiv4 o c) (calcCurveParamsEquiv4 o' c') := by
  obtain ⟨h1, h2⟩ := hc
  constructor <;> simp only [calcCurveParamsEquiv4] <;> rel

theorem calcAplus2Over4_rel {c : Coef F} {c' : Coef G} (hc : RCoef r c c') : r (calcAplus2Over4 o c) (calcAplus2Over4 o' c') := by
  obtain ⟨h1, h2⟩ := hc
  simp only [calcAplus2Over4]; rel

theorem recoverCurveCoefficients3_rel {c : Coef F} {c' : Coef G} (hc : RCoef r c c') : RCoef r (recoverCurveCoefficients3 o c) (recoverCurveCoefficients3 o' c') := by
  obtain ⟨h1, h2⟩ := hc
  constructor <;> simp only [recoverCurveCoefficients3] <;> rel

theorem recoverCurveCoefficients4_rel {x : F} {x' : G} {c : Coef F} {c' : Coef G} (hx : r x x') (hc : RCoef r c c') :
    RCoef r (recoverCurveCoefficients4 o x c) (recoverCurveCoefficients4 o' x' c') := by
  obtain ⟨h1, h2⟩ := hc
  constructor <;> simp only [recoverCurveCoefficients4] <;> rel

theorem xDbladd_rel {p q s : Pt F} {p' q' s' : Pt G} {a : F} {a' : G} (hp : RPt r p p') (hq : RPt r q q') (hs : RPt r s s') (ha : r a a') :
    RPt r (xDbladd o p q s a).1 (xDbladd o' p' q' s' a').1 ∧ RPt r (xDbladd o p q s a).2 (xDbladd o' p' q' s' a').2 := by
  obtain ⟨h1, h2⟩ := hp
  obtain ⟨h3, h4⟩ := hq
  obtain ⟨h5, h6⟩ := hs
  refine ⟨⟨?_, ?_⟩, ?_, ?_⟩ <;> simp only [xDbladd] <;> rel

theorem dblStep_rel {c : Coef F} {c' : Coef G} {p : Pt F} {p' : Pt G} (hc : RCoef r c c') (hp : RPt r p p') : RPt r (dblStep o c p) (dblStep o' c' p') := by
  obtain ⟨h1, h2⟩ := hp
  obtain ⟨h3, h4⟩ := hc
  constructor <;> simp only [dblStep] <;> rel

theorem tplStep_rel {c : Coef F} {c' : Coef G} {p : Pt F} {p' : Pt G} (hc : RCoef r c c') (hp : RPt r p p') : RPt r (tplStep o c p) (tplStep o' c' p') := by
  obtain ⟨h1, h2⟩ := hp
  obtain ⟨h3, h4⟩ := hc
  constructor <;> simp only [tplStep] <;> rel

theorem pow2k_rel {c : Coef F} {c' : Coef G} (hc : RCoef r c c') : ∀ (k : Nat) {p : Pt F} {p' : Pt G}, RPt r p p' → RPt r (pow2k o c k p) (pow2k o' c' k p')
  | 0, _, _, hp => hp
  | k + 1, _, _, hp => pow2k_rel hc k (dblStep_rel h hc hp)

theorem pow3k_rel {c : Coef F} {c' : Coef G} (hc : RCoef r c c') : ∀ (k : Nat) {p : Pt F} {p' : Pt G}, RPt r p p' → RPt r (pow3k o c k p) (pow3k o' c' k p')
  | 0, _, _, hp => hp
  | k + 1, _, _, hp => pow3k_rel hc k (tplStep_rel h hc hp)

theorem batch3Inv_rel {x y z : F} {x' y' z' : G} (hx : r x x') (hy : r y y') (hz : r z z') :
    r (batch3Inv o x y z).1 (batch3Inv o' x' y' z').1 ∧ r (batch3Inv o x y z).2.1 (batch3Inv o' x' y' z').2.1 ∧
    r (batch3Inv o x y z).2.2 (batch3Inv o' x' y' z').2.2 := by
  refine ⟨?_, ?_, ?_⟩ <;> simp only [batch3Inv] <;> rel

theorem cswapPt_rel {p q : Pt F} {p' q' : Pt G} {c : Byte} (hc : c = 0 ∨ c = 1) (hp : RPt r p p') (hq : RPt r q q') :
    RPt r (cswapPt o p q c).1 (cswapPt o' p' q' c).1 ∧ RPt r (cswapPt o p q c).2 (cswapPt o' p' q' c).2 := by
  have hx := h.cswap hc hp.X hq.X
  have hz := h.cswap hc hp.Z hq.Z
  exact ⟨⟨hx.1, hz.1⟩, ⟨hx.2, hz.2⟩⟩

omit h in
theorem bit_cases (b : Byte) (i : Nat) : (b >>> i) &&& 1 = 0 ∨ (b >>> i) &&& 1 = 1 := by
  generalize b >>> i = x
  revert x
  decide +kernel

omit h in
theorem xor_cases {a b : Byte} (ha : a = 0 ∨ a = 1) (hb : b = 0 ∨ b = 1) : a ^^^ b = 0 ∨ a ^^^ b = 1 := by
  rcases ha with rfl | rfl <;> rcases hb with rfl | rfl <;> decide

theorem ladderLoop_rel {a : F} {a' : G} (ha : r a a') (scalar : List Byte) : ∀ (k i : Nat) {r0 r1 r2 : Pt F} {r0' r1' r2' : Pt G} {prev : Byte},
    RPt r r0 r0' → RPt r r1 r1' → RPt r r2 r2' → prev = 0 ∨ prev = 1 →
    ROpt (fun (x : Pt F × Pt F × Byte) (y : Pt G × Pt G × Byte) => RPt r x.1 y.1 ∧ RPt r x.2.1 y.2.1 ∧ x.2.2 = y.2.2 ∧ (x.2.2 = 0 ∨ x.2.2 = 1))
      (ladderLoop o a scalar i k r0 r1 r2 prev) (ladderLoop o' a' scalar i k r0' r1' r2' prev)
  | 0, _, _, _, _, _, _, _, _, _, h1, h2, hp => .some ⟨h1, h2, rfl, hp⟩
  | k + 1, i, r0, r1, r2, r0', r1', r2', prev, h0, h1, h2, hp => by
    rw [ladderLoop, ladderLoop, scalarBit]
    cases hb : scalar[i / 8]? with
    | none => exact .none
    | some b =>
      have hbit := bit_cases b (i % 8)
      obtain ⟨c1, c2⟩ := cswapPt_rel h (xor_cases hp hbit) h1 h2
      obtain ⟨d1, d2⟩ := xDbladd_rel h h0 c2 c1 ha
      exact ladderLoop_rel ha scalar k (i + 1) d1 c1 d2 hbit

theorem scalarMul3Pt_rel {c : Coef F} {c' : Coef G} (hc : RCoef r c c') {p q s : Pt F} {p' q' s' : Pt G} (hp : RPt r p p') (hq : RPt r q q') (hs : RPt r s s')
    (nbits : Nat) (scalar : List Byte) : ROpt (RPt r) (scalarMul3Pt o c p q s nbits scalar) (scalarMul3Pt o' c' p' q' s' nbits scalar) := by
  refine ROpt.bind (ladderLoop_rel h (calcAplus2Over4_rel h hc) scalar nbits 0 hq hp hs (Or.inl rfl)) ?_
  rintro ⟨r1, r2, b⟩ ⟨r1', r2', b'⟩ ⟨h1, h2, rfl, h4⟩
  exact .some (cswapPt_rel h h4 h1 h2).1

theorem gen3_rel {p : Pt F} {p' : Pt G} (hp : RPt r p p') : RCoef r (gen3 o p).1 (gen3 o' p').1 ∧ RIso3 r (gen3 o p).2 (gen3 o' p').2 := by
  obtain ⟨h1, h2⟩ := hp
  refine ⟨⟨?_, ?_⟩, ?_, ?_⟩ <;> simp only [gen3] <;> rel

theorem gen4_rel {p : Pt F} {p' : Pt G} (hp : RPt r p p') : RCoef r (gen4 o p).1 (gen4 o' p').1 ∧ RIso4 r (gen4 o p).2 (gen4 o' p').2 := by
  obtain ⟨h1, h2⟩ := hp
  refine ⟨⟨?_, ?_⟩, ?_, ?_, ?_⟩ <;> simp only [gen4] <;> rel

theorem eval3_rel {f : Iso3 F} {f' : Iso3 G} {p : Pt F} {p' : Pt G} (hf : RIso3 r f f') (hp : RPt r p p') : RPt r (eval3 o f p) (eval3 o' f' p') := by
  obtain ⟨h1, h2⟩ := hp
  obtain ⟨h3, h4⟩ := hf
  constructor <;> simp only [eval3] <;> rel

theorem eval4_rel {f : Iso4 F} {f' : Iso4 G} {p : Pt F} {p' : Pt G} (hf : RIso4 r f f') (hp : RPt r p p') : RPt r (eval4 o f p) (eval4 o' f' p') := by
  obtain ⟨h1, h2⟩ := hp
  obtain ⟨h3, h4, h5⟩ := hf
  constructor <;> simp only [eval4] <;> rel

/-- Stacks with the same indices and related points -/
def RStk {α β : Type} (r : α → β → Prop) : List (α × Nat) → List (β × Nat) → Prop := List.Forall₂ fun x y => r x.1 y.1 ∧ x.2 = y.2

omit h in
theorem descend_rel {α β : Type} {r : α → β → Prop} (lim : Nat) {pw : Nat → α → α} {pw' : Nat → β → β} (hpw : ∀ k a b, r a b → r (pw k a) (pw' k b)) :
    ∀ (rest : List Nat) {stk : List (α × Nat)} {stk' : List (β × Nat)} {x : α} {y : β} (i : Nat), RStk r stk stk' → r x y →
    ROpt (fun (u : List Nat × List (α × Nat) × α × Nat) (v : List Nat × List (β × Nat) × β × Nat) => u.1 = v.1 ∧ RStk r u.2.1 v.2.1 ∧ r u.2.2.1 v.2.2.1 ∧ u.2.2.2 = v.2.2.2)
      (descend lim pw rest stk x i) (descend lim pw' rest stk' y i)
  | [], _, _, _, _, i, hs, hx => by
    rw [descend, descend]
    split
    · exact .none
    · exact .some ⟨rfl, hs, hx, rfl⟩
  | k :: rest, _, _, _, _, i, hs, hx => by
    rw [descend, descend]
    split
    · exact descend_rel lim hpw rest (i + k) (.cons ⟨hx, rfl⟩ hs) (hpw k _ _ hx)
    · exact .some ⟨rfl, hs, hx, rfl⟩

omit h in
theorem trav_rel {α β C C' I I' : Type} {r : α → β → Prop} {rc : C → C' → Prop} {ri : I → I' → Prop}
    {pw : C → Nat → α → α} {pw' : C' → Nat → β → β} {gen : α → C × I} {gen' : β → C' × I'} {ev : I → α → α} {ev' : I' → β → β}
    (hpw : ∀ c c', rc c c' → ∀ k a b, r a b → r (pw c k a) (pw' c' k b)) (hgen : ∀ a b, r a b → rc (gen a).1 (gen' b).1 ∧ ri (gen a).2 (gen' b).2)
    (hev : ∀ i i', ri i i' → ∀ a b, r a b → r (ev i a) (ev' i' b)) :
    ∀ (n : Nat) (rest : List Nat) {stk : List (α × Nat)} {stk' : List (β × Nat)} {c : C} {c' : C'} {x : α} {x' : β} (i : Nat)
    {e : List α} {e' : List β}, RStk r stk stk' → rc c c' → r x x' → List.Forall₂ r e e' →
    ROpt (fun u v => r u.1 v.1 ∧ List.Forall₂ r u.2 v.2) (trav pw gen ev n rest stk c x i e) (trav pw' gen' ev' n rest stk' c' x' i e')
  | 0, _, _, _, _, _, _, _, _, _, _, _, _, hx, he => .some ⟨hx, he⟩
  | n + 1, rest, _, _, _, _, _, _, i, _, _, hs, hc, hx, he => by
    rw [trav, trav]
    refine ROpt.bind (descend_rel n (hpw _ _ hc) rest i hs hx) ?_
    rintro ⟨rest1, stk1, x1, i1⟩ ⟨rest2, stk2, x2, i2⟩ ⟨hrest, hs, hx, rfl⟩
    have hrest : rest1 = rest2 := hrest
    subst hrest
    obtain ⟨g1, g2⟩ := hgen _ _ hx
    have hs' : RStk r stk1 stk2 := hs
    have he2 := List.Forall₂.imp (hev _ _ g2) he
    cases hs' with
    | nil => exact .none
    | cons a b =>
      rename_i u v s t
      obtain ⟨u1, u2⟩ := u
      obtain ⟨v1, v2⟩ := v
      obtain ⟨a1, a2⟩ := a
      have a2 : u2 = v2 := a2
      subst a2
      exact trav_rel hpw hgen hev n rest1 u2 (by
        rw [RStk, List.forall₂_map_left_iff, List.forall₂_map_right_iff]
        exact b.imp fun x y hxy => ⟨hev _ _ g2 _ _ hxy.1, hxy.2⟩) g1 (hev _ _ g2 _ _ a1) (by
        rw [List.forall₂_map_left_iff, List.forall₂_map_right_iff]
        exact he2)

theorem traverseTreeA_rel (strat : List Nat) {c : Coef F} {c' : Coef G} (hc : RCoef r c c') {x : Pt F} {x' : Pt G} (hx : RPt r x x')
    {e : List (Pt F)} {e' : List (Pt G)} (he : List.Forall₂ (RPt r) e e') :
    ROpt (fun u v => RPt r u.1 v.1 ∧ List.Forall₂ (RPt r) u.2 v.2) (traverseTreeA o strat c x e) (traverseTreeA o' strat c' x' e') := by
  rw [traverseTreeA, traverseTreeA, traverse4_eq, traverse4_eq]
  exact trav_rel (rc := RCoef r) (ri := RIso4 r) (fun _ _ hc k _ _ hab => pow2k_rel h hc (2 * k) hab) (fun _ _ hab => gen4_rel h hab)
    (fun _ _ hf _ _ hab => eval4_rel h hf hab) _ _ _ .nil (calcCurveParamsEquiv4_rel h hc) hx he

theorem traverseTreeB_rel (strat : List Nat) {c : Coef F} {c' : Coef G} (hc : RCoef r c c') {x : Pt F} {x' : Pt G} (hx : RPt r x x')
    {e : List (Pt F)} {e' : List (Pt G)} (he : List.Forall₂ (RPt r) e e') :
    ROpt (fun u v => RPt r u.1 v.1 ∧ List.Forall₂ (RPt r) u.2 v.2) (traverseTreeB o strat c x e) (traverseTreeB o' strat c' x' e') := by
  rw [traverseTreeB, traverseTreeB, traverse3_eq, traverse3_eq]
  exact trav_rel (rc := RCoef r) (ri := RIso3 r) (fun _ _ hc k _ _ hab => pow3k_rel h hc k hab) (fun _ _ hab => gen3_rel h hab)
    (fun _ _ hf _ _ hab => eval3_rel h hf hab) _ _ _ .nil (calcCurveParamsEquiv3_rel h hc) hx he

theorem publicKeyGenA_rel {c : CParams F} {c' : CParams G} (hc : RCParams r c c') (prv : List Byte) :
    ROpt (RTri r) (publicKeyGenA o c prv) (publicKeyGenA o' c' prv) := by
  rw [publicKeyGenA, publicKeyGenA, hc.bitsA, hc.stratA]
  refine ROpt.bind (scalarMul3Pt_rel h ⟨hc.initA, hc.initC⟩ ⟨hc.pA, hc.one⟩ ⟨hc.qA, hc.one⟩ ⟨hc.rA, hc.one⟩ _ _) ?_
  intro x x' hx
  refine ROpt.bind (traverseTreeA_rel h _ ⟨hc.initA, hc.initC⟩ hx
    (.cons ⟨hc.pB, hc.one⟩ (.cons ⟨hc.qB, hc.one⟩ (.cons ⟨hc.rB, hc.one⟩ .nil)))) ?_
  rintro ⟨y, e⟩ ⟨y', e'⟩ ⟨hy, he⟩
  obtain ⟨_, g⟩ := gen4_rel h hy
  have he : List.Forall₂ (RPt r) e e' := he
  match e, e', he with
  | [], [], _ => exact .none
  | [_], [_], _ => exact .none
  | [_, _], [_, _], _ => exact .none
  | [a, b, c], [a', b', c'], .cons ha (.cons hb (.cons hc .nil)) =>
    have ea := eval4_rel h g ha
    have eb := eval4_rel h g hb
    have ec := eval4_rel h g hc
    obtain ⟨i1, i2, i3⟩ := batch3Inv_rel h ea.Z eb.Z ec.Z
    exact .some ⟨h.mul ea.X i1, h.mul eb.X i2, h.mul ec.X i3⟩
  | _ :: _ :: _ :: _ :: _, _ :: _ :: _ :: _ :: _, _ => exact .none

theorem publicKeyGenB_rel {c : CParams F} {c' : CParams G} (hc : RCParams r c c') (prv : List Byte) :
    ROpt (RTri r) (publicKeyGenB o c prv) (publicKeyGenB o' c' prv) := by
  rw [publicKeyGenB, publicKeyGenB, hc.bitsB, hc.stratB]
  refine ROpt.bind (scalarMul3Pt_rel h ⟨hc.initA, hc.initC⟩ ⟨hc.pB, hc.one⟩ ⟨hc.qB, hc.one⟩ ⟨hc.rB, hc.one⟩ _ _) ?_
  intro x x' hx
  refine ROpt.bind (traverseTreeB_rel h _ ⟨hc.initA, hc.initC⟩ hx
    (.cons ⟨hc.pA, hc.one⟩ (.cons ⟨hc.qA, hc.one⟩ (.cons ⟨hc.rA, hc.one⟩ .nil)))) ?_
  rintro ⟨y, e⟩ ⟨y', e'⟩ ⟨hy, he⟩
  obtain ⟨_, g⟩ := gen3_rel h hy
  have he : List.Forall₂ (RPt r) e e' := he
  match e, e', he with
  | [], [], _ => exact .none
  | [_], [_], _ => exact .none
  | [_, _], [_, _], _ => exact .none
  | [a, b, c], [a', b', c'], .cons ha (.cons hb (.cons hc .nil)) =>
    have ea := eval3_rel h g ha
    have eb := eval3_rel h g hb
    have ec := eval3_rel h g hc
    obtain ⟨i1, i2, i3⟩ := batch3Inv_rel h ea.Z eb.Z ec.Z
    exact .some ⟨h.mul ea.X i1, h.mul eb.X i2, h.mul ec.X i3⟩
  | _ :: _ :: _ :: _ :: _, _ :: _ :: _ :: _ :: _, _ => exact .none

theorem deriveA_rel {c : CParams F} {c' : CParams G} (hc : RCParams r c c') (prv : List Byte) {t : Tri F} {t' : Tri G} (ht : RTri r t t') :
    ROpt r (deriveA o c prv t) (deriveA o' c' prv t') := by
  have ha := recoverCoordinateA_rel h hc.one ht.hp ht.hq ht.hr
  rw [deriveA, deriveA, hc.bitsA, hc.stratA]
  refine ROpt.bind (scalarMul3Pt_rel h ⟨ha, hc.initC⟩ ⟨ht.hp, hc.one⟩ ⟨ht.hq, hc.one⟩ ⟨ht.hr, hc.one⟩ _ _) ?_
  intro x x' hx
  refine ROpt.bind (traverseTreeA_rel h _ ⟨ha, hc.initC⟩ hx .nil) ?_
  rintro ⟨y, e⟩ ⟨y', e'⟩ ⟨hy, he⟩
  exact .some (jinvariant_rel h (recoverCurveCoefficients4_rel h hc.half (gen4_rel h hy).1))

theorem deriveB_rel {c : CParams F} {c' : CParams G} (hc : RCParams r c c') (prv : List Byte) {t : Tri F} {t' : Tri G} (ht : RTri r t t') :
    ROpt r (deriveB o c prv t) (deriveB o' c' prv t') := by
  have ha := recoverCoordinateA_rel h hc.one ht.hp ht.hq ht.hr
  rw [deriveB, deriveB, hc.bitsB, hc.stratB]
  refine ROpt.bind (scalarMul3Pt_rel h ⟨ha, hc.initC⟩ ⟨ht.hp, hc.one⟩ ⟨ht.hq, hc.one⟩ ⟨ht.hr, hc.one⟩ _ _) ?_
  intro x x' hx
  refine ROpt.bind (traverseTreeB_rel h _ ⟨ha, hc.initC⟩ hx .nil) ?_
  rintro ⟨y, e⟩ ⟨y', e'⟩ ⟨hy, he⟩
  exact .some (jinvariant_rel h (recoverCurveCoefficients3_rel h (gen3_rel h hy).1))

end

end Lemmas.SidhNat
