import Verif.Lemmas.SidhLimb
/-
Runs of the SIDH curve code by calculation with pairs of numbers modulo p: the curve code over the field gives the same
answers, and numbers are fast enough to be evaluated by the kernel.
-/
namespace Lemmas.SidhRun
open Model Model.Sidh Spec Spec.Sidh Lemmas.SidhNat Lemmas.SidhTrace Lemmas.SidhBase Lemmas.SidhLimb Lemmas.SidhGood Props.SidhKeys

/-- evaluate the number before going on -/
def force {α : Type} (x : Nat) (k : Nat → α) : α :=
  match x with
  | 0 => k 0
  | n + 1 => k (n + 1)

theorem force_eq {α : Type} (x : Nat) (k : Nat → α) : force x k = k x := by cases x <;> rfl

abbrev N2 := Nat × Nat

def force2 {α : Type} (x : N2) (k : N2 → α) : α := force x.1 fun a => force x.2 fun b => k (a, b)
theorem force2_eq {α : Type} (x : N2) (k : N2 → α) : force2 x k = k x := by simp only [force2, force_eq]

def forceP {α : Type} (x : Pt N2) (k : Pt N2 → α) : α := force2 x.X fun a => force2 x.Z fun b => k ⟨a, b⟩
theorem forceP_eq {α : Type} (x : Pt N2) (k : Pt N2 → α) : forceP x k = k x := by simp only [forceP, force2_eq]

def forceC {α : Type} (x : Coef N2) (k : Coef N2 → α) : α := force2 x.A fun a => force2 x.C fun b => k ⟨a, b⟩
theorem forceC_eq {α : Type} (x : Coef N2) (k : Coef N2 → α) : forceC x k = k x := by simp only [forceC, force2_eq]

def force3 {α : Type} (x : Iso3 N2) (k : Iso3 N2 → α) : α := force2 x.K1 fun a => force2 x.K2 fun b => k ⟨a, b⟩
theorem force3_eq {α : Type} (x : Iso3 N2) (k : Iso3 N2 → α) : force3 x k = k x := by simp only [force3, force2_eq]

def force4 {α : Type} (x : Iso4 N2) (k : Iso4 N2 → α) : α := force2 x.K1 fun a => force2 x.K2 fun b => force2 x.K3 fun c => k ⟨a, b, c⟩
theorem force4_eq {α : Type} (x : Iso4 N2) (k : Iso4 N2 → α) : force4 x k = k x := by simp only [force4, force2_eq]

/-- b ^ e modulo p, for e < 2 ^ fuel -/
def powm (p : Nat) : Nat → Nat → Nat → Nat
  | 0, _, _ => 1
  | k + 1, b, e => force (b * b % p) fun b2 => force (powm p k b2 (e / 2)) fun r => if e % 2 = 1 then r * b % p else r

theorem powm_eq (p : Nat) : ∀ (k b e : Nat), e < 2 ^ k → ((powm p k b e : Nat) : ZMod p) = (b : ZMod p) ^ e
  | 0, b, e, h => by
    have : e = 0 := by omega
    subst this; simp [powm]
  | k + 1, b, e, h => by
    have ih := powm_eq p k (b * b % p) (e / 2) (by rw [pow_succ] at h; omega)
    rw [powm]
    simp only [force_eq]
    have hb : (b : ZMod p) * b = (b : ZMod p) ^ 2 := (sq _).symm
    rw [ZMod.natCast_mod, Nat.cast_mul, hb, ← pow_mul] at ih
    split
    · rename_i h1
      rw [ZMod.natCast_mod, Nat.cast_mul, ih, ← pow_succ]
      congr 1; omega
    · rw [ih]; congr 1; omega

/-- the inverse of a pair -/
def invN (p : Nat) (x : N2) : N2 :=
  force ((x.1 * x.1 + x.2 * x.2) % p) fun n => force (powm p 800 n (p - 2)) fun m => (x.1 * m % p, (0 + (p - x.2 * m % p)) % p)

/-- arithmetic of pairs modulo p -/
def rOps (p : Nat) : Ops N2 :=
  {nOps p with inv := invN p, cswap := fun x y c => if c = 0 then (x, y) else (y, x)}

variable (f : Fld)

/-- the pair stands for the element -/
def R (x : N2) (a : Fq f) : Prop := el f x = a

theorem p_lt : f.p < 2 ^ 800 := by cases f <;> decide +kernel

theorem el_inv (x : N2) : el f (invN f.p x) = (el f x)⁻¹ := by
  have hp : 2 < f.p := by have := Lemmas.SidhGood.p_gt f; omega
  have e : el f (invN f.p x) = ⟨(x.1 : ZMod f.p) * (x.1 * x.1 + x.2 * x.2) ^ (f.p - 2), -((x.2 : ZMod f.p) * (x.1 * x.1 + x.2 * x.2) ^ (f.p - 2))⟩ := by
    have hm := powm_eq f.p 800 ((x.1 * x.1 + x.2 * x.2) % f.p) (f.p - 2) (lt_of_le_of_lt (Nat.sub_le _ _) (p_lt f))
    rw [ZMod.natCast_mod] at hm
    push_cast at hm
    rw [invN]
    simp only [force_eq]
    ext
    · simp only [el]
      rw [ZMod.natCast_mod, Nat.cast_mul, hm]
    · simp only [el]
      rw [cast_sub_mod, Nat.cast_mul, hm, Nat.cast_zero, zero_sub]
  rw [e]
  generalize hn : ((x.1 : ZMod f.p) * x.1 + x.2 * x.2) = n
  by_cases h0 : el f x = 0
  · have h1 : (x.1 : ZMod f.p) = 0 := congrArg QuadraticAlgebra.re h0
    have h2 : (x.2 : ZMod f.p) = 0 := congrArg QuadraticAlgebra.im h0
    rw [h0, inv_zero]
    ext <;> simp [h1, h2]
  · have key : ∀ m : ZMod f.p, el f x * ⟨(x.1 : ZMod f.p) * m, -((x.2 : ZMod f.p) * m)⟩ = ⟨n * m, 0⟩ := by
      intro m
      ext
      · rw [QuadraticAlgebra.re_mul, ← hn]; simp only [el]; ring
      · rw [QuadraticAlgebra.im_mul]; simp only [el]; ring
    have hn0 : n ≠ 0 := by
      intro h
      have h1 := key 1
      rw [h, zero_mul] at h1
      have h2 : (⟨(x.1 : ZMod f.p) * 1, -((x.2 : ZMod f.p) * 1)⟩ : Fq f) = 0 := (mul_eq_zero.mp h1).resolve_left h0
      have h3 : (x.1 : ZMod f.p) * 1 = 0 := congrArg QuadraticAlgebra.re h2
      have h4 : -((x.2 : ZMod f.p) * 1) = 0 := congrArg QuadraticAlgebra.im h2
      apply h0
      ext
      · simpa [el] using h3
      · simpa [el] using h4
    symm
    apply inv_eq_of_mul_eq_one_right
    rw [key, ← pow_succ', show f.p - 2 + 1 = f.p - 1 by omega, ZMod.pow_card_sub_one_eq_one hn0]
    rfl

attribute [local irreducible] invN

theorem rel : OpsRel (rOps f.p) (fieldOps (Fq f)) (R f) where
  add := by rintro x y _ _ rfl rfl; exact el_add f x y
  sub := by rintro x y _ _ rfl rfl; exact el_sub f x y
  mul := by rintro x y _ _ rfl rfl; exact el_mul f x y
  sqr := by rintro x _ rfl; exact el_sqr f x
  inv := by rintro x _ rfl; exact el_inv f x
  cswap := by
    rintro x y _ _ c hc rfl rfl
    rcases hc with rfl | rfl
    · exact ⟨rfl, rfl⟩
    · exact ⟨rfl, rfl⟩

/-- the constants as pairs -/
def nparams (f : Fld) : CParams N2 where
  one := (1, 0)
  half := hlf f
  initA := (6, 0)
  initC := (1, 0)
  pA := (pA f).x
  qA := (qA f).x
  rA := rA f
  pB := (pB f).x
  qB := (qB f).x
  rB := rB f
  stratA := (paramsOf f).A.isogenyStrategy
  stratB := (paramsOf f).B.isogenyStrategy
  bitsA := (paramsOf f).A.secretBitLen
  bitsB := (paramsOf f).B.secretBitLen

theorem rparams : RCParams (R f) (nparams f) (fparams f) where
  one := rfl
  half := rfl
  initA := rfl
  initC := rfl
  pA := rfl
  qA := rfl
  rA := rfl
  pB := rfl
  qB := rfl
  rB := rfl
  stratA := rfl
  stratB := rfl
  bitsA := rfl
  bitsB := rfl

/-! ### the same functions, evaluating as they go -/
section
variable (o : Ops N2)

def ladS (a24 : N2) (scalar : List Byte) (i : Nat) : Nat → Pt N2 → Pt N2 → Pt N2 → Byte → Option (Pt N2 × Pt N2 × Byte)
  | 0, _, r1, r2, prev => some (r1, r2, prev)
  | k + 1, r0, r1, r2, prev =>
    match scalarBit scalar i with
    | none => none
    | some bit =>
      forceP (cswapPt o r1 r2 (prev ^^^ bit)).1 fun r1' => forceP (cswapPt o r1 r2 (prev ^^^ bit)).2 fun r2' =>
      forceP (xDbladd o r0 r2' r1' a24).1 fun r0' => forceP (xDbladd o r0 r2' r1' a24).2 fun r2 =>
      ladS a24 scalar (i + 1) k r0' r1' r2 bit

theorem ladS_eq (a24 : N2) (scalar : List Byte) : ∀ (k i : Nat) (r0 r1 r2 : Pt N2) (prev : Byte),
    ladS o a24 scalar i k r0 r1 r2 prev = ladderLoop o a24 scalar i k r0 r1 r2 prev
  | 0, _, _, _, _, _ => rfl
  | k + 1, i, r0, r1, r2, prev => by
    rw [ladS, ladderLoop]
    cases scalarBit scalar i with
    | none => rfl
    | some bit =>
      simp only [forceP_eq]
      exact ladS_eq a24 scalar k _ _ _ _ _

def smulS (c : Coef N2) (x q pmq : Pt N2) (nbits : Nat) (scalar : List Byte) : Option (Pt N2) :=
  force2 (calcAplus2Over4 o c) fun a24 =>
  match ladS o a24 scalar 0 nbits q x pmq 0 with
  | none => none
  | some (r1, r2, prev) => forceP (cswapPt o r1 r2 prev).1 some

theorem smulS_eq (c : Coef N2) (x q pmq : Pt N2) (nbits : Nat) (scalar : List Byte) :
    smulS o c x q pmq nbits scalar = scalarMul3Pt o c x q pmq nbits scalar := by
  rw [smulS, scalarMul3Pt]
  simp only [force2_eq, ladS_eq, forceP_eq]
  cases ladderLoop o (calcAplus2Over4 o c) scalar 0 nbits q x pmq 0 <;> rfl

def pow2S (c : Coef N2) : Nat → Pt N2 → Pt N2
  | 0, x => x
  | k + 1, x => forceP (dblStep o c x) fun y => pow2S c k y

theorem pow2S_eq (c : Coef N2) : ∀ (k : Nat) (x : Pt N2), pow2S o c k x = pow2k o c k x
  | 0, _ => rfl
  | k + 1, x => by rw [pow2S, pow2k, forceP_eq, pow2S_eq c k]

def pow3S (c : Coef N2) : Nat → Pt N2 → Pt N2
  | 0, x => x
  | k + 1, x => forceP (tplStep o c x) fun y => pow3S c k y

theorem pow3S_eq (c : Coef N2) : ∀ (k : Nat) (x : Pt N2), pow3S o c k x = pow3k o c k x
  | 0, _ => rfl
  | k + 1, x => by rw [pow3S, pow3k, forceP_eq, pow3S_eq c k]

def descS (lim : Nat) (pw : Nat → Pt N2 → Pt N2) : List Nat → List (Pt N2 × Nat) → Pt N2 → Nat → Option (List Nat × List (Pt N2 × Nat) × Pt N2 × Nat)
  | [], stk, xR, i => if i ≤ lim then none else some ([], stk, xR, i)
  | k :: rest, stk, xR, i =>
    if i ≤ lim then forceP (pw k xR) fun y => force (i + k) fun j => descS lim pw rest ((xR, i) :: stk) y j else some (k :: rest, stk, xR, i)

theorem descS_eq (lim : Nat) (pw : Nat → Pt N2 → Pt N2) : ∀ (rest : List Nat) (stk : List (Pt N2 × Nat)) (xR : Pt N2) (i : Nat),
    descS lim pw rest stk xR i = descend lim pw rest stk xR i
  | [], _, _, _ => rfl
  | k :: rest, stk, xR, i => by
    rw [descS, descend]
    simp only [forceP_eq, force_eq, descS_eq lim pw rest]

def mapS {α : Type} (g : Pt N2 → Pt N2) : List (Pt N2 × Nat) → (List (Pt N2 × Nat) → α) → α
  | [], k => k []
  | e :: es, k => forceP (g e.1) fun x => mapS g es fun r => k ((x, e.2) :: r)

theorem mapS_eq {α : Type} (g : Pt N2 → Pt N2) : ∀ (l : List (Pt N2 × Nat)) (k : List (Pt N2 × Nat) → α), mapS g l k = k (l.map fun e => (g e.1, e.2))
  | [], _ => rfl
  | e :: es, k => by rw [mapS, forceP_eq, mapS_eq g es]; rfl

def mapT {α : Type} (g : Pt N2 → Pt N2) : List (Pt N2) → (List (Pt N2) → α) → α
  | [], k => k []
  | e :: es, k => forceP (g e) fun x => mapT g es fun r => k (x :: r)

theorem mapT_eq {α : Type} (g : Pt N2 → Pt N2) : ∀ (l : List (Pt N2)) (k : List (Pt N2) → α), mapT g l k = k (l.map g)
  | [], _ => rfl
  | e :: es, k => by rw [mapT, forceP_eq, mapT_eq g es]; rfl

def travS4 : Nat → List Nat → List (Pt N2 × Nat) → Coef N2 → Pt N2 → Nat → List (Pt N2) → Option (Pt N2 × List (Pt N2))
  | 0, _, _, _, xR, _, extra => some (xR, extra)
  | n + 1, rest, stk, c, xR, i, extra =>
    match descS n (fun k => pow2S o c (2 * k)) rest stk xR i with
    | none => none
    | some (rest, stk, xR, _) =>
      forceC (gen4 o xR).1 fun c => force4 (gen4 o xR).2 fun phi =>
      mapS (eval4 o phi) stk fun stk => mapT (eval4 o phi) extra fun extra =>
      match stk with
      | [] => none
      | (xR, i) :: stk => travS4 n rest stk c xR i extra

theorem travS4_eq : ∀ (n : Nat) (rest : List Nat) (stk : List (Pt N2 × Nat)) (c : Coef N2) (xR : Pt N2) (i : Nat) (extra : List (Pt N2)),
    travS4 o n rest stk c xR i extra = traverse4 o n rest stk c xR i extra
  | 0, _, _, _, _, _, _ => rfl
  | n + 1, rest, stk, c, xR, i, extra => by
    have hp : (fun k => pow2S o c (2 * k)) = fun k => pow2k o c (2 * k) := funext fun k => funext fun x => pow2S_eq o c _ x
    rw [travS4, traverse4, descS_eq, hp]
    cases descend n (fun k => pow2k o c (2 * k)) rest stk xR i with
    | none => rfl
    | some r =>
      obtain ⟨rest', stk', x', i'⟩ := r
      simp only [forceC_eq, force4_eq, mapS_eq, mapT_eq]
      match stk' with
      | [] => rfl
      | (y, j) :: stk' => exact travS4_eq n _ _ _ _ _ _

def travS3 : Nat → List Nat → List (Pt N2 × Nat) → Coef N2 → Pt N2 → Nat → List (Pt N2) → Option (Pt N2 × List (Pt N2))
  | 0, _, _, _, xR, _, extra => some (xR, extra)
  | n + 1, rest, stk, c, xR, i, extra =>
    match descS n (fun k => pow3S o c k) rest stk xR i with
    | none => none
    | some (rest, stk, xR, _) =>
      forceC (gen3 o xR).1 fun c => force3 (gen3 o xR).2 fun phi =>
      mapS (eval3 o phi) stk fun stk => mapT (eval3 o phi) extra fun extra =>
      match stk with
      | [] => none
      | (xR, i) :: stk => travS3 n rest stk c xR i extra

theorem travS3_eq : ∀ (n : Nat) (rest : List Nat) (stk : List (Pt N2 × Nat)) (c : Coef N2) (xR : Pt N2) (i : Nat) (extra : List (Pt N2)),
    travS3 o n rest stk c xR i extra = traverse3 o n rest stk c xR i extra
  | 0, _, _, _, _, _, _ => rfl
  | n + 1, rest, stk, c, xR, i, extra => by
    have hp : (fun k => pow3S o c k) = fun k => pow3k o c k := funext fun k => funext fun x => pow3S_eq o c _ x
    rw [travS3, traverse3, descS_eq, hp]
    cases descend n (fun k => pow3k o c k) rest stk xR i with
    | none => rfl
    | some r =>
      obtain ⟨rest', stk', x', i'⟩ := r
      simp only [forceC_eq, force3_eq, mapS_eq, mapT_eq]
      match stk' with
      | [] => rfl
      | (y, j) :: stk' => exact travS3_eq n _ _ _ _ _ _

/-- the last step of key generation -/
def finS {α : Type} (p1 p2 p3 : Pt N2) (k : Tri N2 → α) : α :=
  let (i1, i2, i3) := batch3Inv o p1.Z p2.Z p3.Z
  force2 (o.mul p1.X i1) fun a => force2 (o.mul p2.X i2) fun b => force2 (o.mul p3.X i3) fun c => k ⟨a, b, c⟩

def keyAS (c : CParams N2) (prv : List Byte) : Option (Tri N2) :=
  match smulS o ⟨c.initA, c.initC⟩ ⟨c.pA, c.one⟩ ⟨c.qA, c.one⟩ ⟨c.rA, c.one⟩ c.bitsA prv with
  | none => none
  | some xR =>
    forceC (calcCurveParamsEquiv4 o ⟨c.initA, c.initC⟩) fun c4 =>
    match travS4 o c.stratA.length c.stratA [] c4 xR 0 [⟨c.pB, c.one⟩, ⟨c.qB, c.one⟩, ⟨c.rB, c.one⟩] with
    | none => none
    | some (xR, extra) => force4 (gen4 o xR).2 fun phi => mapT (eval4 o phi) extra fun extra =>
      match extra with
      | [x, y, z] => finS o x y z some
      | _ => none

theorem keyAS_eq (c : CParams N2) (prv : List Byte) : keyAS o c prv = publicKeyGenA o c prv := by
  rw [keyAS, publicKeyGenA, smulS_eq]
  cases scalarMul3Pt o ⟨c.initA, c.initC⟩ ⟨c.pA, c.one⟩ ⟨c.qA, c.one⟩ ⟨c.rA, c.one⟩ c.bitsA prv with
  | none => rfl
  | some xR =>
    simp only [forceC_eq, travS4_eq, force4_eq, mapT_eq, finS, force2_eq, Option.bind_eq_bind, Option.bind_some, traverseTreeA]
    cases traverse4 o c.stratA.length c.stratA [] (calcCurveParamsEquiv4 o ⟨c.initA, c.initC⟩) xR 0
      [⟨c.pB, c.one⟩, ⟨c.qB, c.one⟩, ⟨c.rB, c.one⟩] with
    | none => rfl
    | some r =>
      obtain ⟨x, e⟩ := r
      match e with
      | [] => rfl
      | [_] => rfl
      | [_, _] => rfl
      | [a, b, d] =>
        simp only [List.map_cons, List.map_nil, Option.bind_some]
      | _ :: _ :: _ :: _ :: _ => rfl

def keyBS (c : CParams N2) (prv : List Byte) : Option (Tri N2) :=
  match smulS o ⟨c.initA, c.initC⟩ ⟨c.pB, c.one⟩ ⟨c.qB, c.one⟩ ⟨c.rB, c.one⟩ c.bitsB prv with
  | none => none
  | some xR =>
    forceC (calcCurveParamsEquiv3 o ⟨c.initA, c.initC⟩) fun c3 =>
    match travS3 o c.stratB.length c.stratB [] c3 xR 0 [⟨c.pA, c.one⟩, ⟨c.qA, c.one⟩, ⟨c.rA, c.one⟩] with
    | none => none
    | some (xR, extra) => force3 (gen3 o xR).2 fun phi => mapT (eval3 o phi) extra fun extra =>
      match extra with
      | [x, y, z] => finS o x y z some
      | _ => none

theorem keyBS_eq (c : CParams N2) (prv : List Byte) : keyBS o c prv = publicKeyGenB o c prv := by
  rw [keyBS, publicKeyGenB, smulS_eq]
  cases scalarMul3Pt o ⟨c.initA, c.initC⟩ ⟨c.pB, c.one⟩ ⟨c.qB, c.one⟩ ⟨c.rB, c.one⟩ c.bitsB prv with
  | none => rfl
  | some xR =>
    simp only [forceC_eq, travS3_eq, force3_eq, mapT_eq, finS, force2_eq, Option.bind_eq_bind, Option.bind_some, traverseTreeB]
    cases traverse3 o c.stratB.length c.stratB [] (calcCurveParamsEquiv3 o ⟨c.initA, c.initC⟩) xR 0
      [⟨c.pA, c.one⟩, ⟨c.qA, c.one⟩, ⟨c.rA, c.one⟩] with
    | none => rfl
    | some r =>
      obtain ⟨x, e⟩ := r
      match e with
      | [] => rfl
      | [_] => rfl
      | [_, _] => rfl
      | [a, b, d] =>
        simp only [List.map_cons, List.map_nil, Option.bind_some]
      | _ :: _ :: _ :: _ :: _ => rfl

def secAS (c : CParams N2) (prv : List Byte) (pub : Tri N2) : Option N2 :=
  force2 (recoverCoordinateA o c.one pub.p pub.q pub.r) fun a =>
  match smulS o ⟨a, c.initC⟩ ⟨pub.p, c.one⟩ ⟨pub.q, c.one⟩ ⟨pub.r, c.one⟩ c.bitsA prv with
  | none => none
  | some xR =>
    forceC (calcCurveParamsEquiv4 o ⟨a, c.initC⟩) fun c4 =>
    match travS4 o c.stratA.length c.stratA [] c4 xR 0 [] with
    | none => none
    | some (xR, _) => forceC (gen4 o xR).1 fun e => forceC (recoverCurveCoefficients4 o c.half e) fun e => force2 (jinvariant o e) some

theorem secAS_eq (c : CParams N2) (prv : List Byte) (pub : Tri N2) : secAS o c prv pub = deriveA o c prv pub := by
  rw [secAS, deriveA]
  simp only [force2_eq, smulS_eq]
  cases scalarMul3Pt o ⟨recoverCoordinateA o c.one pub.p pub.q pub.r, c.initC⟩ ⟨pub.p, c.one⟩ ⟨pub.q, c.one⟩ ⟨pub.r, c.one⟩ c.bitsA prv with
  | none => rfl
  | some xR =>
    simp only [forceC_eq, travS4_eq, Option.bind_eq_bind, Option.bind_some, traverseTreeA]
    cases traverse4 o c.stratA.length c.stratA [] (calcCurveParamsEquiv4 o ⟨recoverCoordinateA o c.one pub.p pub.q pub.r, c.initC⟩) xR 0 [] <;> rfl

end

def triList : Option (Tri N2) → List Nat
  | none => []
  | some t => [t.p.1, t.p.2, t.q.1, t.q.2, t.r.1, t.r.2]

end Lemmas.SidhRun
