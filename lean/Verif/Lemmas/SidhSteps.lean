import Verif.Model.SikeSteps
/-!
Helper lemmas for the observable steps of the SIDH and SIKE code: the values computed are those of the plain model,
and a relation between two runs that see the same.
-/
namespace Lemmas.SidhSteps
open Model Model.Limb Model.Sidh Model.Sidh.Tr

variable {α β : Type}

/-! ### values -/

@[simp] theorem val_pure (a : α) : (pure a : Tr α).1 = some a := rfl
@[simp] theorem val_bind (m : Tr α) (f : α → Tr β) : (m >>= f).1 = m.1.bind fun a => (f a).1 := by
  rcases m with ⟨_ | a, l⟩ <;> rfl
@[simp] theorem val_tell (l : List Ev) : (tell l).1 = some () := rfl
@[simp] theorem val_step (v : α) (l : List Ev) : (step v l).1 = some v := rfl
@[simp] theorem val_lift (v : Option α) (l : List Ev) : (lift v l).1 = v := rfl
@[simp] theorem val_panic : (panic : Tr α).1 = none := rfl
@[simp] theorem val_call (f : Fn) (v : α) : (call f v).1 = some v := rfl

section
variable (P : Prime)

@[simp] theorem mulPT_val (x y : List W64) : (mulPT P x y).1 = some (mulP P x y) := by simp [mulPT, mulP]

@[simp] theorem p34TableT_val (xx : List W64) : ∀ (k i : Nat) (last : List W64), (p34TableT P xx last i k).1 = some (p34Table P xx last k)
  | 0, i, last => by simp [p34TableT, p34Table]
  | k + 1, i, last => by simp [p34TableT, p34Table, p34TableT_val xx k]

@[simp] theorem sqrTimesT_val (i : Nat) : ∀ (k : Nat) (d : List W64), (sqrTimesT P i d k).1 = some (sqrTimes P d k)
  | 0, d => by simp [sqrTimesT, sqrTimes]
  | k + 1, d => by simp [sqrTimesT, sqrTimes, sqrTimesT_val i k]

@[simp] theorem p34LoopT_val (lookup : List (List W64)) : ∀ (pows muls : List Nat) (i : Nat) (d : List W64),
    (p34LoopT P lookup i d pows muls).1 = some (p34Loop P lookup d pows muls)
  | [], muls, i, d => by simp [p34LoopT, p34Loop]
  | pw :: pows, [], i, d => by simp [p34LoopT, p34Loop]
  | pw :: pows, m :: muls, i, d => by simp [p34LoopT, p34Loop, p34LoopT_val lookup pows muls]

@[simp] theorem p34T_val (x : List W64) : (p34T P x).1 = some (p34 P x) := by simp [p34T, p34]

theorem addT_val (x y : Fp2) : (addT P x y).1 = some (add P x y) := rfl
theorem subT_val (x y : Fp2) : (subT P x y).1 = some (sub P x y) := rfl
theorem mulT_val (x y : Fp2) : (mulT P x y).1 = some (mul P x y) := rfl
theorem sqrT_val (x : Fp2) : (sqrT P x).1 = some (sqr P x) := rfl
theorem invT_val (x : Fp2) : (invT P x).1 = some (inv P x) := by simp [invT, inv]
theorem cswapT_val (x y : Fp2) (b : Byte) : (cswapT x y b).1 = some (cswap x y b) := rfl
@[simp] theorem toMontgomeryT_val (x : Fp2) : (toMontgomeryT P x).1 = some (toMontgomery P x) := rfl
@[simp] theorem fromMontgomeryT_val (x : Fp2) : (fromMontgomeryT P x).1 = some (fromMontgomery P x) := rfl
end

/-- The operations compute what the plain ones do. -/
structure TVal {F : Type} (t : TOps F) (o : Ops F) : Prop where
  add : ∀ x y, (t.add x y).1 = some (o.add x y)
  sub : ∀ x y, (t.sub x y).1 = some (o.sub x y)
  mul : ∀ x y, (t.mul x y).1 = some (o.mul x y)
  sqr : ∀ x, (t.sqr x).1 = some (o.sqr x)
  inv : ∀ x, (t.inv x).1 = some (o.inv x)
  cswap : ∀ x y b, (t.cswap x y b).1 = some (o.cswap x y b)

theorem limb_val (P : Prime) : TVal (limbOpsT P) (limbOps P) :=
  ⟨addT_val P, subT_val P, mulT_val P, sqrT_val P, invT_val P, cswapT_val⟩

section
variable {F : Type} {t : TOps F} {o : Ops F} (h : TVal t o)
include h

theorem jinvariantT_val (c : Coef F) : (jinvariantT t c).1 = some (jinvariant o c) := by
  simp only [jinvariantT, val_bind, val_pure, h.add, h.sub, h.mul, h.sqr, h.inv, Option.bind_some, jinvariant]
theorem recoverCoordinateAT_val (one xp xq xr : F) : (recoverCoordinateAT t one xp xq xr).1 = some (recoverCoordinateA o one xp xq xr) := by
  simp only [recoverCoordinateAT, val_bind, val_pure, h.add, h.sub, h.mul, h.sqr, h.inv, Option.bind_some, recoverCoordinateA]
theorem equiv3_val (c : Coef F) : (calcCurveParamsEquiv3T t c).1 = some (calcCurveParamsEquiv3 o c) := by
  simp only [calcCurveParamsEquiv3T, val_bind, val_pure, h.add, h.sub, h.mul, h.sqr, h.inv, Option.bind_some, calcCurveParamsEquiv3]
theorem equiv4_val (c : Coef F) : (calcCurveParamsEquiv4T t c).1 = some (calcCurveParamsEquiv4 o c) := by
  simp only [calcCurveParamsEquiv4T, val_bind, val_pure, h.add, h.sub, h.mul, h.sqr, h.inv, Option.bind_some, calcCurveParamsEquiv4]
theorem a24_val (c : Coef F) : (calcAplus2Over4T t c).1 = some (calcAplus2Over4 o c) := by
  simp only [calcAplus2Over4T, val_bind, val_pure, h.add, h.sub, h.mul, h.sqr, h.inv, Option.bind_some, calcAplus2Over4]
theorem recover3_val (e : Coef F) : (recoverCurveCoefficients3T t e).1 = some (recoverCurveCoefficients3 o e) := by
  simp only [recoverCurveCoefficients3T, val_bind, val_pure, h.add, h.sub, h.mul, h.sqr, h.inv, Option.bind_some, recoverCurveCoefficients3]
theorem recover4_val (half : F) (e : Coef F) : (recoverCurveCoefficients4T t half e).1 = some (recoverCurveCoefficients4 o half e) := by
  simp only [recoverCurveCoefficients4T, val_bind, val_pure, h.add, h.sub, h.mul, h.sqr, h.inv, Option.bind_some, recoverCurveCoefficients4]
theorem xDbladdT_val (p q r : Pt F) (a : F) : (xDbladdT t p q r a).1 = some (xDbladd o p q r a) := by
  simp only [xDbladdT, val_bind, val_pure, h.add, h.sub, h.mul, h.sqr, h.inv, Option.bind_some, xDbladd]
theorem dblStepT_val (c : Coef F) (p : Pt F) : (dblStepT t c p).1 = some (dblStep o c p) := by
  simp only [dblStepT, val_bind, val_pure, h.add, h.sub, h.mul, h.sqr, h.inv, Option.bind_some, dblStep]
theorem tplStepT_val (c : Coef F) (p : Pt F) : (tplStepT t c p).1 = some (tplStep o c p) := by
  simp only [tplStepT, val_bind, val_pure, h.add, h.sub, h.mul, h.sqr, h.inv, Option.bind_some, tplStep]
theorem pow2kT_val (c : Coef F) : ∀ (k : Nat) (p : Pt F), (pow2kT t c k p).1 = some (pow2k o c k p)
  | 0, p => rfl
  | k + 1, p => by simp only [pow2kT, pow2k, val_bind, val_tell, Option.bind_some, dblStepT_val h, pow2kT_val c k]
theorem pow3kT_val (c : Coef F) : ∀ (k : Nat) (p : Pt F), (pow3kT t c k p).1 = some (pow3k o c k p)
  | 0, p => rfl
  | k + 1, p => by simp only [pow3kT, pow3k, val_bind, val_tell, Option.bind_some, tplStepT_val h, pow3kT_val c k]
theorem batch3InvT_val (a b c : F) : (batch3InvT t a b c).1 = some (batch3Inv o a b c) := by
  simp only [batch3InvT, val_bind, val_pure, h.add, h.sub, h.mul, h.sqr, h.inv, Option.bind_some, batch3Inv]
theorem cswapPtT_val (p q : Pt F) (b : Byte) : (cswapPtT t p q b).1 = some (cswapPt o p q b) := by
  simp only [cswapPtT, val_bind, val_pure, h.cswap, Option.bind_some, cswapPt]
theorem gen3T_val (p : Pt F) : (gen3T t p).1 = some (gen3 o p) := by
  simp only [gen3T, val_bind, val_pure, h.add, h.sub, h.mul, h.sqr, h.inv, Option.bind_some, gen3]
theorem gen4T_val (p : Pt F) : (gen4T t p).1 = some (gen4 o p) := by
  simp only [gen4T, val_bind, val_pure, h.add, h.sub, h.mul, h.sqr, h.inv, Option.bind_some, gen4]
theorem eval3T_val (i : Iso3 F) (p : Pt F) : (eval3T t i p).1 = some (eval3 o i p) := by
  simp only [eval3T, val_bind, val_pure, h.add, h.sub, h.mul, h.sqr, h.inv, Option.bind_some, eval3]
theorem eval4T_val (i : Iso4 F) (p : Pt F) : (eval4T t i p).1 = some (eval4 o i p) := by
  simp only [eval4T, val_bind, val_pure, h.add, h.sub, h.mul, h.sqr, h.inv, Option.bind_some, eval4]

theorem ladderLoopT_val (a24 : F) (s : List Byte) : ∀ (k i : Nat) (r0 r1 r2 : Pt F) (b : Byte),
    (ladderLoopT t a24 s i k r0 r1 r2 b).1 = ladderLoop o a24 s i k r0 r1 r2 b
  | 0, i, r0, r1, r2, b => rfl
  | k + 1, i, r0, r1, r2, b => by
    simp only [ladderLoopT, ladderLoop, val_bind, val_tell, val_lift, Option.bind_some, cswapPtT_val h, xDbladdT_val h, ladderLoopT_val a24 s k]
    rfl

theorem scalarMul3PtT_val (c : Coef F) (p q r : Pt F) (n : Nat) (s : List Byte) : (scalarMul3PtT t c p q r n s).1 = scalarMul3Pt o c p q r n s := by
  simp only [scalarMul3PtT, scalarMul3Pt, val_bind, val_pure, Option.bind_some, a24_val h, ladderLoopT_val h, cswapPtT_val h]
  rfl
end

theorem descendT_val (lim : Nat) {pwT : Nat → α → Tr α} {pw : Nat → α → α} (hp : ∀ k x, (pwT k x).1 = some (pw k x)) :
    ∀ (rest : List Nat) (j : Nat) (stk : List (α × Nat)) (x : α) (i : Nat),
    ((descendT lim pwT j rest stk x i).1).map (·.2) = descend lim pw rest stk x i
  | [], j, stk, x, i => by
    by_cases hi : i ≤ lim <;> simp [descendT, descend, hi]
  | k :: rest, j, stk, x, i => by
    by_cases hi : i ≤ lim
    · simp [descendT, descend, hi, hp, descendT_val lim hp rest]
    · simp [descendT, descend, hi]

theorem evalStackT_val {evT : α → Tr α} {ev : α → α} (he : ∀ x, (evT x).1 = some (ev x)) :
    ∀ stk : List (α × Nat), (evalStackT evT stk).1 = some (stk.map fun e => (ev e.1, e.2))
  | [] => rfl
  | e :: es => by simp [evalStackT, evalStackT_val he es, he]

theorem evalExtraT_val {evT : α → Tr α} {ev : α → α} (he : ∀ x, (evT x).1 = some (ev x)) :
    ∀ ps : List α, (evalExtraT evT ps).1 = some (ps.map ev)
  | [] => rfl
  | p :: ps => by simp [evalExtraT, evalExtraT_val he ps, he]

section
variable {F : Type} {t : TOps F} {o : Ops F} (h : TVal t o)
include h

theorem traverse4T_val : ∀ (n j : Nat) (rest : List Nat) (stk : List (Pt F × Nat)) (c : Coef F) (x : Pt F) (i : Nat) (e : List (Pt F)),
    (traverse4T t n j rest stk c x i e).1 = traverse4 o n rest stk c x i e
  | 0, j, rest, stk, c, x, i, e => rfl
  | n + 1, j, rest, stk, c, x, i, e => by
    rw [traverse4, ← descendT_val n (fun k p => pow2kT_val h c (2 * k) p) rest j stk x i]
    simp only [traverse4T, val_bind, val_tell, Option.bind_some]
    rcases (descendT n (fun k => pow2kT t c (2 * k)) j rest stk x i).1 with _ | ⟨j', rest', stk', x', i'⟩
    · rfl
    simp only [Option.bind_some, gen4T_val h, evalStackT_val (eval4T_val h _), evalExtraT_val (eval4T_val h _), Option.map_some]
    change _ = (match stk'.map fun e => (eval4 o (gen4 o x').2 e.1, e.2) with
      | [] => none
      | (xR, i) :: stk => traverse4 o n rest' stk (gen4 o x').1 xR i (e.map (eval4 o (gen4 o x').2)))
    rcases stk' with _ | ⟨⟨y, i2⟩, stk'⟩
    · rfl
    simp only [List.map_cons, val_bind, val_tell, Option.bind_some]
    exact traverse4T_val n j' rest' _ _ _ _ _

theorem traverse3T_val : ∀ (n j : Nat) (rest : List Nat) (stk : List (Pt F × Nat)) (c : Coef F) (x : Pt F) (i : Nat) (e : List (Pt F)),
    (traverse3T t n j rest stk c x i e).1 = traverse3 o n rest stk c x i e
  | 0, j, rest, stk, c, x, i, e => rfl
  | n + 1, j, rest, stk, c, x, i, e => by
    rw [traverse3, ← descendT_val n (fun k p => pow3kT_val h c k p) rest j stk x i]
    simp only [traverse3T, val_bind, val_tell, Option.bind_some]
    rcases (descendT n (fun k => pow3kT t c k) j rest stk x i).1 with _ | ⟨j', rest', stk', x', i'⟩
    · rfl
    simp only [Option.bind_some, gen3T_val h, evalStackT_val (eval3T_val h _), evalExtraT_val (eval3T_val h _), Option.map_some]
    change _ = (match stk'.map fun e => (eval3 o (gen3 o x').2 e.1, e.2) with
      | [] => none
      | (xR, i) :: stk => traverse3 o n rest' stk (gen3 o x').1 xR i (e.map (eval3 o (gen3 o x').2)))
    rcases stk' with _ | ⟨⟨y, i2⟩, stk'⟩
    · rfl
    simp only [List.map_cons, val_bind, val_tell, Option.bind_some]
    exact traverse3T_val n j' rest' _ _ _ _ _

theorem traverseTreeAT_val (s : List Nat) (c : Coef F) (x : Pt F) (e : List (Pt F)) : (traverseTreeAT t s c x e).1 = traverseTreeA o s c x e := by
  simp only [traverseTreeAT, traverseTreeA, val_bind, equiv4_val h, Option.bind_some, traverse4T_val h]
theorem traverseTreeBT_val (s : List Nat) (c : Coef F) (x : Pt F) (e : List (Pt F)) : (traverseTreeBT t s c x e).1 = traverseTreeB o s c x e := by
  simp only [traverseTreeBT, traverseTreeB, val_bind, equiv3_val h, Option.bind_some, traverse3T_val h]

theorem publicKeyGenAT_val (c : CParams F) (prv : List Byte) : (publicKeyGenAT t c prv).1 = publicKeyGenA o c prv := by
  simp only [publicKeyGenAT, publicKeyGenA, val_bind, scalarMul3PtT_val h, traverseTreeAT_val h, gen4T_val h, Option.bind_some]
  change _ = Option.bind _ _
  congr 1; funext xR
  change _ = Option.bind _ _
  congr 1; funext r
  obtain ⟨x, e⟩ := r
  rcases e with _ | ⟨a, _ | ⟨b, _ | ⟨d, _ | ⟨g, e⟩⟩⟩⟩ <;> try rfl
  simp only [val_bind, val_pure, eval4T_val h, batch3InvT_val h, h.mul, Option.bind_some]

theorem publicKeyGenBT_val (c : CParams F) (prv : List Byte) : (publicKeyGenBT t c prv).1 = publicKeyGenB o c prv := by
  simp only [publicKeyGenBT, publicKeyGenB, val_bind, scalarMul3PtT_val h, traverseTreeBT_val h, gen3T_val h, Option.bind_some]
  change _ = Option.bind _ _
  congr 1; funext xR
  change _ = Option.bind _ _
  congr 1; funext r
  obtain ⟨x, e⟩ := r
  rcases e with _ | ⟨a, _ | ⟨b, _ | ⟨d, _ | ⟨g, e⟩⟩⟩⟩ <;> try rfl
  simp only [val_bind, val_pure, eval3T_val h, batch3InvT_val h, h.mul, Option.bind_some]

theorem deriveAT_val (c : CParams F) (prv : List Byte) (pub : Tri F) : (deriveAT t c prv pub).1 = deriveA o c prv pub := by
  simp only [deriveAT, deriveA, val_bind, recoverCoordinateAT_val h, scalarMul3PtT_val h, traverseTreeAT_val h, gen4T_val h, recover4_val h,
    jinvariantT_val h, Option.bind_some]
  rfl

theorem deriveBT_val (c : CParams F) (prv : List Byte) (pub : Tri F) : (deriveBT t c prv pub).1 = deriveB o c prv pub := by
  simp only [deriveBT, deriveB, val_bind, recoverCoordinateAT_val h, scalarMul3PtT_val h, traverseTreeBT_val h, gen3T_val h, recover3_val h,
    jinvariantT_val h, Option.bind_some]
  rfl
end

/-! ### values: sidh.go and sike.go -/

@[simp] theorem bytesToFp2T_val (x : Fp2) (i : List Byte) (n : Nat) : (bytesToFp2T x i n).1 = bytesToFp2 x i n := rfl
@[simp] theorem fp2ToBytesT_val (i : List Byte) (x : Fp2) (n : Nat) : (fp2ToBytesT i x n).1 = fp2ToBytes i x n := rfl

theorem importKeyT_val (k : PublicKey) (i : List Byte) : (k.importKeyT i).1 = k.importKey i := by
  rw [PublicKey.importKeyT, PublicKey.importKey, val_bind, val_tell, Option.bind_some]
  split
  · rfl
  · simp only [val_bind, bytesToFp2T_val, val_lift, toMontgomeryT_val, val_pure, Option.bind_some]
    rfl

theorem exportKeyT_val (k : PublicKey) (b : List Byte) : (k.exportKeyT b).1 = k.exportKey b := by
  simp only [PublicKey.exportKeyT, PublicKey.exportKey, val_bind, val_lift, fromMontgomeryT_val, Option.bind_some]
  change _ = Option.bind _ _
  congr 1; funext g
  split
  · rfl
  · simp only [val_bind, fp2ToBytesT_val, val_pure]
    rfl

theorem privImportT_val (k : PrivateKey) (i : List Byte) : (k.importKeyT i).1 = k.importKey i := by
  rw [PrivateKey.importKeyT, PrivateKey.importKey, val_bind, val_tell, Option.bind_some]
  split
  · rfl
  · simp only [val_bind, val_lift, val_tell, val_pure, Option.bind_some]
    rfl

theorem generatePublicKeyT_val (k : PrivateKey) (pub : PublicKey) : (k.generatePublicKeyT pub).1 = k.generatePublicKey pub := by
  rw [PrivateKey.generatePublicKeyT, PrivateKey.generatePublicKey, val_bind, val_tell, Option.bind_some]
  split
  · rfl
  · simp only [val_bind, val_lift, val_tell, val_pure, Option.bind_some]
    change _ = Option.bind _ _
    congr 1; funext g
    cases isA k.variant
    · rw [if_neg (by simp), if_neg (by simp), val_bind, publicKeyGenBT_val (limb_val g.prime)]; rfl
    · rw [if_pos rfl, if_pos rfl, val_bind, publicKeyGenAT_val (limb_val g.prime)]; rfl

theorem deriveSecretPkgT_val (g : SidhParams) (a : Bool) (ss prv : List Byte) (pub : Tri Fp2) :
    (deriveSecretPkgT g a ss prv pub).1 = deriveSecretPkg g a ss prv pub := by
  simp only [deriveSecretPkgT, deriveSecretPkg, val_bind, fromMontgomeryT_val, fp2ToBytesT_val, Option.bind_some]
  cases a
  · rw [if_neg (by simp), if_neg (by simp), val_bind, deriveBT_val (limb_val g.prime)]; rfl
  · rw [if_pos rfl, if_pos rfl, val_bind, deriveAT_val (limb_val g.prime)]; rfl

theorem deriveSecretT_val (k : PrivateKey) (ss : List Byte) (pub : PublicKey) : (k.deriveSecretT ss pub).1 = k.deriveSecret ss pub := by
  rw [PrivateKey.deriveSecretT, PrivateKey.deriveSecret, val_bind, val_tell, Option.bind_some]
  split
  · rfl
  · simp only [val_bind, val_lift, val_tell, Option.bind_some, deriveSecretPkgT_val]
    rfl

open Model.Sike
section
variable (P : Model.Sha3.Plat)

@[simp] theorem hashT_val (c : KEM) (ins : List (List Byte)) (out : List Byte) : (c.hashT P ins out).1 = c.hash P ins out := rfl

theorem generateCiphertextT_val (c : KEM) (ct : List Byte) (sk : PrivateKey) (a b : PublicKey) (m : List Byte) :
    (c.generateCiphertextT P ct sk a b m).1 = c.generateCiphertext P ct sk a b m := by
  simp only [KEM.generateCiphertextT, KEM.generateCiphertext, val_bind, val_lift, val_pure, hashT_val, deriveSecretT_val, exportKeyT_val]
  rfl

theorem encapsulateT_val (c : KEM) (ct ss : List Byte) (pub : PublicKey) : (c.encapsulateT P ct ss pub).1 = c.encapsulate P ct ss pub := by
  rw [KEM.encapsulateT, KEM.encapsulate, val_bind, val_tell, Option.bind_some]
  split
  · rfl
  rw [val_bind, val_tell, Option.bind_some]
  split
  · rfl
  rw [val_bind, val_tell, Option.bind_some]
  split
  · rfl
  rw [val_bind, val_tell, Option.bind_some]
  split
  · rfl
  dsimp only
  rw [val_bind, val_tell, Option.bind_some]
  split
  · rfl
  simp only [val_bind, val_lift, val_pure, hashT_val, generatePublicKeyT_val, exportKeyT_val, generateCiphertextT_val]
  change _ = Option.bind _ _
  congr 1

theorem decryptT_val (c : KEM) (n : List Byte) (prv : PrivateKey) (ct : List Byte) : (c.decryptT P n prv ct).1 = c.decrypt P n prv ct := by
  simp only [KEM.decryptT, KEM.decrypt, val_bind, val_lift, val_pure, hashT_val, deriveSecretT_val, importKeyT_val]
  rfl

theorem decapsulateT_val (c : KEM) (ss : List Byte) (prv : PrivateKey) (pub : PublicKey) (ct : List Byte) :
    (c.decapsulateT P ss prv pub ct).1 = c.decapsulate P ss prv pub ct := by
  rw [KEM.decapsulateT, KEM.decapsulate, val_bind, val_tell, Option.bind_some]
  split
  · rfl
  rw [val_bind, val_tell, Option.bind_some]
  split
  · rfl
  rw [val_bind, val_tell, Option.bind_some]
  split
  · rfl
  rw [val_bind, val_tell, Option.bind_some]
  split
  · rfl
  rw [val_bind, val_tell, Option.bind_some]
  split
  · rfl
  simp only [val_bind, val_lift, val_tell, Option.bind_some, decryptT_val]
  change _ = Option.bind _ _
  congr 1; funext pkA
  change _ = Option.bind _ _
  congr 1; funext d
  obtain ⟨c, m, c1Len, ok⟩ := d
  dsimp only
  split
  · rfl
  simp only [val_bind, val_lift, val_tell, Option.bind_some, exportKeyT_val, hashT_val, privImportT_val]
  change _ = Option.bind _ _
  congr 1; funext pkBytes
  change _ = Option.bind _ _
  congr 1; funext m1
  change _ = Option.bind _ _
  congr 1; funext pk1
  change _ = Option.bind _ _
  congr 1; funext r1
  change _ = Option.bind _ _
  congr 1; funext h
  change _ = Option.bind _ _
  congr 1; funext r2
  change _ = Option.bind _ _
  congr 1; funext i
  obtain ⟨skA, ok'⟩ := i
  dsimp only
  split
  · rfl
  simp only [val_bind, val_lift, val_tell, val_pure, Option.bind_some, exportKeyT_val, hashT_val, generatePublicKeyT_val]
  rfl
end

end Lemmas.SidhSteps
