import Verif.Model.Csidh
import Verif.Lemmas.CsidhField
/-
The CSIDH curve code respects every relation between two instances of the field operations; the word arithmetic is
related to the field it represents.
-/
namespace Lemmas.CsidhNat
open Model Model.Limb Model.Csidh Spec.Csidh Lemmas.CsidhField

/-- The operations of a field -/
def fieldOps (K : Type) [Field K] : Ops K where
  zero := 0
  one := 1
  four := 4
  add := (· + ·)
  sub := (· - ·)
  mul := (· * ·)
  exp64 := fun x n => x ^ n.toNat
  cswap := fun x y c => if c = 0 then (x, y) else (y, x)

variable {F G : Type}

structure OpsRel (o : Ops F) (o' : Ops G) (r : F → G → Prop) : Prop where
  zero : r o.zero o'.zero
  one : r o.one o'.one
  four : r o.four o'.four
  add : ∀ {x y x' y'}, r x x' → r y y' → r (o.add x y) (o'.add x' y')
  sub : ∀ {x y x' y'}, r x x' → r y y' → r (o.sub x y) (o'.sub x' y')
  mul : ∀ {x y x' y'}, r x x' → r y y' → r (o.mul x y) (o'.mul x' y')
  exp64 : ∀ {x x'} (n : W64), r x x' → r (o.exp64 x n) (o'.exp64 x' n)
  cswap : ∀ {x y x' y'} {c : Byte}, c = 0 ∨ c = 1 → r x x' → r y y' →
    r (o.cswap x y c).1 (o'.cswap x' y' c).1 ∧ r (o.cswap x y c).2 (o'.cswap x' y' c).2

variable {o : Ops F} {o' : Ops G} {r : F → G → Prop}

structure RPt (r : F → G → Prop) (p : Pt F) (p' : Pt G) : Prop where
  x : r p.x p'.x
  z : r p.z p'.z

structure RCoef (r : F → G → Prop) (p : Coef F) (p' : Coef G) : Prop where
  a : r p.a p'.a
  c : r p.c p'.c

theorem xAdd_rel (h : OpsRel o o' r) {P Q D : Pt F} {P' Q' D' : Pt G} (hP : RPt r P P') (hQ : RPt r Q Q') (hD : RPt r D D') :
    RPt r (xAdd o P Q D) (xAdd o' P' Q' D') := by
  have t0 := h.mul (h.add hP.x hP.z) (h.sub hQ.x hQ.z)
  have t1 := h.mul (h.sub hP.x hP.z) (h.add hQ.x hQ.z)
  have t2 := h.add t0 t1
  have t3 := h.sub t0 t1
  exact ⟨h.mul hD.z (h.mul t2 t2), h.mul hD.x (h.mul t3 t3)⟩

theorem xDbl_rel (h : OpsRel o o' r) {P A : Pt F} {P' A' : Pt G} (hP : RPt r P P') (hA : RPt r A A') :
    RPt r (xDbl o P A) (xDbl o' P' A') := by
  have a := h.add hP.x hP.z
  have t0 := h.mul a a
  have b := h.sub hP.x hP.z
  have t1 := h.mul b b
  have t2 := h.sub t0 t1
  have t1 := h.mul (h.mul h.four t1) hA.z
  exact ⟨h.mul t0 t1, h.mul (h.add (h.mul (h.add (h.add hA.z hA.z) hA.x) t2) t1) t2⟩

theorem xDblAdd_rel (h : OpsRel o o' r) {P Q D : Pt F} {P' Q' D' : Pt G} {A : Coef F} {A' : Coef G} (hP : RPt r P P') (hQ : RPt r Q Q')
    (hD : RPt r D D') (hA : RCoef r A A') :
    RPt r (xDblAdd o P Q D A).1 (xDblAdd o' P' Q' D' A').1 ∧ RPt r (xDblAdd o P Q D A).2 (xDblAdd o' P' Q' D' A').2 := by
  have t0 := h.add hP.x hP.z
  have t1 := h.sub hP.x hP.z
  have ppx := h.mul t0 t0
  have t2 := h.sub hQ.x hQ.z
  have pqx := h.add hQ.x hQ.z
  have t0 := h.mul t0 t2
  have ppz := h.mul t1 t1
  have t1 := h.mul t1 pqx
  have t2 := h.sub ppx ppz
  have ppz := h.mul ppz hA.c
  have ppx := h.mul ppx ppz
  have pqx := h.mul hA.a t2
  have pqz := h.sub t0 t1
  have ppz := h.add ppz pqx
  have pqx := h.add t0 t1
  have ppz := h.mul ppz t2
  have pqz := h.mul pqz pqz
  have pqx := h.mul pqx pqx
  have pqz := h.mul pqz hD.x
  have pqx := h.mul pqx hD.z
  exact ⟨⟨ppx, ppz⟩, ⟨pqx, pqz⟩⟩

theorem cswappoint_rel (h : OpsRel o o' r) {P Q : Pt F} {P' Q' : Pt G} (hP : RPt r P P') (hQ : RPt r Q Q') {c : Byte} (hc : c = 0 ∨ c = 1) :
    RPt r (cswappoint o P Q c).1 (cswappoint o' P' Q' c).1 ∧ RPt r (cswappoint o P Q c).2 (cswappoint o' P' Q' c).2 := by
  obtain ⟨h1, h2⟩ := h.cswap hc hP.x hQ.x
  obtain ⟨h3, h4⟩ := h.cswap hc hP.z hQ.z
  exact ⟨⟨h1, h3⟩, ⟨h2, h4⟩⟩

theorem and_one (w : W64) : ((w &&& 1).setWidth 8 : Byte) = if w.getLsbD 0 then 1 else 0 := by
  apply BitVec.eq_of_getLsbD_eq
  intro i hi
  rw [BitVec.getLsbD_setWidth, BitVec.getLsbD_and]
  cases i with
  | zero => cases w.getLsbD 0 <;> simp
  | succ i => cases w.getLsbD 0 <;> simp

theorem bitAt_eq (k : Fp) (j : Nat) : bitAt k j = if (word k (j / 64)).getLsbD (j % 64) then 1 else 0 := by
  rw [bitAt, and_one, BitVec.getLsbD_ushiftRight, Nat.add_zero]

theorem bitAt_bit (k : Fp) (j : Nat) : bitAt k j = 0 ∨ bitAt k j = 1 := by
  rw [bitAt_eq]; split <;> simp

theorem xor_bit {a b : Byte} (ha : a = 0 ∨ a = 1) (hb : b = 0 ∨ b = 1) : a ^^^ b = 0 ∨ a ^^^ b = 1 := by
  rcases ha with rfl | rfl <;> rcases hb with rfl | rfl <;> decide

theorem xMulLoop_rel (h : OpsRel o o' r) {P : Pt F} {P' : Pt G} {A : Coef F} {A' : Coef G} (hP : RPt r P P') (hA : RCoef r A A') (k : Fp) :
    ∀ (i : Nat) {Q R : Pt F} {Q' R' : Pt G} {c : Byte}, RPt r Q Q' → RPt r R R' → c = 0 ∨ c = 1 →
    RPt r (xMulLoop o P A k i Q R c).1 (xMulLoop o' P' A' k i Q' R' c).1 ∧ RPt r (xMulLoop o P A k i Q R c).2 (xMulLoop o' P' A' k i Q' R' c).2
  | 0, _, _, _, _, _, hQ, hR, _ => ⟨hQ, hR⟩
  | i + 1, _, _, _, _, c, hQ, hR, hc => by
    obtain ⟨h1, h2⟩ := cswappoint_rel h hQ hR (xor_bit hc (bitAt_bit k i))
    obtain ⟨h3, h4⟩ := xDblAdd_rel h h1 h2 hP hA
    exact xMulLoop_rel h hP hA k i h3 h4 (bitAt_bit k i)

theorem xMul_rel (h : OpsRel o o' r) {P : Pt F} {P' : Pt G} {A : Coef F} {A' : Coef G} (hP : RPt r P P') (hA : RCoef r A A') (k : Fp) :
    RPt r (xMul o P A k) (xMul o' P' A' k) := by
  have a24 := h.add (h.add hA.c hA.c) hA.a
  have c24 := h.mul hA.c h.four
  have hQ := xDbl_rel h hP (A := ⟨A.a, A.c⟩) (A' := ⟨A'.a, A'.c⟩) ⟨hA.a, hA.c⟩
  obtain ⟨h1, h2⟩ := xMulLoop_rel h hP (A := ⟨_, _⟩) (A' := ⟨_, _⟩) ⟨a24, c24⟩ k (topBit k 511) hQ hP (Or.inr rfl)
  exact (cswappoint_rel h h1 h2 (by rw [and_one]; split <;> simp)).1

structure RIso (r : F → G → Prop) (s : IsoSt F) (s' : IsoSt G) : Prop where
  M : List.Forall₂ (RPt r) s.M s'.M
  prod : RPt r s.prod s'.prod
  Q : RPt r s.Q s'.Q

theorem getD_rel {α β : Type} {R : α → β → Prop} {l : List α} {l' : List β} (h : List.Forall₂ R l l') {d : α} {d' : β} (hd : R d d') :
    ∀ i, R (l.getD i d) (l'.getD i d') := by
  induction h with
  | nil => intro i; exact hd
  | cons h1 _ ih =>
    intro i
    cases i with
    | zero => exact h1
    | succ i => exact ih i

theorem set_rel {α β : Type} {R : α → β → Prop} {l : List α} {l' : List β} (h : List.Forall₂ R l l') {d : α} {d' : β} (hd : R d d') :
    ∀ i, List.Forall₂ R (l.set i d) (l'.set i d') := by
  induction h with
  | nil => intro i; exact .nil
  | cons h1 h2 ih =>
    intro i
    cases i with
    | zero => exact .cons hd h2
    | succ i => exact .cons h1 (ih i)

theorem isoStep_rel (h : OpsRel o o' r) {K : Pt F} {K' : Pt G} {S D : F} {S' D' : G} (hK : RPt r K K') (hS : r S S') (hD : r D D') (i : Nat)
    {s : IsoSt F} {s' : IsoSt G} (hs : RIso r s s') : RIso r (isoStep o K S D i s) (isoStep o' K' S' D' i s') := by
  have hM : List.Forall₂ (RPt r) (if 2 ≤ i then s.M.set (i % 3) (xAdd o (s.M.getD ((i - 1) % 3) K) K (s.M.getD ((i - 2) % 3) K)) else s.M)
      (if 2 ≤ i then s'.M.set (i % 3) (xAdd o' (s'.M.getD ((i - 1) % 3) K') K' (s'.M.getD ((i - 2) % 3) K')) else s'.M) := by
    split
    · exact set_rel hs.M (xAdd_rel h (getD_rel hs.M hK _) hK (getD_rel hs.M hK _)) _
    · exact hs.M
  have hm := getD_rel hM hK (i % 3)
  have t1 := h.sub hm.x hm.z
  have t0 := h.add hm.x hm.z
  have u1 := h.mul t1 hS
  have u0 := h.mul t0 hD
  exact ⟨hM, ⟨h.mul hs.prod.x t1, h.mul hs.prod.z t0⟩, ⟨h.mul hs.Q.x (h.add u0 u1), h.mul hs.Q.z (h.sub u0 u1)⟩⟩

theorem isoLoop_rel (h : OpsRel o o' r) {K : Pt F} {K' : Pt G} {S D : F} {S' D' : G} (hK : RPt r K K') (hS : r S S') (hD : r D D') :
    ∀ (k i : Nat) {s : IsoSt F} {s' : IsoSt G}, RIso r s s' → RIso r (isoLoop o K S D i k s) (isoLoop o' K' S' D' i k s')
  | 0, _, _, _, hs => hs
  | k + 1, i, _, _, hs => isoLoop_rel h hK hS hD k (i + 1) (isoStep_rel h hK hS hD i hs)

theorem xIso_rel (h : OpsRel o o' r) {P K : Pt F} {P' K' : Pt G} {A : Coef F} {A' : Coef G} (hP : RPt r P P') (hA : RCoef r A A') (hK : RPt r K K')
    (n : W64) : RPt r (xIso o P A K n).1 (xIso o' P' A' K' n).1 ∧ RCoef r (xIso o P A K n).2 (xIso o' P' A' K' n).2 := by
  have ec := h.add hA.c hA.c
  have ea := h.add hA.a ec
  have ec := h.sub hA.a ec
  have S := h.add hP.x hP.z
  have D := h.sub hP.x hP.z
  have px := h.sub hK.x hK.z
  have pz := h.add hK.x hK.z
  have t1 := h.mul px S
  have t0 := h.mul pz D
  have qx := h.add t0 t1
  have qz := h.sub t0 t1
  have m1 := xDbl_rel h hK (A := ⟨A.a, A.c⟩) (A' := ⟨A'.a, A'.c⟩) ⟨hA.a, hA.c⟩
  have L := isoLoop_rel h hK S D ((n >>> 1).toNat - 1) 1 (s := ⟨[K, _, ⟨o.zero, o.zero⟩], ⟨_, _⟩, ⟨_, _⟩⟩) (s' := ⟨[K', _, ⟨o'.zero, o'.zero⟩], ⟨_, _⟩, ⟨_, _⟩⟩)
    ⟨.cons hK (.cons m1 (.cons ⟨h.zero, h.zero⟩ .nil)), ⟨px, pz⟩, ⟨qx, qz⟩⟩
  have qx := h.mul L.Q.x L.Q.x
  have qz := h.mul L.Q.z L.Q.z
  have ea := h.exp64 n ea
  have ec := h.exp64 n ec
  have px := h.mul L.prod.x L.prod.x
  have px := h.mul px px
  have px := h.mul px px
  have pz := h.mul L.prod.z L.prod.z
  have pz := h.mul pz pz
  have pz := h.mul pz pz
  have ec := h.mul ec px
  have ea := h.mul ea pz
  have a := h.add ea ec
  exact ⟨⟨h.mul hP.x qx, h.mul hP.z qz⟩, ⟨h.add a a, h.sub ea ec⟩⟩

theorem montEval_rel (h : OpsRel o o' r) {A x : F} {A' x' : G} (hA : r A A') (hx : r x x') : r (montEval o A x) (montEval o' A' x') :=
  h.mul (h.add (h.add (h.mul hx hx) (h.mul hA hx)) h.one) hx

theorem cswap_elt {x y : Fp} {x' y' : ZMod Spec.Csidh.p} {c : Byte} (hc : c = 0 ∨ c = 1) (hx : IsElt x x') (hy : IsElt y y') :
    IsElt (cswap512 x y c).1 ((fieldOps (ZMod Spec.Csidh.p)).cswap x' y' c).1 ∧ IsElt (cswap512 x y c).2 ((fieldOps (ZMod Spec.Csidh.p)).cswap x' y' c).2 := by
  have hs := Lemmas.CsidhArith.cswap512_spec x y (hx.len.trans hy.len.symm)
  rcases hc with rfl | rfl
  · rw [hs.1]; exact ⟨hx, hy⟩
  · rw [hs.2]; exact ⟨hy, hx⟩

seal mulRdc addRdc subRdc modExpRdc64 cswap512 in
/-- The word arithmetic of fp511.go and the prime field. -/
theorem limb_rel : OpsRel limbOps (fieldOps (ZMod Spec.Csidh.p)) IsElt := by
  constructor
  case zero => exact zero_elt
  case one => exact one_elt
  case four => exact four_elt
  case add => intro x y x' y' hx hy; exact add_elt hx hy
  case sub => intro x y x' y' hx hy; exact sub_elt hx hy
  case mul => intro x y x' y' hx hy; exact mul_elt hx hy
  case exp64 => intro x x' n hx; exact exp64_elt hx n
  case cswap => intro x y x' y' c hc hx hy; exact cswap_elt hc hx hy

end Lemmas.CsidhNat
