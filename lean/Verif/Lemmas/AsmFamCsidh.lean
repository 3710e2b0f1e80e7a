import Verif.Lemmas.AsmFam
import Verif.Lemmas.CsidhArith
/-
Checks that the assembly multiplications of CSIDH compute what the portable functions compute, for every input.
-/
namespace Lemmas.AsmFamCsidh
open Model Model.Asm Model.Limb Model.Csidh Spec Lemmas.Limb Lemmas.CsidhArith Lemmas.AsmPoly Lemmas.AsmSym Lemmas.AsmSound Lemmas.AsmCall Lemmas.AsmFam

local notation "𝕡" => Spec.Csidh.p

/-! ### One round of the portable multiplication, for operands of any size -/

/-- One round divides `s + xᵢ·y + q·p` modulo 2^576 by 2^64, whatever carry the first addition starts with. -/
theorem mulRound_mod (y s : Fp) (xi c0 : W64) (hy : y.length = 8) (hs : s.length = 8) (hc : c0.toNat ≤ 1) :
    (mulRound y s xi c0).1.length = 8 ∧ (mulRound y s xi c0).2.toNat ≤ 1 ∧
    ∃ q k, q < 2 ^ 64 ∧ 2 ^ 64 * val (mulRound y s xi c0).1 + 2 ^ 576 * k = val s + xi.toNat * val y + q * 𝕡 := by
  set q : W64 := (xi * word y 0 + word s 0) * word pNegInv 0 with hq
  obtain ⟨l1, v1⟩ := mul576_spec p q p_len
  obtain ⟨l2, v2⟩ := mul576_spec y xi hy
  rw [p_val] at v1
  obtain ⟨a1, a2, a3⟩ := addLoop_spec (mul576 p q) (mul576 y xi) c0 (l1.trans l2.symm) hc
  set t := (addLoop (mul576 p q) (mul576 y xi) c0).1 with ht
  set tc := (addLoop (mul576 p q) (mul576 y xi) c0).2 with htc
  rw [l1] at a1 a3
  have hqc : 𝕡 * q.toNat = q.toNat * 𝕡 := Nat.mul_comm _ _
  have hxc : val y * xi.toNat = xi.toNat * val y := Nat.mul_comm _ _
  rw [v1, v2, hqc, hxc] at a1
  generalize hQ : q.toNat * 𝕡 = Q at *
  generalize hX : xi.toNat * val y = X at *
  obtain ⟨n1, n2⟩ := nine a3
  obtain ⟨s1, s2⟩ := eight' hs
  have vt : val t = (word t 0).toNat + 2 ^ 64 * val ((t.drop 1).take 7) + 2 ^ (64 + 64 * 7) * (word t 8).toNat := by
    conv_lhs => rw [n1]
    rw [val_parts, n2]; simp [val]
  have vs' : val s = (word s 0).toNat + 2 ^ 64 * val ((s.drop 1).take 7) := by
    conv_lhs => rw [s1]
    rw [val]
  obtain ⟨b1, b2⟩ := add64_spec (word t 0) (word s 0) 0 (by decide)
  obtain ⟨c1, c2, c3⟩ := addLoop_spec ((t.drop 1).take 7) ((s.drop 1).take 7) (add64 (word t 0) (word s 0) 0).2 (by rw [n2, s2]) b2
  obtain ⟨d1, d2⟩ := add64_spec (word t 8) 0 (addLoop ((t.drop 1).take 7) ((s.drop 1).take 7) (add64 (word t 0) (word s 0) 0).2).2 c2
  have hr : mulRound y s xi c0 = ((addLoop ((t.drop 1).take 7) ((s.drop 1).take 7) (add64 (word t 0) (word s 0) 0).2).1 ++
      [(add64 (word t 8) 0 (addLoop ((t.drop 1).take 7) ((s.drop 1).take 7) (add64 (word t 0) (word s 0) 0).2).2).1],
      (addLoop ((t.drop 1).take 7) ((s.drop 1).take 7) (add64 (word t 0) (word s 0) 0).2).2) := rfl
  rw [hr]
  generalize addLoop ((t.drop 1).take 7) ((s.drop 1).take 7) (add64 (word t 0) (word s 0) 0).2 = r at *
  generalize hA : add64 (word t 0) (word s 0) 0 = A at *
  generalize hD : add64 (word t 8) 0 r.2 = D at *
  rw [n2] at c1 c3
  rw [tz] at b1 d1
  have hlow : (val s + X + Q) % 2 ^ 64 = 0 := by
    have hq' : q.toNat = (xi.toNat * (word y 0).toNat + (word s 0).toNat) * (word pNegInv 0).toNat % 2 ^ 64 := by
      rw [hq, BitVec.toNat_mul, BitVec.toNat_add, BitVec.toNat_mul]
      simp only [Nat.mod_mul_mod, Nat.mod_add_mod]
    have e1 : (val s + X) % 2 ^ 64 = (xi.toNat * (word y 0).toNat + (word s 0).toNat) % 2 ^ 64 := by
      rw [← hX, Nat.add_comm, Nat.add_mod, Nat.mul_mod, val_mod y, val_mod s]
      conv_rhs => rw [Nat.add_mod, Nat.mul_mod, Nat.mod_eq_of_lt (word y 0).isLt, Nat.mod_eq_of_lt (word s 0).isLt]
    generalize xi.toNat * (word y 0).toNat + (word s 0).toNat = u at *
    have e2 : Q % 2 ^ 64 = u * (2 ^ 64 - 1) % 2 ^ 64 := by
      rw [← hQ, hq', Nat.mod_mul_mod, Nat.mul_assoc, Nat.mul_mod, pNegInv_spec, Nat.mod_mul_mod]
    rw [Nat.add_mod, e1, e2, ← Nat.add_mod, show u + u * (2 ^ 64 - 1) = 2 ^ 64 * u by omega]
    exact Nat.mul_mod_right _ _
  have hv : val (r.1 ++ [D.1]) = val r.1 + 2 ^ (64 * 7) * D.1.toNat := by
    rw [val_append, c3]; simp [val]
  have hA0 := A.1.isLt
  have htot : A.1.toNat + 2 ^ 64 * (val r.1 + 2 ^ (64 * 7) * D.1.toNat) + 2 ^ 576 * (D.2.toNat + tc.toNat) = val s + X + Q + c0.toNat := by
    omega
  have hlen : (r.1 ++ [D.1]).length = 8 := by rw [List.length_append, c3]; rfl
  refine ⟨hlen, c2, q.toNat, D.2.toNat + tc.toNat, q.isLt, ?_⟩
  rw [hQ]
  change 2 ^ 64 * val (r.1 ++ [D.1]) + _ = _
  rw [hv]; omega

theorem cast_lt {a n : Nat} (h : a < 2 ^ n) : (a : Int) < 2 ^ n := by exact_mod_cast h

/-- The quotient of such a division is determined. -/
theorem round_unique {T r r' q q' : Int} (hr : 0 ≤ r) (hr' : r < 2 ^ 512) (gr : 0 ≤ r') (gr' : r' < 2 ^ 512) (hq : 0 ≤ q) (hq' : q < 2 ^ 64)
    (gq : 0 ≤ q') (gq' : q' < 2 ^ 64) (h : (2 ^ 576 : Int) ∣ 2 ^ 64 * r - (T + q * 𝕡)) (g : (2 ^ 576 : Int) ∣ 2 ^ 64 * r' - (T + q' * 𝕡)) : r = r' := by
  have h0 := dvd_sub h g
  have hqq : q = q' := by
    have : (2 ^ 64 : Int) ∣ (q' - q) * 𝕡 := by
      have h1 : (2 ^ 64 : Int) ∣ 2 ^ 576 := ⟨2 ^ 512, by rw [← pow_add]⟩
      obtain ⟨k, hk⟩ := h1.trans h0
      exact ⟨k - r + r', by linarith⟩
    have hc : IsCoprime (2 ^ 64 : Int) (𝕡 : Int) := by
      have : Nat.Coprime (2 ^ 64) 𝕡 := by
        apply Nat.Coprime.pow_left
        rw [Nat.coprime_two_left, Nat.odd_iff]
        decide +kernel
      exact_mod_cast Nat.isCoprime_iff_coprime.mpr this
    obtain ⟨k, hk⟩ := hc.dvd_of_dvd_mul_right this
    omega
  subst hqq
  obtain ⟨k, hk⟩ := h0
  have : 2 ^ 64 * (r - r') = 2 ^ 576 * k := by linarith
  omega

/-! ### Calls with numbers among the arguments -/

/-- A call of `R` on the arrays `data` writes `res` over the first words of array `zb` and leaves the rest of it and the other
arrays, except for those listed in `scratch`, as they are. -/
def GivesA (R : Routine) (data : List (List W64)) (args : List Arg) (zb : Nat) (scratch : List Nat) (keepBP : Bool) (res : List W64) : Prop :=
  ∀ (junk : Nat → Val) (fr : List Val) (bp fp : W64), fr.length = R.frame →
    ∃ (data' : List (List Val)) (bp' : Option Val), R.call junk fr bp fp data args = some (data', bp') ∧
      After data zb res.length scratch res data' ∧ (keepBP = true → bp' = some (.w bp))

/-- All numbers among the arguments are further inputs. -/
def argsOK (S : Sig) : Bool := S.args.all fun a => match a with
  | .arr _ => true
  | .num j => Nat.blt j S.nex

theorem argsOK_sound {S : Sig} (h : argsOK S = true) : ∀ j, SArg.num j ∈ S.args → j < S.nex := by
  intro j hj
  have := List.all_eq_true.mp h _ hj
  exact Nat.blt_eq.mp this

def baseA (C : Cert) : Bool := Nat.ble (C.S.lens.sum + 2 + C.S.nex) 127 && (argsOK C.S && C.S.tops.isEmpty)

theorem givesA_of {R : Routine} {C : Cert} {n : Nat} {out : Poly} {F H : List Poly} {data : List (List W64)} {ex res : List W64}
    (hex : exec R C.S C.anns C.hints C.zb n C.scratch C.keepBP = some (out, F, H)) (hb : baseA C = true) (hl : C.S.lens = data.map List.length)
    (hx : ex.length = C.S.nex) (hr : res.length = n)
    (h : ∀ (e : Env) (bp fp : W64) (xs : List W64), C.S.lens.sum + 2 + C.S.nex ≤ 127 → xs.length = n → e.eval out = val xs →
      Inp e C.S.tops (flat data bp fp ex) →
      (∀ q ∈ F, e.eval q = 0) → (∀ q ∈ H, 0 ≤ e.eval q ∧ e.eval q < 2 ^ 64) → val xs = val res) :
    GivesA R data (C.S.args.map (SArg.arg ex)) C.zb C.scratch C.keepBP res := by
  intro junk fr bp fp hf
  unfold baseA at hb
  rw [Bool.and_eq_true, Bool.and_eq_true] at hb
  obtain ⟨h1, h2, h3⟩ := hb
  have h3 : C.S.tops = [] := List.isEmpty_iff.mp h3
  obtain ⟨e, xs, data', bp', hcall, hxl, hout, haft, hbp, hin, hF, hH⟩ := exec_sound hex junk fr bp fp data ex hf hl hx
    (argsOK_sound h2) (by rw [h3]; simp)
  have : xs = res := val_inj (by omega) (h e bp fp xs (Nat.le_of_ble_eq_true h1) hxl hout hin hF hH)
  subst this
  exact ⟨data', bp', hcall, by rw [hxl]; exact haft, hbp⟩

/-- The polynomial of further input j. -/
def exP (S : Sig) (j : Nat) : Poly := var (xn S.tops (S.lens.sum + 2 + j))

variable {e : Env}

theorem exP_eval {S : Sig} {data : List (List W64)} {bp fp : W64} {ex : List W64} (hi : Inp e S.tops (flat data bp fp ex))
    (hl : S.lens = data.map List.length) {j : Nat} (hj : S.lens.sum + 2 + j < 127) : e.eval (exP S j) = (ex.getD j 0).toNat := by
  have := xn_lt S.tops hj
  have hsum : S.lens.sum = data.flatten.length := by rw [hl]; exact sum_len data
  rw [exP, eval_var (by omega), hi _ hj, flat, hsum, show data.flatten.length + 2 + j = data.flatten.length + (j + 2) by omega, getD_right]
  rfl

/-! ### One word times an array -/

/-- The first n words of the result are those of x times the first further input. -/
def mul1Chk (R : Routine) (C : Cert) (n xb : Nat) (lam : List (Nat × Poly)) : Bool :=
  baseA C && (Nat.beq C.S.nex 1 &&
  match exec R C.S C.anns C.hints C.zb n C.scratch C.keepBP with
  | some (out, F, _) =>
    match mul (blk C.S xb 8) (exP C.S 0) with
    | some t => zmod (2 ^ (64 * n)) F lam (sub' out t)
    | none => false
  | none => false)

theorem mul1_ok {R : Routine} {C : Cert} {n xb : Nat} {lam : List (Nat × Poly)} (h : mul1Chk R C n xb lam = true)
    {data : List (List W64)} (hl : C.S.lens = data.map List.length) {x : List W64} (hx : data[xb]? = some x) (lx : x.length = 8) (m : W64)
    {res : List W64} (hr : res.length = n) (hv : val res = val x * m.toNat % 2 ^ (64 * n)) :
    GivesA R data (C.S.args.map (SArg.arg [m])) C.zb C.scratch C.keepBP res := by
  unfold mul1Chk at h
  rw [Bool.and_eq_true, Bool.and_eq_true] at h
  obtain ⟨hb, h1, h⟩ := h
  have h1 := Nat.eq_of_beq_eq_true h1
  rcases hex : exec R C.S C.anns C.hints C.zb n C.scratch C.keepBP with _ | ⟨out, F, H⟩
  · rw [hex] at h; simp at h
  rw [hex] at h
  simp only at h
  rcases hm : mul (blk C.S xb 8) (exP C.S 0) with _ | t
  · rw [hm] at h; simp at h
  rw [hm] at h
  simp only at h
  refine givesA_of hex hb hl (by rw [h1]; rfl) hr (fun e bp fp xs hs hxl hout hin hF _ => ?_)
  have hd := zmod_sound hF h
  rw [eval_sub', hout, eval_mul e _ _ _ hm, blk_eval hin hl (by omega) hx (by omega), exP_eval hin hl (by omega), List.take_of_length_le (by omega)] at hd
  have a := val_lt xs
  rw [hxl] at a
  rw [hv]
  refine nat_of_dvd a (Nat.mod_lt _ (by positivity)) ?_
  have h2 : ((2 ^ (64 * n) : Nat) : Int) ∣ ((val x * m.toNat : Nat) : Int) - ((val x * m.toNat) % 2 ^ (64 * n) : Nat) := by
    rw [Int.natCast_emod]
    exact Int.dvd_self_sub_emod
  have h3 := dvd_add hd h2
  simp only [List.getD_cons_zero] at h3
  push_cast at h3 ⊢
  rwa [sub_add_sub_cancel] at h3

/-! ### Montgomery multiplication -/

/-- One round: the positions of the words of the sum after it and of the multiplier of p, and the combination of facts for it. -/
structure Round where
  s : List Nat
  q : Nat
  lam : List (Nat × Poly)

/-- Every round adds xᵢ·y and a multiple of p and divides by 2^64, modulo 2^576. -/
def rounds (F H : List Poly) (y : Poly) : Poly → List Poly → List Round → Option Poly
  | S, [], [] => some S
  | S, x :: xs, r :: rs =>
    match words H r.s, H[r.q]?, mul x y with
    | some S', some q, some t =>
      bif Nat.beq r.s.length 8 && zmod (2 ^ 576) F r.lam (sub' (scale (2 ^ 64) S') (add (add S t) (scale 𝕡 q))) then rounds F H y S' xs rs else none
    | _, _, _ => none
  | _, _, _ => none

/-- The portable rounds, without the carry between them. -/
def mulFold (y : Fp) : List W64 → Fp → Fp
  | [], s => s
  | x :: xs, s => mulFold y xs (mulRound y s x 0).1

theorem round_carry (y s : Fp) (xi c0 : W64) (hy : y.length = 8) (hs : s.length = 8) (hc : c0.toNat ≤ 1) :
    (mulRound y s xi c0).1 = (mulRound y s xi 0).1 := by
  obtain ⟨a1, _, q, k, a2, a3⟩ := mulRound_mod y s xi c0 hy hs hc
  obtain ⟨b1, _, q', k', b2, b3⟩ := mulRound_mod y s xi 0 hy hs (by decide)
  refine val_inj (by omega) ?_
  have va := val_lt (mulRound y s xi c0).1
  have vb := val_lt (mulRound y s xi 0).1
  rw [a1] at va
  rw [b1] at vb
  have ha : ((2 : Int) ^ 576) ∣ 2 ^ 64 * (val (mulRound y s xi c0).1 : Int) - ((val s + xi.toNat * val y : Nat) + q * 𝕡) := by
    refine ⟨-k, ?_⟩
    have : ((2 ^ 64 * val (mulRound y s xi c0).1 + 2 ^ 576 * k : Nat) : Int) = (val s + xi.toNat * val y + q * 𝕡 : Nat) := by rw [a3]
    push_cast at this ⊢
    linarith
  have hb : ((2 : Int) ^ 576) ∣ 2 ^ 64 * (val (mulRound y s xi 0).1 : Int) - ((val s + xi.toNat * val y : Nat) + q' * 𝕡) := by
    refine ⟨-k', ?_⟩
    have : ((2 ^ 64 * val (mulRound y s xi 0).1 + 2 ^ 576 * k' : Nat) : Int) = (val s + xi.toNat * val y + q' * 𝕡 : Nat) := by rw [b3]
    push_cast at this ⊢
    linarith
  have := round_unique (Int.natCast_nonneg _) (cast_lt va) (Int.natCast_nonneg _) (cast_lt vb) (Int.natCast_nonneg _) (cast_lt a2)
    (Int.natCast_nonneg _) (cast_lt b2) ha hb
  exact Int.ofNat.inj this

theorem mulLoop_fold (y : Fp) : ∀ (xs : List W64) (s : Fp) (c : W64), (mulLoop y xs (s, c)).1 = mulFold y xs s := by
  intro xs
  induction xs with
  | nil => intro s c; rfl
  | cons x xs ih => intro s c; exact ih _ _

theorem fold_length (y : Fp) (hy : y.length = 8) : ∀ (xs : List W64) (s : Fp), s.length = 8 → (mulFold y xs s).length = 8 := by
  intro xs
  induction xs with
  | nil => intro s h; exact h
  | cons x xs ih => intro s h; exact ih _ (mulRound_mod y s x 0 hy h (by decide)).1

theorem fold_append (y : Fp) : ∀ (xs ys : List W64) (s : Fp), mulFold y (xs ++ ys) s = mulFold y ys (mulFold y xs s) := by
  intro xs
  induction xs with
  | nil => intro ys s; rfl
  | cons x xs ih => intro ys s; exact ih ys _

theorem loop_carry (y : Fp) (hy : y.length = 8) : ∀ (xs : List W64) (s : Fp) (c : W64), s.length = 8 → c.toNat ≤ 1 → (mulLoop y xs (s, c)).2.toNat ≤ 1 := by
  intro xs
  induction xs with
  | nil => intro s c _ h; exact h
  | cons x xs ih =>
    intro s c h _
    obtain ⟨a, b, _⟩ := mulRound_mod y s x 0 hy h (by decide)
    exact ih _ _ a b

/-- The portable multiplication is eight equal rounds. -/
theorem mulGeneric_fold (x y : Fp) (hx : x.length = 8) (hy : y.length = 8) : mulGeneric x y = mulFold y x (List.replicate 8 0) := by
  obtain ⟨e1, e2⟩ := eight'' hx
  have hl : (mulLoop y (x.take 7) (List.replicate 8 0, 0)).1 = mulFold y (x.take 7) (List.replicate 8 0) := mulLoop_fold y _ _ _
  conv_rhs => rw [e1, fold_append]
  change (mulRound y (mulLoop y (x.take 7) (List.replicate 8 0, 0)).1 (word x 7) (mulLoop y (x.take 7) (List.replicate 8 0, 0)).2).1 = _
  rw [round_carry y _ _ _ hy (by rw [hl]; exact fold_length y hy _ _ List.length_replicate) (loop_carry y hy _ _ _ List.length_replicate (by decide)), hl]
  rfl

theorem rounds_sound {F H : List Poly} (hF : ∀ q ∈ F, e.eval q = 0) (hH : ∀ q ∈ H, 0 ≤ e.eval q ∧ e.eval q < 2 ^ 64) {Y : Poly} {y : Fp} (hy : y.length = 8)
    (hY : e.eval Y = val y) : ∀ (rs : List Round) (X : List Poly) (xs : List W64) (S S' : Poly) (s : Fp), s.length = 8 → e.eval S = val s →
    List.Forall₂ (fun P w => e.eval P = (BitVec.toNat w : Int)) X xs → rounds F H Y S X rs = some S' → e.eval S' = val (mulFold y xs s) := by
  intro rs
  induction rs with
  | nil =>
    intro X xs S S' s _ hS hX h
    cases hX with
    | nil => simp only [rounds, Option.some.injEq] at h; rw [← h]; exact hS
    | cons _ _ => simp [rounds] at h
  | cons r rs ih =>
    intro X xs S S' s hs hS hX h
    cases hX with
    | nil => simp [rounds] at h
    | @cons P w X xs hP hX =>
      rw [rounds] at h
      rcases h1 : words H r.s with _ | S1
      · rw [h1] at h; simp at h
      rcases h2 : H[r.q]? with _ | q
      · rw [h1, h2] at h; simp at h
      rcases h3 : mul P Y with _ | t
      · rw [h1, h2, h3] at h; simp at h
      rw [h1, h2, h3] at h
      simp only at h
      rcases h4 : (Nat.beq r.s.length 8 && zmod (2 ^ 576) F r.lam (sub' (scale (2 ^ 64) S1) (add (add S t) (scale 𝕡 q)))) with _ | _
      · rw [h4] at h; simp at h
      rw [h4, cond_true] at h
      rw [Bool.and_eq_true] at h4
      obtain ⟨h5, h6⟩ := h4
      have h5 := Nat.eq_of_beq_eq_true h5
      have h6 := zmod_sound hF h6
      obtain ⟨d1, d2⟩ := words_sound hH r.s S1 h1
      rw [h5] at d2
      obtain ⟨q1, q2⟩ := hH q (List.mem_of_getElem? h2)
      obtain ⟨b1, _, q', k', b2, b3⟩ := mulRound_mod y s w 0 hy hs (by decide)
      have vb := val_lt (mulRound y s w 0).1
      rw [b1] at vb
      rw [eval_sub', eval_scale, eval_add, eval_add, eval_scale, eval_mul e _ _ _ h3, hS, hP, hY] at h6
      have hb : ((2 : Int) ^ 576) ∣ 2 ^ 64 * (val (mulRound y s w 0).1 : Int) - ((val s + w.toNat * val y : Nat) + q' * 𝕡) := by
        refine ⟨-k', ?_⟩
        have : ((2 ^ 64 * val (mulRound y s w 0).1 + 2 ^ 576 * k' : Nat) : Int) = (val s + w.toNat * val y + q' * 𝕡 : Nat) := by rw [b3]
        push_cast at this ⊢
        linarith
      have h7 : ((2 : Int) ^ 576) ∣ 2 ^ 64 * e.eval S1 - ((val s + w.toNat * val y : Nat) + e.eval q * 𝕡) := by
        push_cast at h6 ⊢
        rwa [mul_comm (𝕡 : Int) (e.eval q)] at h6
      have := round_unique d1 (by simpa using d2) (Int.natCast_nonneg _) (cast_lt vb) q1 q2 (Int.natCast_nonneg _) (cast_lt b2) h7 hb
      exact ih X xs S1 S' _ b1 this hX h

/-- The words of array b. -/
def wordsP (S : Sig) (b : Nat) : Nat → Nat → List Poly
  | _, 0 => []
  | i, n + 1 => var (xn S.tops ((S.lens.take b).sum + i)) :: wordsP S b (i + 1) n

theorem wordsP_eval {S : Sig} {data : List (List W64)} {bp fp : W64} {ex : List W64} (hi : Inp e S.tops (flat data bp fp ex))
    (hl : S.lens = data.map List.length) (hs : S.lens.sum ≤ 127) {b : Nat} {d : List W64} (hd : data[b]? = some d) :
    ∀ (n i : Nat), i + n = d.length → List.Forall₂ (fun P w => e.eval P = (BitVec.toNat w : Int)) (wordsP S b i n) (d.drop i) := by
  intro n
  induction n with
  | zero => intro i h; rw [List.drop_eq_nil_of_le (by omega)]; exact .nil
  | succ n ih =>
    intro i h
    have hb := block_end data b d hd
    rw [← hl] at hb
    have hlt := xn_lt S.tops (j := (S.lens.take b).sum + i) (by omega)
    rw [List.drop_eq_getElem_cons (show i < d.length by omega)]
    refine .cons ?_ (ih (i + 1) (by omega))
    have h1 := flat_block data bp fp ex b d i hd (by omega)
    rw [← hl] at h1
    rw [eval_var (by omega), hi _ (by omega), h1, List.getD_eq_getElem?_getD, List.getElem?_eq_getElem (by omega)]
    rfl

def mulBmiChk (R : Routine) (C : Cert) (xb yb : Nat) (rs : List Round) : Bool :=
  baseA C && (Nat.beq C.S.nex 0 &&
  match exec R C.S C.anns C.hints C.zb 8 C.scratch C.keepBP with
  | some (out, F, H) =>
    match rounds F H (blk C.S yb 8) [] (wordsP C.S xb 0 8) rs with
    | some S => zmod 0 F [] (sub' out S)
    | none => false
  | none => false)

theorem mulBmi_ok {R : Routine} {C : Cert} {xb yb : Nat} {rs : List Round} (h : mulBmiChk R C xb yb rs = true)
    {data : List (List W64)} (hl : C.S.lens = data.map List.length) {x y : List W64} (hx : data[xb]? = some x) (hy : data[yb]? = some y)
    (lx : x.length = 8) (ly : y.length = 8) :
    GivesA R data (C.S.args.map (SArg.arg [])) C.zb C.scratch C.keepBP (mulGeneric x y) := by
  unfold mulBmiChk at h
  rw [Bool.and_eq_true, Bool.and_eq_true] at h
  obtain ⟨hb, h1, h⟩ := h
  have h1 := Nat.eq_of_beq_eq_true h1
  rcases hex : exec R C.S C.anns C.hints C.zb 8 C.scratch C.keepBP with _ | ⟨out, F, H⟩
  · rw [hex] at h; simp at h
  rw [hex] at h
  simp only at h
  rcases hm : rounds F H (blk C.S yb 8) [] (wordsP C.S xb 0 8) rs with _ | S
  · rw [hm] at h; simp at h
  rw [hm] at h
  simp only at h
  have hlen : (mulGeneric x y).length = 8 := by
    rw [mulGeneric_fold x y lx ly]; exact fold_length y ly _ _ List.length_replicate
  refine givesA_of hex hb hl (by rw [h1]; rfl) hlen (fun e bp fp xs hs hxl hout hin hF hH => ?_)
  have hd := zmod_sound hF h
  rw [eval_sub', hout, Nat.cast_zero, zero_dvd_iff] at hd
  have hY := blk_eval hin hl (by omega) hy (n := 8) (by omega)
  rw [List.take_of_length_le (by omega)] at hY
  have hX := wordsP_eval hin hl (by omega) hx 8 0 (by omega)
  rw [List.drop_zero] at hX
  have := rounds_sound hF hH ly hY rs _ x [] S (List.replicate 8 0) List.length_replicate (by rw [val_replicate_zero]; rfl) hX hm
  rw [mulGeneric_fold x y lx ly]
  have : (val xs : Int) = val (mulFold y x (List.replicate 8 0)) := by rw [← this]; linarith
  exact_mod_cast this

end Lemmas.AsmFamCsidh
