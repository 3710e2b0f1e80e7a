import Verif.Model.CsidhArith
import Verif.Lemmas.Limb
import Verif.Lemmas.CsidhPrime
/-! The word arithmetic of CSIDH computes on the numbers the words denote. -/
namespace Lemmas.CsidhArith
open Model Model.Limb Model.Csidh Spec Lemmas.Limb

local notation "𝕡" => Spec.Csidh.p

theorem p_val : val p = 𝕡 := by decide +kernel
theorem p_len : p.length = 8 := rfl
theorem p_bound : 2 ^ 510 < 𝕡 ∧ 2 * 𝕡 < 2 ^ 512 := by decide +kernel

theorem pick_ones (a b : W64) : ctPick64 (0 - 1) a b = a := by
  rw [show (0 - 1 : W64) = BitVec.allOnes 64 from rfl]; simp [ctPick64, -BitVec.reduceAllOnes]
theorem pick_zero (a b : W64) : ctPick64 (0 - 0) a b = b := by
  rw [show (0 - 0 : W64) = 0 from rfl, ctPick64, show ~~~(0 : W64) = BitVec.allOnes 64 from rfl]
  simp [-BitVec.reduceAllOnes]

theorem pickWords_ones : ∀ (a b : List W64), a.length = b.length → pickWords (0 - 1) a b = a
  | [], [], _ => rfl
  | a :: as, b :: bs, h => by
    have := pickWords_ones as bs (by simpa using h)
    rw [pickWords] at this ⊢
    rw [List.zipWith_cons_cons, pick_ones, this]

theorem pickWords_zero : ∀ (a b : List W64), a.length = b.length → pickWords (0 - 0) a b = b
  | [], [], _ => rfl
  | a :: as, b :: bs, h => by
    have := pickWords_zero as bs (by simpa using h)
    rw [pickWords] at this ⊢
    rw [List.zipWith_cons_cons, pick_zero, this]

theorem condSub_spec (r : Fp) (hl : r.length = 8) :
    (condSub r).length = 8 ∧ val (condSub r) = if val r < 𝕡 then val r else val r - 𝕡 := by
  obtain ⟨h1, h2, h3⟩ := subLoop_borrow r p (hl.trans p_len.symm)
  rw [p_val] at h1 h2
  rw [hl] at h3
  simp only [condSub]
  split
  · rename_i h
    obtain ⟨e1, e2⟩ := h1 h
    rw [e1, pickWords_ones _ _ (by rw [h3, hl])]
    exact ⟨hl, rfl⟩
  · rename_i h
    obtain ⟨e1, e2⟩ := h2 (by omega)
    rw [e1, pickWords_zero _ _ (by rw [h3, hl])]
    exact ⟨h3, by omega⟩

theorem condSub_lt (r : Fp) (hl : r.length = 8) (h : val r < 2 * 𝕡) : val (condSub r) < 𝕡 := by
  rw [(condSub_spec r hl).2]; split <;> omega

theorem addRdc_spec (x y : Fp) (hx : x.length = 8) (hy : y.length = 8) (vx : val x < 𝕡) (vy : val y < 𝕡) :
    (addRdc x y).length = 8 ∧ val (addRdc x y) = (val x + val y) % 𝕡 := by
  obtain ⟨h1, h2⟩ := addLoop_mod x y (hx.trans hy.symm)
  have hp := p_bound
  rw [hx] at h1 h2
  rw [Nat.mod_eq_of_lt (show val x + val y < 2 ^ (64 * 8) by omega)] at h1
  obtain ⟨h3, h4⟩ := condSub_spec (addLoop x y 0).1 h2
  refine ⟨h3, ?_⟩
  rw [addRdc, h4, h1]
  split
  · rw [Nat.mod_eq_of_lt (by assumption)]
  · rw [Nat.mod_eq_sub_mod (by omega), Nat.mod_eq_of_lt (by omega)]

theorem pMap (w : W64) : (p.map fun a => ctPick64 w a 0) = maskWords p w := by
  rw [maskWords]
  apply List.map_congr_left
  intro a _
  simp [ctPick64]

theorem subRdc_spec (x y : Fp) (hx : x.length = 8) (hy : y.length = 8) (vx : val x < 𝕡) (vy : val y < 𝕡) :
    (subRdc x y).length = 8 ∧ val (subRdc x y) = (val x + 𝕡 - val y) % 𝕡 := by
  obtain ⟨h1, h2, h3⟩ := subLoop_borrow x y (hx.trans hy.symm)
  have hp := p_bound
  rw [hx] at h1 h3
  simp only [subRdc, pMap]
  by_cases h : val x < val y
  · obtain ⟨e1, e2⟩ := h1 h
    rw [e1, maskWords_ones]
    obtain ⟨h4, h5⟩ := addLoop_mod (subLoop x y 0).1 p (h3.trans p_len.symm)
    rw [h3] at h4 h5
    refine ⟨h5, ?_⟩
    rw [h4, p_val, Nat.mod_eq_of_lt (show val x + 𝕡 - val y < 𝕡 by omega)]
    rw [show val (subLoop x y 0).1 + 𝕡 = (val x + 𝕡 - val y) + 2 ^ (64 * 8) by omega, Nat.add_mod_right]
    exact Nat.mod_eq_of_lt (by omega)
  · obtain ⟨e1, e2⟩ := h2 (by omega)
    rw [e1, show (0 : W64) - 0 = 0 from rfl, maskWords_zero]
    obtain ⟨h4, h5⟩ := addLoop_mod (subLoop x y 0).1 (List.replicate p.length 0) (by rw [h3, List.length_replicate]; rfl)
    rw [h3] at h4 h5
    refine ⟨h5, ?_⟩
    rw [h4, val_replicate_zero, Nat.add_zero, Nat.mod_eq_of_lt (by omega),
      show val x + 𝕡 - val y = (val x - val y) + 𝕡 by omega, Nat.add_mod_right, Nat.mod_eq_of_lt (by omega)]
    omega

/-- `h + c` never overflows in the multiplication loops. -/
theorem mulStep (m w c : W64) :
    (add64 (mul64 m w).2 c 0).1.toNat + 2 ^ 64 * ((mul64 m w).1 + (add64 (mul64 m w).2 c 0).2).toNat = m.toNat * w.toNat + c.toNat := by
  have h1 := mul64_spec m w
  obtain ⟨h2, h3⟩ := add64_spec (mul64 m w).2 c 0 (by decide)
  have := (mul64 m w).2.isLt
  have := c.isLt
  have hb : m.toNat * w.toNat ≤ (2 ^ 64 - 1) * (2 ^ 64 - 1) :=
    Nat.mul_le_mul (Nat.le_sub_one_of_lt m.isLt) (Nat.le_sub_one_of_lt w.isLt)
  rw [tz] at h2
  rw [BitVec.toNat_add, Nat.mod_eq_of_lt (by omega)]
  omega

theorem mulTail_spec (m : W64) (ws : List W64) (c : W64) :
    val (mulTail m ws c).1 + 2 ^ (64 * ws.length) * (mulTail m ws c).2.toNat = m.toNat * val ws + c.toNat ∧
    (mulTail m ws c).1.length = ws.length := by
  induction ws generalizing c with
  | nil => simp [mulTail, val]
  | cons w ws ih =>
    obtain ⟨h1, h2⟩ := ih ((mul64 m w).1 + (add64 (mul64 m w).2 c 0).2)
    have h3 := mulStep m w c
    simp only [mulTail, val, List.length_cons, h2, and_true]
    rw [show 64 * (ws.length + 1) = 64 + 64 * ws.length by omega, Nat.pow_add]
    linear_combination h3 + 2 ^ 64 * h1

theorem eight {x : List W64} (h : x.length = 8) : x = word x 0 :: (x.drop 1).take 6 ++ [word x 7] ∧ ((x.drop 1).take 6).length = 6 := by
  match x, h with
  | [a, b, c, d, e, f, g, i], _ => exact ⟨rfl, rfl⟩

theorem nine {x : List W64} (h : x.length = 9) : x = word x 0 :: (x.drop 1).take 7 ++ [word x 8] ∧ ((x.drop 1).take 7).length = 7 := by
  match x, h with
  | [a, b, c, d, e, f, g, i, j], _ => exact ⟨rfl, rfl⟩

theorem eight' {x : List W64} (h : x.length = 8) : x = word x 0 :: (x.drop 1).take 7 ∧ ((x.drop 1).take 7).length = 7 := by
  match x, h with
  | [a, b, c, d, e, f, g, i], _ => exact ⟨rfl, rfl⟩

theorem eight'' {x : List W64} (h : x.length = 8) : x = x.take 7 ++ [word x 7] ∧ (x.take 7).length = 7 := by
  match x, h with
  | [a, b, c, d, e, f, g, i], _ => exact ⟨rfl, rfl⟩

theorem val_parts (a : W64) (m : List W64) (z : List W64) : val (a :: m ++ z) = a.toNat + 2 ^ 64 * val m + 2 ^ (64 + 64 * m.length) * val z := by
  rw [List.cons_append, val, val_append, Nat.pow_add]
  ring

theorem mul576_spec (x : Fp) (m : W64) (hx : x.length = 8) : (mul576 x m).length = 9 ∧ val (mul576 x m) = val x * m.toNat := by
  obtain ⟨e1, e2⟩ := eight hx
  obtain ⟨h1, h2⟩ := mulTail_spec m ((x.drop 1).take 6) (mul64 m (word x 0)).1
  have h0 := mul64_spec m (word x 0)
  have hb := val_lt (mul576 x m)
  generalize hT : mulTail m ((x.drop 1).take 6) (mul64 m (word x 0)).1 = T at *
  have h3 := mulStep m (word x 7) T.2
  obtain ⟨h4, h5⟩ := add64_spec (mul64 m (word x 7)).1 (add64 (mul64 m (word x 7)).2 T.2 0).2 0 (by decide)
  rw [tz] at h4
  have hlen : (mul576 x m).length = 9 := by
    simp only [mul576, hT, List.length_append, List.length_cons, h2, e2, List.length_nil]
  refine ⟨hlen, ?_⟩
  -- the last carry is zero
  obtain ⟨h6, h7⟩ := add64_spec (mul64 m (word x 7)).2 T.2 0 (by decide)
  have h8 := mul64_spec m (word x 7)
  have hmw : m.toNat * (word x 7).toNat ≤ (2 ^ 64 - 1) * (2 ^ 64 - 1) :=
    Nat.mul_le_mul (Nat.le_sub_one_of_lt m.isLt) (Nat.le_sub_one_of_lt (word x 7).isLt)
  have hl := (mul64 m (word x 7)).2.isLt
  have hc0 : (add64 (mul64 m (word x 7)).1 (add64 (mul64 m (word x 7)).2 T.2 0).2 0).2.toNat = 0 := by omega
  have hc1 : (add64 (mul64 m (word x 7)).1 (add64 (mul64 m (word x 7)).2 T.2 0).2 0).2 = 0 := BitVec.eq_of_toNat_eq hc0
  have hsum : ((mul64 m (word x 7)).1 + (add64 (mul64 m (word x 7)).2 T.2 0).2).toNat =
      (add64 (mul64 m (word x 7)).1 (add64 (mul64 m (word x 7)).2 T.2 0).2 0).1.toNat := by
    rw [BitVec.toNat_add, Nat.mod_eq_of_lt (by omega)]; omega
  have hv : val x = (word x 0).toNat + 2 ^ 64 * val ((x.drop 1).take 6) + 2 ^ (64 + 64 * 6) * (word x 7).toNat := by
    conv_lhs => rw [e1]
    rw [val_parts, e2]; simp [val]
  have z0 : ∀ w : W64, w + 0 = w := fun w => BitVec.add_zero w
  simp only [mul576, hT, hc1, z0]
  rw [val_parts, h2, e2, hv]
  simp only [val, Nat.mul_zero, Nat.add_zero]
  rw [hsum] at h3
  rw [e2] at h1
  rw [Nat.pow_add]
  generalize 2 ^ (64 * 6) = b at *
  linear_combination h0 + 2 ^ 64 * h1 + 2 ^ 64 * b * h3

theorem mul512_spec (x : Fp) (m : W64) (hx : x.length = 8) : (mul512 x m).length = 8 ∧ val (mul512 x m) = val x * m.toNat % 2 ^ 512 := by
  obtain ⟨h1, h2⟩ := mul576_spec x m hx
  have e : mul512 x m = (mul576 x m).take 8 := by
    obtain ⟨e1, e2⟩ := eight hx
    obtain ⟨_, h3⟩ := mulTail_spec m ((x.drop 1).take 6) (mul64 m (word x 0)).1
    simp only [mul512, mul576]
    rw [show ∀ (a : W64) (m : List W64) (u v : W64), a :: m ++ [u, v] = (a :: m ++ [u]) ++ [v] from fun _ _ _ _ => by simp]
    rw [List.take_left']
    rw [List.length_append, List.length_cons, h3, e2]; rfl
  have hl : (mul512 x m).length = 8 := by rw [e, List.length_take, h1]; rfl
  refine ⟨hl, ?_⟩
  have hb := val_lt (mul512 x m)
  rw [hl] at hb
  have : val (mul576 x m) = val (mul512 x m) + 2 ^ (64 * 8) * val ((mul576 x m).drop 8) := by
    conv_lhs => rw [← List.take_append_drop 8 (mul576 x m), ← e, val_append, hl]
  rw [← h2, this]
  rw [Nat.add_mul_mod_self_left, Nat.mod_eq_of_lt hb]

theorem pNegInv_spec : (word pNegInv 0).toNat * 𝕡 % 2 ^ 64 = 2 ^ 64 - 1 := by decide +kernel

theorem val_mod (x : List W64) : val x % 2 ^ 64 = (word x 0).toNat := by
  cases x with
  | nil => rfl
  | cons w ws => rw [val, Nat.add_mul_mod_self_left, Nat.mod_eq_of_lt w.isLt]; rfl

/-- One round divides `s + xᵢ·y + q·p` by 2^64, whatever carry the first addition starts with. -/
theorem mulRound_spec (y s : Fp) (xi c0 : W64) (hy : y.length = 8) (hs : s.length = 8) (vy : val y < 𝕡) (vs : val s < val y + 𝕡)
    (hc : c0.toNat ≤ 1) :
    (mulRound y s xi c0).1.length = 8 ∧ (mulRound y s xi c0).2.toNat ≤ 1 ∧ val (mulRound y s xi c0).1 < val y + 𝕡 ∧
    ∃ q, 2 ^ 64 * val (mulRound y s xi c0).1 = val s + xi.toNat * val y + q * 𝕡 := by
  have hp := p_bound
  set q : W64 := (xi * word y 0 + word s 0) * word pNegInv 0 with hq
  obtain ⟨l1, v1⟩ := mul576_spec p q p_len
  obtain ⟨l2, v2⟩ := mul576_spec y xi hy
  rw [p_val] at v1
  obtain ⟨a1, a2, a3⟩ := addLoop_spec (mul576 p q) (mul576 y xi) c0 (l1.trans l2.symm) hc
  set t := (addLoop (mul576 p q) (mul576 y xi) c0).1 with ht
  set tc := (addLoop (mul576 p q) (mul576 y xi) c0).2 with htc
  rw [l1] at a1 a3
  have hqb : q.toNat * 𝕡 ≤ (2 ^ 64 - 1) * 𝕡 := Nat.mul_le_mul_right _ (Nat.le_sub_one_of_lt q.isLt)
  have hxb : xi.toNat * val y ≤ (2 ^ 64 - 1) * val y := Nat.mul_le_mul_right _ (Nat.le_sub_one_of_lt xi.isLt)
  have hqc : 𝕡 * q.toNat = q.toNat * 𝕡 := Nat.mul_comm _ _
  have hxc : val y * xi.toNat = xi.toNat * val y := Nat.mul_comm _ _
  rw [v1, v2, hqc, hxc] at a1
  generalize hQ : q.toNat * 𝕡 = Q at *
  generalize hX : xi.toNat * val y = X at *
  have htc0 : tc.toNat = 0 := by omega
  rw [htc0, Nat.mul_zero, Nat.add_zero] at a1
  obtain ⟨n1, n2⟩ := nine a3
  obtain ⟨s1, s2⟩ := eight' hs
  have vt : val t = (word t 0).toNat + 2 ^ 64 * val ((t.drop 1).take 7) + 2 ^ (64 + 64 * 7) * (word t 8).toNat := by
    conv_lhs => rw [n1]
    rw [val_parts, n2]; simp [val]
  have vs' : val s = (word s 0).toNat + 2 ^ 64 * val ((s.drop 1).take 7) := by
    conv_lhs => rw [s1]
    rw [val]
  obtain ⟨b1, b2⟩ := add64_spec (word t 0) (word s 0) 0 (by decide)
  obtain ⟨c1, c2, c3⟩ := addLoop_spec ((t.drop 1).take 7) ((s.drop 1).take 7) (add64 (word t 0) (word s 0) 0).2 (by rw [n2, s2]) b2
  obtain ⟨d1, d2⟩ := add64_spec (word t 8) 0 (addLoop ((t.drop 1).take 7) ((s.drop 1).take 7) (add64 (word t 0) (word s 0) 0).2).2 c2
  have hr : mulRound y s xi c0 = ((addLoop ((t.drop 1).take 7) ((s.drop 1).take 7) (add64 (word t 0) (word s 0) 0).2).1 ++
      [(add64 (word t 8) 0 (addLoop ((t.drop 1).take 7) ((s.drop 1).take 7) (add64 (word t 0) (word s 0) 0).2).2).1],
      (addLoop ((t.drop 1).take 7) ((s.drop 1).take 7) (add64 (word t 0) (word s 0) 0).2).2) := rfl
  rw [hr]
  generalize addLoop ((t.drop 1).take 7) ((s.drop 1).take 7) (add64 (word t 0) (word s 0) 0).2 = r at *
  generalize hA : add64 (word t 0) (word s 0) 0 = A at *
  generalize hD : add64 (word t 8) 0 r.2 = D at *
  rw [n2] at c1 c3
  rw [tz] at b1 d1
  -- the low word vanishes up to the carry that came in
  have hlow : (val s + X + Q) % 2 ^ 64 = 0 := by
    have hq' : q.toNat = (xi.toNat * (word y 0).toNat + (word s 0).toNat) * (word pNegInv 0).toNat % 2 ^ 64 := by
      rw [hq, BitVec.toNat_mul, BitVec.toNat_add, BitVec.toNat_mul]
      simp only [Nat.mod_mul_mod, Nat.mod_add_mod]
    have e1 : (val s + X) % 2 ^ 64 = (xi.toNat * (word y 0).toNat + (word s 0).toNat) % 2 ^ 64 := by
      rw [← hX, Nat.add_comm, Nat.add_mod, Nat.mul_mod, val_mod y, val_mod s]
      conv_rhs => rw [Nat.add_mod, Nat.mul_mod, Nat.mod_eq_of_lt (word y 0).isLt, Nat.mod_eq_of_lt (word s 0).isLt]
    generalize xi.toNat * (word y 0).toNat + (word s 0).toNat = u at *
    have e2 : Q % 2 ^ 64 = u * (2 ^ 64 - 1) % 2 ^ 64 := by
      rw [← hQ, hq', Nat.mod_mul_mod, Nat.mul_assoc, Nat.mul_mod, pNegInv_spec, Nat.mod_mul_mod]
    rw [Nat.add_mod, e1, e2, ← Nat.add_mod, show u + u * (2 ^ 64 - 1) = 2 ^ 64 * u by omega]
    exact Nat.mul_mod_right _ _
  have hv : val (r.1 ++ [D.1]) = val r.1 + 2 ^ (64 * 7) * D.1.toNat := by
    rw [val_append, c3]; simp [val]
  have hA0 := A.1.isLt
  have hDlt := D.1.isLt
  have htot : A.1.toNat + 2 ^ 64 * (val r.1 + 2 ^ (64 * 7) * D.1.toNat) + 2 ^ 576 * D.2.toNat = val s + X + Q + c0.toNat := by
    omega
  have hD2 : D.2.toNat = 0 := by omega
  have hlen : (r.1 ++ [D.1]).length = 8 := by rw [List.length_append, c3]; rfl
  have hfin : 2 ^ 64 * val (r.1 ++ [D.1]) = val s + X + Q := by rw [hv]; omega
  refine ⟨hlen, c2, ?_, q.toNat, by rw [hQ]; exact hfin⟩
  change val (r.1 ++ [D.1]) < _
  omega

theorem mulLoop_spec (y : Fp) (hy : y.length = 8) (vy : val y < 𝕡) : ∀ (xs : List W64) (s : Fp) (c : W64), s.length = 8 → val s < val y + 𝕡 →
    c.toNat ≤ 1 →
    (mulLoop y xs (s, c)).1.length = 8 ∧ (mulLoop y xs (s, c)).2.toNat ≤ 1 ∧ val (mulLoop y xs (s, c)).1 < val y + 𝕡 ∧
    ∃ q, 2 ^ (64 * xs.length) * val (mulLoop y xs (s, c)).1 = val s + val xs * val y + q * 𝕡
  | [], s, c, hs, vs, hc => ⟨hs, hc, vs, 0, by simp [mulLoop, val]⟩
  | xi :: xs, s, c, hs, vs, hc => by
    obtain ⟨h1, h2, h3, q, h4⟩ := mulRound_spec y s xi 0 hy hs vy vs (by decide)
    obtain ⟨i1, i2, i3, q', i4⟩ := mulLoop_spec y hy vy xs (mulRound y s xi 0).1 (mulRound y s xi 0).2 h1 h3 h2
    refine ⟨i1, i2, i3, q + 2 ^ 64 * q', ?_⟩
    simp only [mulLoop, val, List.length_cons]
    rw [show 64 * (xs.length + 1) = 64 + 64 * xs.length by omega, Nat.pow_add, Nat.mul_assoc, i4]
    linear_combination h4

/-- `mulGeneric` divides x·y by 2^512 modulo p; the result is below 2p. -/
theorem mulGeneric_spec (x y : Fp) (hx : x.length = 8) (hy : y.length = 8) (vy : val y < 𝕡) :
    (mulGeneric x y).length = 8 ∧ val (mulGeneric x y) < 2 * 𝕡 ∧ ∃ q, 2 ^ 512 * val (mulGeneric x y) = val x * val y + q * 𝕡 := by
  obtain ⟨e1, e2⟩ := eight'' hx
  have hp := p_bound
  obtain ⟨i1, i2, i3, q, i4⟩ := mulLoop_spec y hy vy (x.take 7) (List.replicate 8 0) 0 (List.length_replicate)
    (by rw [val_replicate_zero]; omega) (by decide)
  obtain ⟨h1, h2, h3, q', h4⟩ := mulRound_spec y _ (word x 7) _ hy i1 vy i3 i2
  refine ⟨h1, by change val (mulRound y _ (word x 7) _).1 < _; omega, q + 2 ^ (64 * 7) * q', ?_⟩
  change 2 ^ 512 * val (mulRound y _ (word x 7) _).1 = _
  have hv : val x = val (x.take 7) + 2 ^ (64 * 7) * (word x 7).toNat := by
    conv_lhs => rw [e1]
    rw [val_append, e2]; simp [val]
  rw [e2, val_replicate_zero] at i4
  rw [show 512 = 64 * 7 + 64 by rfl, Nat.pow_add, Nat.mul_assoc, h4, hv]
  generalize 2 ^ (64 * 7) = b at *
  linear_combination i4

theorem mulRdc_spec (x y : Fp) (hx : x.length = 8) (hy : y.length = 8) (vy : val y < 𝕡) :
    (mulRdc x y).length = 8 ∧ val (mulRdc x y) < 𝕡 ∧ (2 ^ 512 * val (mulRdc x y)) % 𝕡 = (val x * val y) % 𝕡 := by
  obtain ⟨h1, h2, q, h3⟩ := mulGeneric_spec x y hx hy vy
  obtain ⟨h4, h5⟩ := condSub_spec _ h1
  refine ⟨h4, condSub_lt _ h1 h2, ?_⟩
  have e : 2 ^ 512 * val (mulGeneric x y) % 𝕡 = val x * val y % 𝕡 := by rw [h3, Nat.add_mul_mod_self_right]
  rw [mulRdc, h5]
  split
  · exact e
  · rename_i h
    obtain ⟨d, hd⟩ := Nat.exists_eq_add_of_le (Nat.le_of_not_lt h)
    rw [← e, hd, Nat.add_sub_cancel_left, Nat.mul_add, Nat.add_comm, Nat.add_mul_mod_self_right]

theorem isLessLoop_spec : ∀ (x y : List W64), x.length = y.length → isLessLoop ((List.zip x y).reverse) = decide (val x < val y) := by
  intro x
  induction x using List.reverseRecOn with
  | nil => intro y h; rw [List.length_eq_zero_iff.mp h.symm]; rfl
  | append_singleton x a ih =>
    intro y h
    obtain ⟨y', b, rfl⟩ : ∃ y' b, y = y' ++ [b] := by
      rcases List.eq_nil_or_concat y with rfl | ⟨y', b, e⟩
      · simp at h
      · exact ⟨y', b, by simpa using e⟩
    have hl : x.length = y'.length := by simpa using h
    rw [List.zip_append hl, List.reverse_append]
    simp only [List.zip_cons_cons, List.zip_nil_right, List.reverse_cons, List.reverse_nil, List.nil_append, List.singleton_append]
    rw [isLessLoop, ih y' hl]
    have hx := val_lt x
    have hy := val_lt y'
    rw [hl] at hx
    have e1 : val (x ++ [a]) = val x + 2 ^ (64 * y'.length) * a.toNat := by rw [val_append, hl]; simp [val]
    have e2 : val (y' ++ [b]) = val y' + 2 ^ (64 * y'.length) * b.toNat := by rw [val_append]; simp [val]
    rw [e1, e2]
    generalize 2 ^ (64 * y'.length) = N at *
    obtain ⟨s1, s2⟩ := sub64_spec b a 0 (by decide)
    rw [tz] at s1
    have := (sub64 b a 0).1.isLt
    have := a.isLt
    have := b.isLt
    simp only
    rcases Nat.lt_trichotomy a.toNat b.toNat with hab | hab | hab
    · have h1 : (sub64 b a 0).2 = 0 := BitVec.eq_of_toNat_eq (by rw [tz]; omega)
      have h2 : (sub64 b a 0).1 ≠ 0 := by intro h; rw [h, h1, tz] at s1; omega
      rw [if_neg (fun h => h h1), if_pos h2]
      symm
      rw [decide_eq_true_iff]
      have : N * a.toNat + N ≤ N * b.toNat := by rw [← Nat.mul_succ]; exact Nat.mul_le_mul_left _ hab
      omega
    · have h1 : (sub64 b a 0).2 = 0 := BitVec.eq_of_toNat_eq (by rw [tz]; omega)
      have h2 : (sub64 b a 0).1 = 0 := BitVec.eq_of_toNat_eq (by rw [tz]; rw [h1, tz] at s1; omega)
      rw [if_neg (fun h => h h1), if_neg (fun h => h h2), hab]
      simp
    · have h1 : (sub64 b a 0).2 ≠ 0 := by intro h; rw [h, tz] at s1; omega
      rw [if_pos h1]
      symm
      rw [decide_eq_false_iff_not]
      have : N * b.toNat + N ≤ N * a.toNat := by rw [← Nat.mul_succ]; exact Nat.mul_le_mul_left _ hab
      omega

theorem isLess_spec (x y : Fp) (h : x.length = y.length) : isLess x y = true ↔ val x < val y := by
  rw [isLess, isLessLoop_spec x y h, decide_eq_true_iff]

theorem ctIsNonZero_spec (i : W64) : ctIsNonZero64 i = if i = 0 then 0 else 1 := by
  split
  · rename_i h; subst h; rfl
  · rename_i h
    rw [ctIsNonZero64]
    have h0 : i.toNat ≠ 0 := fun e => h (BitVec.eq_of_toNat_eq (by rw [e]; rfl))
    have hi := i.isLt
    have e : (i ||| ~~~(i - 1)).getLsbD 63 = true := by
      rw [BitVec.getLsbD_or, BitVec.getLsbD_not]
      by_cases hm : i.getLsbD 63 = true
      · rw [hm]; rfl
      · have hlt : i.toNat < 2 ^ 63 := by
          by_contra hc
          apply hm
          rw [BitVec.getLsbD, Nat.testBit_eq_decide_div_mod_eq, decide_eq_true_iff]
          omega
        have : (i - 1).getLsbD 63 = false := by
          rw [BitVec.getLsbD, BitVec.toNat_sub]
          apply Nat.testBit_lt_two_pow
          have : (1 : W64).toNat = 1 := rfl
          rw [this]; omega
        rw [this]; simp
    have : (i ||| ~~~(i - 1)) >>> 63 = 1 := by
      apply BitVec.eq_of_getLsbD_eq
      intro j hj
      rw [BitVec.getLsbD_ushiftRight]
      cases j with
      | zero => rw [Nat.add_zero, e]; rfl
      | succ j => rw [BitVec.getLsbD_of_ge _ _ (by omega)]; simp [BitVec.getLsbD_one]
    rw [this]; rfl

theorem foldl_or_zero : ∀ (l : List W64) (a : W64), l.foldl (· ||| ·) a = 0 ↔ a = 0 ∧ ∀ w ∈ l, w = 0
  | [], a => by simp
  | w :: ws, a => by
    rw [List.foldl_cons, foldl_or_zero ws, List.forall_mem_cons, ← and_assoc, show (a ||| w = 0 ↔ a = 0 ∧ w = 0) from BitVec.or_eq_zero_iff]

theorem isZero_spec (v : Fp) : isZero v = true ↔ val v = 0 := by
  have : (v.foldl (· ||| ·) 0 = (0 : W64)) ↔ val v = 0 := by
    rw [foldl_or_zero]
    simp only [true_and]
    induction v with
    | nil => simp [val]
    | cons w ws ih =>
      rw [List.forall_mem_cons, ih, val]
      constructor
      · rintro ⟨h1, h2⟩; rw [h1, h2]; rfl
      · intro h
        exact ⟨BitVec.eq_of_toNat_eq (by rw [tz]; omega), by omega⟩
  rw [isZero, ctIsNonZero_spec, decide_eq_true_iff, ← this]
  split <;> simp_all

theorem xor_fold (v w : Fp) (h : v.length = w.length) : ((List.zipWith (· ^^^ ·) v w).foldl (· ||| ·) 0 = (0 : W64)) ↔ v = w := by
  rw [foldl_or_zero]
  simp only [true_and]
  induction v generalizing w with
  | nil => rw [List.length_eq_zero_iff.mp h.symm]; simp
  | cons a v ih =>
    cases w with
    | nil => simp at h
    | cons b w =>
      rw [List.zipWith_cons_cons, List.forall_mem_cons, ih w (by simpa using h), show (a ^^^ b = 0 ↔ a = b) from BitVec.xor_eq_zero_iff]
      simp

theorem equal_spec (v w : Fp) (h : v.length = w.length) : equal v w = true ↔ val v = val w := by
  rw [equal, ctIsNonZero_spec, decide_eq_true_iff]
  rw [show (val v = val w) = (v = w) from propext ⟨fun e => val_inj h e, fun e => by rw [e]⟩, ← xor_fold v w h]
  split <;> simp_all

theorem cswap512_spec (x y : Fp) (h : x.length = y.length) : cswap512 x y 0 = (x, y) ∧ cswap512 x y 1 = (y, x) := by
  constructor
  · exact cswapWords_zero x y
  · exact cswapWords_ones x y h

end Lemmas.CsidhArith
