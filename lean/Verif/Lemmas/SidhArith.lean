import Verif.Model.SidhArith
import Verif.Lemmas.Limb
/-! The word-level arithmetic of the SIDH fields computes the numbers it should. -/
namespace Lemmas.SidhArith
open Model Model.Limb Model.Sidh Spec Lemmas.Limb

/-- What the proofs need of the constants of a field package. -/
structure Good (P : Prime) : Prop where
  npos : 0 < P.n
  nle : P.n ≤ 1000
  lp : P.p.length = P.n
  lpx2 : P.px2.length = P.n
  lp1 : P.p1.length = P.n
  vpx2 : val P.px2 = 2 * val P.p
  vp1 : val P.p1 = val P.p + 1
  small : 4 * val P.p ≤ 2 ^ (64 * P.n)
  ppos : 0 < val P.p
  zpos : 0 < P.p1Zeros
  zle : P.p1Zeros ≤ P.n
  zeros : ∀ i, i < P.p1Zeros → word P.p1 i = 0

variable {P : Prime}

/-- Subtract with borrow, then add the modulus back when it borrowed. -/
theorem sub_addback (x m y : List W64) (hm : x.length = m.length) (hy : x.length = y.length) (hv : val m ≤ 2 ^ (64 * x.length)) :
    let z := (addLoop (subLoop x y 0).1 (maskWords m (0 - (subLoop x y 0).2)) 0).1
    (val x < val y → val y ≤ val x + val m → val z = val x + val m - val y) ∧ (val y ≤ val x → val z = val x - val y) ∧
      z.length = x.length := by
  obtain ⟨h1, h2, h3⟩ := subLoop_borrow x y hy
  intro z
  have hl : (subLoop x y 0).1.length = (maskWords m (0 - (subLoop x y 0).2)).length := by
    rw [maskWords_length, h3, hm]
  obtain ⟨hz, hzl⟩ := addLoop_mod _ _ hl
  refine ⟨fun h h' => ?_, fun h => ?_, by rw [hzl, h3]⟩
  · obtain ⟨hb, he⟩ := h1 h
    have hz' : val z = (val (subLoop x y 0).1 + val (maskWords m (0 - (subLoop x y 0).2))) % 2 ^ (64 * (subLoop x y 0).1.length) := hz
    rw [hb, maskWords_ones, h3] at hz'
    have hy' := val_lt y
    rw [← hy] at hy'
    have he' : val (subLoop x y 0).1 + val m = (val x + val m - val y) + 2 ^ (64 * x.length) := by omega
    rw [hz', he', Nat.add_mod_right, Nat.mod_eq_of_lt]
    omega
  · obtain ⟨hb, he⟩ := h2 h
    have hz' : val z = (val (subLoop x y 0).1 + val (maskWords m (0 - (subLoop x y 0).2))) % 2 ^ (64 * (subLoop x y 0).1.length) := hz
    rw [hb, show (0 - 0 : W64) = 0 from rfl, maskWords_zero, val_replicate_zero, Nat.add_zero, h3, Nat.mod_eq_of_lt] at hz'
    · omega
    · have := val_lt (subLoop x y 0).1
      rwa [h3] at this

theorem addP_spec (g : Good P) (x y : List W64) (lx : x.length = P.n) (ly : y.length = P.n)
    (hx : val x < 2 * val P.p) (hy : val y < 2 * val P.p) :
    val (addP P x y) = (val x + val y) % (2 * val P.p) ∧ (addP P x y).length = P.n := by
  obtain ⟨h1, h2⟩ := addLoop_mod x y (by omega)
  have hs := g.small
  rw [lx, Nat.mod_eq_of_lt (by omega)] at h1
  rw [lx] at h2
  have hb := g.vpx2
  obtain ⟨a1, a2, a3⟩ := sub_addback (addLoop x y 0).1 P.px2 P.px2 (by rw [h2, g.lpx2]) (by rw [h2, g.lpx2]) (by rw [h2, hb]; omega)
  have hd : addP P x y = (addLoop (subLoop (addLoop x y 0).1 P.px2 0).1 (maskWords P.px2 (0 - (subLoop (addLoop x y 0).1 P.px2 0).2)) 0).1 := rfl
  rw [hd]
  refine ⟨?_, by rw [a3, h2]⟩
  rcases Nat.lt_or_ge (val x + val y) (2 * val P.p) with h | h
  · rw [a1 (by omega) (by omega), h1, Nat.mod_eq_of_lt h]; omega
  · rw [a2 (by omega), h1, hb, Nat.mod_eq_sub_mod h, Nat.mod_eq_of_lt (by omega)]

theorem subP_spec (g : Good P) (x y : List W64) (lx : x.length = P.n) (ly : y.length = P.n)
    (hx : val x < 2 * val P.p) (hy : val y < 2 * val P.p) :
    val (subP P x y) = (val x + 2 * val P.p - val y) % (2 * val P.p) ∧ (subP P x y).length = P.n := by
  have hs := g.small
  have hb := g.vpx2
  obtain ⟨a1, a2, a3⟩ := sub_addback x P.px2 y (by rw [lx, g.lpx2]) (by rw [lx, ly]) (by rw [lx, hb]; omega)
  have hd : subP P x y = (addLoop (subLoop x y 0).1 (maskWords P.px2 (0 - (subLoop x y 0).2)) 0).1 := rfl
  rw [hd]
  refine ⟨?_, by rw [a3, lx]⟩
  rcases Nat.lt_or_ge (val x) (val y) with h | h
  · rw [a1 h (by omega), hb, Nat.mod_eq_of_lt (by omega)]
  · rw [a2 h, show val x + 2 * val P.p - val y = (val x - val y) + 2 * val P.p by omega, Nat.add_mod_right, Nat.mod_eq_of_lt (by omega)]

theorem modP_spec (g : Good P) (x : List W64) (lx : x.length = P.n) (hx : val x < 2 * val P.p) :
    val (modP P x) = val x % val P.p ∧ (modP P x).length = P.n := by
  have hs := g.small
  obtain ⟨a1, a2, a3⟩ := sub_addback x P.p P.p (by rw [lx, g.lp]) (by rw [lx, g.lp]) (by rw [lx]; omega)
  have hd : modP P x = (addLoop (subLoop x P.p 0).1 (maskWords P.p (0 - (subLoop x P.p 0).2)) 0).1 := rfl
  rw [hd]
  refine ⟨?_, by rw [a3, lx]⟩
  rcases Nat.lt_or_ge (val x) (val P.p) with h | h
  · rw [a1 h (by omega), Nat.mod_eq_of_lt h]; omega
  · rw [a2 h, Nat.mod_eq_sub_mod h, Nat.mod_eq_of_lt (by omega)]

theorem adlP_spec (x y : List W64) (hl : x.length = y.length) (h : val x + val y < 2 ^ (64 * x.length)) :
    val (adlP x y) = val x + val y ∧ (adlP x y).length = x.length := by
  obtain ⟨h1, h2⟩ := addLoop_mod x y hl
  rw [Nat.mod_eq_of_lt h] at h1
  exact ⟨h1, h2⟩

theorem val_split (x : List W64) (n : Nat) (h : n ≤ x.length) :
    val x = val (x.take n) + 2 ^ (64 * n) * val (x.drop n) := by
  conv_lhs => rw [← List.take_append_drop n x]
  rw [val_append, List.length_take, Nat.min_eq_left h]

/-- Subtract; when it borrows add p·2^(64 n). -/
theorem sulP_spec (g : Good P) (x y : List W64) (lx : x.length = 2 * P.n) (ly : y.length = 2 * P.n)
    (hy : val y ≤ val P.p * 2 ^ (64 * P.n)) :
    val (sulP P x y) = (if val x < val y then val x + val P.p * 2 ^ (64 * P.n) - val y else val x - val y) ∧
    (sulP P x y).length = 2 * P.n := by
  obtain ⟨h1, h2, h3⟩ := subLoop_borrow x y (by omega)
  have hR : 2 ^ (64 * (2 * P.n)) = 2 ^ (64 * P.n) * 2 ^ (64 * P.n) := by rw [← Nat.pow_add]; congr 1; omega
  have hs := g.small
  have hz := val_split (subLoop x y 0).1 P.n (by rw [h3, lx]; omega)
  have hlo := val_lt ((subLoop x y 0).1.take P.n)
  have ll : ((subLoop x y 0).1.take P.n).length = P.n := by rw [List.length_take, h3, lx]; omega
  have lh : ((subLoop x y 0).1.drop P.n).length = P.n := by rw [List.length_drop, h3, lx]; omega
  have hhi := val_lt ((subLoop x y 0).1.drop P.n)
  rw [ll] at hlo
  rw [lh] at hhi
  obtain ⟨a1, a2⟩ := addLoop_mod ((subLoop x y 0).1.drop P.n) (maskWords P.p (0 - (subLoop x y 0).2)) (by rw [lh, maskWords_length, g.lp])
  rw [lh] at a1 a2
  have hd : sulP P x y = (subLoop x y 0).1.take P.n ++ (addLoop ((subLoop x y 0).1.drop P.n) (maskWords P.p (0 - (subLoop x y 0).2)) 0).1 := rfl
  rw [hd]
  refine ⟨?_, by rw [List.length_append, ll, a2]; omega⟩
  rw [val_append, ll, a1]
  generalize hRd : 2 ^ (64 * P.n) = R at *
  have hRpos : 0 < R := by omega
  rw [lx, hR] at h1
  split
  · rename_i h
    obtain ⟨hb, he⟩ := h1 h
    rw [hb, maskWords_ones]
    generalize val (List.take P.n (subLoop x y 0).1) = lo at *
    generalize val (List.drop P.n (subLoop x y 0).1) = hi at *
    generalize val (subLoop x y 0).1 = z at *
    generalize val P.p = p at *
    have hge : R ≤ hi + p := by
      by_contra hc
      have : hi + p + 1 ≤ R := by omega
      nlinarith
    have : (hi + p) % R = hi + p - R := by
      rw [Nat.mod_eq_sub_mod hge, Nat.mod_eq_of_lt (by omega)]
    rw [this, Nat.mul_sub, Nat.mul_add, Nat.mul_comm p R]
    have : R * R ≤ R * hi + R * p := by rw [← Nat.mul_add]; exact Nat.mul_le_mul_left _ hge
    omega
  · rename_i h
    obtain ⟨hb, he⟩ := h2 (by omega)
    rw [hb, show (0 - 0 : W64) = 0 from rfl, maskWords_zero, val_replicate_zero, Nat.add_zero, Nat.mod_eq_of_lt hhi]
    omega

theorem cswapP_spec (x y : List W64) (hl : x.length = y.length) : cswapP x y 0 = (x, y) ∧ cswapP x y 1 = (y, x) :=
  ⟨cswapWords_zero x y, cswapWords_ones x y hl⟩

/-! ### Multiplication -/

theorem forJ_length (a b : Nat) : (forJ a b).length = b - a := by rw [forJ, List.length_range']

theorem mulLow_spec (x y : List W64) (n : Nat) (hn : n ≤ 1000) (lx : x.length = n) (ly : y.length = n) (k : Nat) :
    ∀ (s : Acc) (i : Nat), i + k = n → aval s < 2 ^ 128 * 2000 →
    val (mulLow x y s i k).1 + B ^ k * aval (mulLow x y s i k).2 = aval s + ∑ t ∈ Finset.range k, col x y (i + t) * B ^ t ∧
    (mulLow x y s i k).1.length = k ∧ aval (mulLow x y s i k).2 < 2 ^ 128 * 2000 := by
  induction k with
  | zero => intro s i _ hs; exact ⟨by simp [mulLow, val], rfl, hs⟩
  | succ k ih =>
    intro s i hi hs
    have hc := col_lt x y i n (by omega)
    have hm : aval (macCol x y i (forJ 0 (i + 1)) s) = aval s + col x y i :=
      macCol_col x y i _ s (by rw [forJ_length]; omega) (nodup_forJ _ _) (fun j hj => by rw [mem_forJ] at hj; omega)
        (fun j hj hj' => absurd ((mem_forJ _ _ _).mpr ⟨by omega, by omega⟩) hj')
    obtain ⟨s1, s2⟩ := shift_spec (macCol x y i (forJ 0 (i + 1)) s)
    obtain ⟨i1, i2, i3⟩ := ih (macCol x y i (forJ 0 (i + 1)) s).shift (i + 1) (by omega) (by omega)
    simp only [mulLow, val, List.length_cons, i2]
    refine ⟨?_, trivial, i3⟩
    rw [Finset.sum_range_succ', Nat.add_zero, pow_zero, Nat.mul_one]
    have hsum : ∑ t ∈ Finset.range k, col x y (i + (t + 1)) * B ^ (t + 1) = B * ∑ t ∈ Finset.range k, col x y (i + 1 + t) * B ^ t := by
      rw [Finset.mul_sum]
      apply Finset.sum_congr rfl
      intro t _
      rw [show i + (t + 1) = i + 1 + t by omega, pow_succ]; ring
    rw [hsum, pow_succ B k, show B ^ k * B * aval (mulLow x y (macCol x y i (forJ 0 (i + 1)) s).shift (i + 1) k).2 =
      B * (B ^ k * aval (mulLow x y (macCol x y i (forJ 0 (i + 1)) s).shift (i + 1) k).2) by ring]
    rw [hm] at s1
    have := congrArg (B * ·) i1
    simp only [Nat.mul_add] at this
    rw [show (2 : Nat) ^ 64 = B from rfl] at *
    rw [show col x y (i + 0) = col x y i from rfl]
    linarith

theorem mulHigh_spec (x y : List W64) (n : Nat) (hP : P.n = n) (hn : n ≤ 1000) (lx : x.length = n) (ly : y.length = n) (k : Nat) :
    ∀ (s : Acc) (i : Nat), n ≤ i → aval s < 2 ^ 128 * 2000 →
    val (mulHigh P x y s i k).1 + B ^ k * aval (mulHigh P x y s i k).2 = aval s + ∑ t ∈ Finset.range k, col x y (i + t) * B ^ t ∧
    (mulHigh P x y s i k).1.length = k ∧ aval (mulHigh P x y s i k).2 < 2 ^ 128 * 2000 := by
  induction k with
  | zero => intro s i _ hs; exact ⟨by simp [mulHigh, val], rfl, hs⟩
  | succ k ih =>
    intro s i hi hs
    have hc := col_lt x y i n (by omega)
    have hm : aval (macCol x y i (forJ (i - P.n + 1) P.n) s) = aval s + col x y i := by
      apply macCol_col x y i _ s (by rw [forJ_length]; omega) (nodup_forJ _ _) (fun j hj => by rw [mem_forJ] at hj; omega)
      intro j hj hj'
      rw [mem_forJ] at hj'
      rcases Nat.lt_or_ge j n with h | h
      · exact Or.inr (word_ge (by omega))
      · exact Or.inl (word_ge (by omega))
    obtain ⟨s1, s2⟩ := shift_spec (macCol x y i (forJ (i - P.n + 1) P.n) s)
    obtain ⟨i1, i2, i3⟩ := ih (macCol x y i (forJ (i - P.n + 1) P.n) s).shift (i + 1) (by omega) (by omega)
    simp only [mulHigh, val, List.length_cons, i2]
    refine ⟨?_, trivial, i3⟩
    rw [Finset.sum_range_succ', Nat.add_zero, pow_zero, Nat.mul_one]
    have hsum : ∑ t ∈ Finset.range k, col x y (i + (t + 1)) * B ^ (t + 1) = B * ∑ t ∈ Finset.range k, col x y (i + 1 + t) * B ^ t := by
      rw [Finset.mul_sum]
      apply Finset.sum_congr rfl
      intro t _
      rw [show i + (t + 1) = i + 1 + t by omega, pow_succ]; ring
    rw [hsum, pow_succ B k, show B ^ k * B * aval (mulHigh P x y (macCol x y i (forJ (i - P.n + 1) P.n) s).shift (i + 1) k).2 =
      B * (B ^ k * aval (mulHigh P x y (macCol x y i (forJ (i - P.n + 1) P.n) s).shift (i + 1) k).2) by ring]
    rw [hm] at s1
    have := congrArg (B * ·) i1
    simp only [Nat.mul_add] at this
    rw [show (2 : Nat) ^ 64 = B from rfl] at *
    rw [show col x y (i + 0) = col x y i from rfl]
    linarith

theorem mulW_spec (g : Good P) (x y : List W64) (lx : x.length = P.n) (ly : y.length = P.n) :
    val (mulW P x y) = val x * val y ∧ (mulW P x y).length = 2 * P.n := by
  have hn := g.nle
  have h0 := g.npos
  obtain ⟨l1, l2, l3⟩ := mulLow_spec x y P.n hn lx ly P.n ⟨0, 0, 0⟩ 0 (by omega) (by decide)
  obtain ⟨h1, h2, h3⟩ := mulHigh_spec x y P.n rfl hn lx ly (P.n - 1) (mulLow x y ⟨0, 0, 0⟩ 0 P.n).2 P.n (by omega) l3
  have hd : mulW P x y = (mulLow x y ⟨0, 0, 0⟩ 0 P.n).1 ++ (mulHigh P x y (mulLow x y ⟨0, 0, 0⟩ 0 P.n).2 P.n (P.n - 1)).1 ++
    [(mulHigh P x y (mulLow x y ⟨0, 0, 0⟩ 0 P.n).2 P.n (P.n - 1)).2.v] := rfl
  refine ⟨?_, by rw [hd, List.length_append, List.length_append, l2, h2]; simp; omega⟩
  rw [hd]
  generalize (mulLow x y ⟨0, 0, 0⟩ 0 P.n) = L at *
  generalize (mulHigh P x y L.2 P.n (P.n - 1)) = H at *
  have hprod := val_mul_cols x y P.n lx ly
  have hxy : val x * val y < B ^ P.n * B ^ P.n := by
    have a := val_lt x
    have b := val_lt y
    rw [lx, Nat.pow_mul] at a
    rw [ly, Nat.pow_mul] at b
    exact Nat.mul_lt_mul'' a b
  have hz : col x y (2 * P.n - 1) = 0 := by
    rw [col]
    apply Finset.sum_eq_zero
    intro j hj
    rcases Nat.lt_or_ge j P.n with h | h
    · rw [word_ge (x := y) (by omega), tz, Nat.mul_zero]
    · rw [word_ge (x := x) (by omega), tz, Nat.zero_mul]
  have hsplit : ∑ i ∈ Finset.range (2 * P.n), col x y i * B ^ i =
      (∑ i ∈ Finset.range P.n, col x y i * B ^ i) + B ^ P.n * ∑ i ∈ Finset.range (P.n - 1), col x y (P.n + i) * B ^ i := by
    rw [show 2 * P.n = (P.n + (P.n - 1)) + 1 by omega, Finset.sum_range_succ, show P.n + (P.n - 1) = 2 * P.n - 1 by omega, hz, Nat.zero_mul,
      Nat.add_zero, show 2 * P.n - 1 = P.n + (P.n - 1) by omega, Finset.sum_range_add, Finset.mul_sum]
    congr 1
    apply Finset.sum_congr rfl
    intro t _
    rw [pow_add]; ring
  simp only [Nat.zero_add] at l1
  have z0 : aval ⟨0, 0, 0⟩ = 0 := by decide
  rw [z0, Nat.zero_add] at l1
  have hall : val x * val y = val L.1 + B ^ P.n * (val H.1 + B ^ (P.n - 1) * aval H.2) := by
    rw [hprod, hsplit, h1, ← l1]; ring
  have hb : aval H.2 < B := by
    by_contra hc
    have : B ≤ aval H.2 := by omega
    have h4 : B ^ P.n = B ^ (P.n - 1) * B := by rw [← pow_succ]; congr 1; omega
    have h5 : B ^ P.n ≤ B ^ (P.n - 1) * aval H.2 := by rw [h4]; exact Nat.mul_le_mul_left _ this
    have h6 : B ^ P.n * B ^ P.n ≤ B ^ P.n * (val H.1 + B ^ (P.n - 1) * aval H.2) := Nat.mul_le_mul_left _ (by omega)
    omega
  have hv : aval H.2 = H.2.v.toNat := by
    rw [aval] at hb ⊢
    have : B = 2 ^ 64 := rfl
    omega
  rw [List.append_assoc, val_append, val_append, l2, h2, hall, hv, Nat.pow_mul, Nat.pow_mul, val, val, Nat.mul_zero, Nat.add_zero]

/-! ### Montgomery reduction -/

theorem word_append_lt (z : List W64) (v : W64) (j : Nat) (h : j < z.length) : word (z ++ [v]) j = word z j := by
  simp [word, List.getElem?_append_left h]

theorem col_append (g : Good P) (z : List W64) (v : W64) (i : Nat) (h : i ≤ z.length) : col (z ++ [v]) P.p1 i = col z P.p1 i := by
  rw [col, col]
  apply Finset.sum_congr rfl
  intro j hj
  have : j < i + 1 := by simpa using hj
  rcases Nat.lt_or_ge j z.length with h' | h'
  · rw [word_append_lt z v j h']
  · rw [show i - j = 0 by omega, g.zeros 0 g.zpos, tz, Nat.mul_zero, Nat.mul_zero]

theorem rdcLow_spec (g : Good P) (x : List W64) (k : Nat) :
    ∀ (z : List W64) (s : Acc) (i : Nat), z.length = i → i + k = P.n → aval s < 2 ^ 128 * 2000 →
    val z + B ^ i * aval s = ∑ t ∈ Finset.range i, (col z P.p1 t + (word x t).toNat) * B ^ t →
    let r := rdcLow P x z s i k
    r.1.length = P.n ∧ aval r.2 < 2 ^ 128 * 2000 ∧
      val r.1 + B ^ P.n * aval r.2 = ∑ t ∈ Finset.range P.n, (col r.1 P.p1 t + (word x t).toNat) * B ^ t := by
  induction k with
  | zero =>
    intro z s i hz hi hs hv
    simp only [rdcLow]
    rw [Nat.add_zero] at hi
    subst hi
    exact ⟨hz, hs, hv⟩
  | succ k ih =>
    intro z s i hz hi hs hv
    have hn := g.nle
    have hc := col_lt z P.p1 i P.n (by omega)
    have hm : aval (macCol z P.p1 i ((forJ 0 i).filter fun j => j + P.p1Zeros < i + 1) s) = aval s + col z P.p1 i := by
      apply macCol_col
      · have := List.length_filter_le (fun j => decide (j + P.p1Zeros < i + 1)) (forJ 0 i)
        rw [forJ_length] at this
        omega
      · exact (nodup_forJ _ _).filter _
      · intro j hj
        rw [List.mem_filter, mem_forJ] at hj
        omega
      · intro j hj hj'
        rw [List.mem_filter, mem_forJ] at hj'
        apply Or.inr
        apply g.zeros
        rw [decide_eq_true_eq] at hj'
        have := g.zpos
        omega
    have hx := word_lt x i
    have ha : aval ((macCol z P.p1 i ((forJ 0 i).filter fun j => j + P.p1Zeros < i + 1) s).addw (word x i)) = aval s + col z P.p1 i + (word x i).toNat := by
      rw [addw_spec _ _ (by rw [hm]; omega), hm]
    obtain ⟨s1, s2⟩ := shift_spec ((macCol z P.p1 i ((forJ 0 i).filter fun j => j + P.p1Zeros < i + 1) s).addw (word x i))
    simp only [rdcLow]
    generalize ((macCol z P.p1 i ((forJ 0 i).filter fun j => j + P.p1Zeros < i + 1) s).addw (word x i)) = s' at *
    apply ih
    · simp [hz]
    · omega
    · omega
    · rw [Finset.sum_range_succ, col_append g z _ i (by omega)]
      have : ∑ t ∈ Finset.range i, (col (z ++ [s'.v]) P.p1 t + (word x t).toNat) * B ^ t = ∑ t ∈ Finset.range i, (col z P.p1 t + (word x t).toNat) * B ^ t := by
        apply Finset.sum_congr rfl
        intro t ht
        have : t < i := by simpa using ht
        rw [col_append g z _ t (by omega)]
      rw [this, ← hv, val_append, hz, Nat.pow_mul, val, val, pow_succ B i]
      rw [ha] at s1
      have e := congrArg (B ^ i * ·) s1
      simp only [Nat.mul_add] at e
      rw [show (2 : Nat) ^ 64 = B from rfl] at *
      generalize B ^ i = M at *
      linarith

theorem word_set_ne (z : List W64) (v : W64) (a j : Nat) (h : a ≠ j) : word (z.set a v) j = word z j := by
  simp [word, List.getElem?_set_ne h]

theorem take_set_succ (z : List W64) (v : W64) (a : Nat) (h : a < z.length) : (z.set a v).take (a + 1) = z.take a ++ [v] := by
  rw [List.take_succ, List.take_set_of_le (Nat.le_refl a), List.getElem?_set_self h]
  rfl

/-- The columns of the upper half only read words not yet overwritten. -/
theorem col_high (q z : List W64) (i : Nat) (hq : q.length = P.n) (hz : z.length = P.n) (g : Good P) (hi : P.n ≤ i)
    (h : ∀ j, i - P.n < j → word z j = word q j) : ∀ j, j ≤ i → (word z j).toNat * (word P.p1 (i - j)).toNat = (word q j).toNat * (word P.p1 (i - j)).toNat := by
  intro j hj
  rcases Nat.lt_or_ge (i - P.n) j with h' | h'
  · rw [h j h']
  · rw [word_ge (x := P.p1) (by rw [g.lp1]; omega), tz, Nat.mul_zero, Nat.mul_zero]

theorem rdcHigh_spec (g : Good P) (x q : List W64) (hq : q.length = P.n) (k : Nat) :
    ∀ (z : List W64) (s : Acc) (count i : Nat), z.length = P.n → P.n ≤ i → i + k = 2 * P.n - 1 →
    aval s < 2 ^ 128 * 2000 → count = P.p1Zeros - (i - P.n) → (∀ j, i - P.n ≤ j → word z j = word q j) →
    let r := rdcHigh P x z s count i k
    r.1.length = P.n ∧ aval r.2 < 2 ^ 128 * 2000 ∧
      val (r.1.take (P.n - 1)) + B ^ (P.n - 1) * aval r.2 = val (z.take (i - P.n)) + B ^ (i - P.n) * aval s +
        ∑ t ∈ Finset.range k, (col q P.p1 (i + t) + (word x (i + t)).toNat) * B ^ (i - P.n + t) := by
  induction k with
  | zero =>
    intro z s count i hz hi hk hs _ _
    simp only [rdcHigh, Finset.range_zero, Finset.sum_empty, Nat.add_zero]
    rw [show i - P.n = P.n - 1 by omega]
    exact ⟨hz, hs, rfl⟩
  | succ k ih =>
    intro z s count i hz hi hk hs hcount hw
    have hn := g.nle
    have hzl := g.zle
    have hzp := g.zpos
    have hcol : col z P.p1 i = col q P.p1 i := by
      rw [col, col]
      apply Finset.sum_congr rfl
      intro j hj
      exact col_high q z i hq hz g hi (fun j h => hw j (by omega)) j (by have : j < i + 1 := by simpa using hj
                                                                         omega)
    have hc := col_lt z P.p1 i P.n (by omega)
    have hc' : (if 0 < count then count - 1 else count) = P.p1Zeros - (i + 1 - P.n) := by
      split <;> omega
    simp only [rdcHigh]
    rw [hc']
    have hm : aval (macCol z P.p1 i ((forJ (i - P.n + 1) P.n).filter fun j => j < P.n - (P.p1Zeros - (i + 1 - P.n))) s) = aval s + col q P.p1 i := by
      rw [← hcol]
      apply macCol_col
      · have := List.length_filter_le (fun j => decide (j < P.n - (P.p1Zeros - (i + 1 - P.n)))) (forJ (i - P.n + 1) P.n)
        rw [forJ_length] at this
        omega
      · exact (nodup_forJ _ _).filter _
      · intro j hj
        rw [List.mem_filter, mem_forJ] at hj
        omega
      · intro j hj hj'
        rw [List.mem_filter, mem_forJ, decide_eq_true_eq] at hj'
        rcases Nat.lt_or_ge j P.n with h | h
        · apply Or.inr
          rcases Nat.lt_or_ge (i - j) P.p1Zeros with h' | h'
          · exact g.zeros _ h'
          · apply word_ge
            rw [g.lp1]
            omega
        · exact Or.inl (word_ge (by omega))
    have hx := word_lt x i
    generalize hsm : macCol z P.p1 i ((forJ (i - P.n + 1) P.n).filter fun j => j < P.n - (P.p1Zeros - (i + 1 - P.n))) s = sm at *
    have ha : aval (sm.addw (word x i)) = aval s + col q P.p1 i + (word x i).toNat := by
      rw [addw_spec _ _ (by rw [hm]; omega), hm]
    obtain ⟨s1, s2⟩ := shift_spec (sm.addw (word x i))
    generalize sm.addw (word x i) = s' at *
    obtain ⟨r1, r2, r3⟩ := ih (z.set (i - P.n) s'.v) s'.shift (P.p1Zeros - (i + 1 - P.n)) (i + 1) (by rw [List.length_set, hz]) (by omega) (by omega) (by omega) rfl
      (by intro j hj; rw [word_set_ne _ _ _ _ (by omega)]; exact hw j (by omega))
    refine ⟨r1, r2, ?_⟩
    rw [r3, show i + 1 - P.n = (i - P.n) + 1 by omega, take_set_succ _ _ _ (by omega), val_append, List.length_take, hz,
      Nat.min_eq_left (by omega), Nat.pow_mul, val, val, Finset.sum_range_succ']
    rw [ha] at s1
    have e := congrArg (B ^ (i - P.n) * ·) s1
    simp only [Nat.mul_add] at e
    have hsum : ∑ t ∈ Finset.range k, (col q P.p1 (i + 1 + t) + (word x (i + 1 + t)).toNat) * B ^ (i - P.n + 1 + t) =
        ∑ t ∈ Finset.range k, (col q P.p1 (i + (t + 1)) + (word x (i + (t + 1))).toNat) * B ^ (i - P.n + (t + 1)) := by
      apply Finset.sum_congr rfl
      intro t _
      rw [show i + 1 + t = i + (t + 1) by omega, show i - P.n + 1 + t = i - P.n + (t + 1) by omega]
    rw [hsum]
    simp only [Nat.add_zero]
    rw [show (2 : Nat) ^ 64 = B from rfl] at *
    rw [pow_succ]
    linarith

/-- The reduction, for every input: the words below the last and the last word before it is cut to 64 bits. -/
theorem rdcP_core (g : Good P) (x : List W64) (lx : x.length = 2 * P.n) :
    ∃ q a s, q < 2 ^ (64 * P.n) ∧ B ^ P.n * (a + B ^ (P.n - 1) * s) = val x + q * val P.p ∧
      val (rdcP P x) = a + B ^ (P.n - 1) * (s % B) ∧ (rdcP P x).length = P.n := by
  have hn := g.nle
  have h0 := g.npos
  obtain ⟨l1, l2, l3⟩ := rdcLow_spec g x P.n [] ⟨0, 0, 0⟩ 0 rfl (by omega) (by decide) (by simp [val, aval])
  generalize hL : rdcLow P x [] ⟨0, 0, 0⟩ 0 P.n = L at *
  obtain ⟨h1, h2, h3⟩ := rdcHigh_spec g x L.1 l1 (P.n - 1) L.1 L.2 P.p1Zeros P.n l1 (by omega) (by omega) l2 (by omega) (fun j _ => rfl)
  generalize hH : rdcHigh P x L.1 L.2 P.p1Zeros P.n (P.n - 1) = H at *
  have hd : rdcP P x = H.1.set (P.n - 1) (add64 H.2.v (word x (2 * P.n - 1)) 0).1 := by
    rw [← hH, ← hL]; rfl
  have hq : val L.1 < 2 ^ (64 * P.n) := by have := val_lt L.1; rwa [l1] at this
  have hR : 2 ^ (64 * P.n) = B ^ P.n := Nat.pow_mul _ _ _
  have hprod := val_mul_cols L.1 P.p1 P.n l1 g.lp1
  have hxs := val_eq_sum x (2 * P.n) (by omega)
  have hz : col L.1 P.p1 (2 * P.n - 1) = 0 := by
    rw [col]
    apply Finset.sum_eq_zero
    intro j hj
    rcases Nat.lt_or_ge j P.n with h | h
    · rw [word_ge (x := P.p1) (by rw [g.lp1]; omega), tz, Nat.mul_zero]
    · rw [word_ge (x := L.1) (by omega), tz, Nat.zero_mul]
  have hsplit : val L.1 * val P.p1 + val x = val L.1 + B ^ P.n * (val (H.1.take (P.n - 1)) + B ^ (P.n - 1) * (aval H.2 + (word x (2 * P.n - 1)).toNat)) := by
    rw [hprod, hxs, ← Finset.sum_add_distrib]
    rw [show 2 * P.n = (P.n + (P.n - 1)) + 1 by omega, Finset.sum_range_succ, show P.n + (P.n - 1) = 2 * P.n - 1 by omega, hz, Nat.zero_mul,
      Nat.zero_add, show 2 * P.n - 1 = P.n + (P.n - 1) by omega, Finset.sum_range_add]
    have e1 : ∑ t ∈ Finset.range P.n, (col L.1 P.p1 t * B ^ t + (word x t).toNat * B ^ t) = val L.1 + B ^ P.n * aval L.2 := by
      rw [l3]
      apply Finset.sum_congr rfl
      intro t _
      ring
    have e2 : ∑ t ∈ Finset.range (P.n - 1), (col L.1 P.p1 (P.n + t) * B ^ (P.n + t) + (word x (P.n + t)).toNat * B ^ (P.n + t)) =
        B ^ P.n * ∑ t ∈ Finset.range (P.n - 1), (col L.1 P.p1 (P.n + t) + (word x (P.n + t)).toNat) * B ^ (P.n - P.n + t) := by
      rw [Finset.mul_sum]
      apply Finset.sum_congr rfl
      intro t _
      rw [Nat.sub_self, Nat.zero_add, pow_add]; ring
    rw [e1, e2]
    rw [Nat.sub_self, List.take_zero, val, Nat.pow_zero, Nat.one_mul, Nat.zero_add] at h3
    have := congrArg (B ^ P.n * ·) h3
    simp only [Nat.mul_add, pow_add, Nat.sub_self, Nat.zero_add, Nat.add_sub_cancel] at this ⊢
    linarith
  have heq : B ^ P.n * (val (H.1.take (P.n - 1)) + B ^ (P.n - 1) * (aval H.2 + (word x (2 * P.n - 1)).toNat)) = val x + val L.1 * val P.p := by
    rw [g.vp1, Nat.mul_add, Nat.mul_one] at hsplit
    omega
  have hB : B = 2 ^ 64 := rfl
  obtain ⟨a1, a2⟩ := add64_spec H.2.v (word x (2 * P.n - 1)) 0 (by decide)
  rw [tz, Nat.add_zero] at a1
  have hv' : (add64 H.2.v (word x (2 * P.n - 1)) 0).1.toNat = (aval H.2 + (word x (2 * P.n - 1)).toNat) % B := by
    have := (add64 H.2.v (word x (2 * P.n - 1)) 0).1.isLt
    rw [aval, hB]
    omega
  have hlen : (rdcP P x).length = P.n := by rw [hd, List.length_set, h1]
  refine ⟨val L.1, _, _, hq, heq, ?_, hlen⟩
  rw [← List.take_of_length_le (l := rdcP P x) (i := P.n - 1 + 1) (by omega), hd, take_set_succ _ _ _ (by omega), val_append,
    List.length_take, h1, Nat.min_eq_left (by omega), Nat.pow_mul, val, val, hv', Nat.mul_zero, Nat.add_zero]

theorem rdcP_spec (g : Good P) (x : List W64) (lx : x.length = 2 * P.n) (hx : val x < val P.p * 2 ^ (64 * P.n)) :
    ∃ q, q < 2 ^ (64 * P.n) ∧ 2 ^ (64 * P.n) * val (rdcP P x) = val x + q * val P.p ∧
      val (rdcP P x) < 2 * val P.p ∧ (rdcP P x).length = P.n := by
  have h0 := g.npos
  obtain ⟨q, a, s, hq, heq, hval, hlen⟩ := rdcP_core g x lx
  have hR : 2 ^ (64 * P.n) = B ^ P.n := Nat.pow_mul _ _ _
  have hlt : a + B ^ (P.n - 1) * s < 2 * val P.p := by
    have : q * val P.p ≤ 2 ^ (64 * P.n) * val P.p := Nat.mul_le_mul_right _ (by omega)
    rw [hR] at this hx
    have : B ^ P.n * (a + B ^ (P.n - 1) * s) < B ^ P.n * (2 * val P.p) := by
      rw [heq]; linarith
    exact Nat.lt_of_mul_lt_mul_left this
  have hs := g.small
  have hb : s < B := by
    by_contra hc
    have : B ≤ s := by omega
    have h4 : B ^ P.n = B ^ (P.n - 1) * B := by rw [← pow_succ]; congr 1; omega
    have h5 : B ^ P.n ≤ B ^ (P.n - 1) * s := by rw [h4]; exact Nat.mul_le_mul_left _ this
    omega
  rw [Nat.mod_eq_of_lt hb] at hval
  exact ⟨q, hq, by rw [hval, hR, heq], by rw [hval]; exact hlt, hlen⟩

/-- For inputs of any size the result is right modulo 2^(64 n). -/
theorem rdcP_mod (g : Good P) (x : List W64) (lx : x.length = 2 * P.n) :
    ∃ q t, q < 2 ^ (64 * P.n) ∧ 2 ^ (64 * P.n) * (val (rdcP P x) + 2 ^ (64 * P.n) * t) = val x + q * val P.p ∧ (rdcP P x).length = P.n := by
  have h0 := g.npos
  obtain ⟨q, a, s, hq, heq, hval, hlen⟩ := rdcP_core g x lx
  have hR : 2 ^ (64 * P.n) = B ^ P.n := Nat.pow_mul _ _ _
  refine ⟨q, s / B, hq, ?_, hlen⟩
  rw [hval, hR, ← heq]
  have h4 : B ^ P.n = B ^ (P.n - 1) * B := by rw [← pow_succ]; congr 1; omega
  have h5 : a + B ^ (P.n - 1) * (s % B) + B ^ P.n * (s / B) = a + B ^ (P.n - 1) * s := by
    conv_rhs => rw [← Nat.mod_add_div s B]
    rw [h4]; ring
  rw [h5]

end Lemmas.SidhArith
