import Verif.Lemmas.AsmFam
/-
The multiplication of p503/arith_arm64.s, whose result is not always the product: a check that gives its exact result.
-/
namespace Lemmas.AsmFamArm
open Model Model.Asm Model.Limb Spec Lemmas.Limb Lemmas.AsmPoly Lemmas.AsmSym Lemmas.AsmSound Lemmas.AsmCall Lemmas.AsmFam

variable {e : Env}

/-- The polynomial of words off, …, off + n - 1 of array b. -/
def blkAt (S : Sig) (b off n : Nat) : Poly := inP S.tops ((S.lens.take b).sum + off) n

theorem blkAt_eval {S : Sig} {data : List (List W64)} {bp fp : W64} {ex : List W64} (hi : Inp e S.tops (flat data bp fp ex))
    (hl : S.lens = data.map List.length) (hs : S.lens.sum ≤ 127) {b off n : Nat} {d : List W64} (hd : data[b]? = some d) (hn : off + n ≤ d.length) :
    e.eval (blkAt S b off n) = val ((d.drop off).take n) := by
  have hlen : ((d.drop off).take n).length = n := by rw [List.length_take, List.length_drop]; omega
  have hb := block_end data b d hd
  rw [← hl] at hb
  have := inP_eval hi ((d.drop off).take n) ((S.lens.take b).sum + off) (by omega) (fun i hi' => by
    rw [hl, Nat.add_assoc, flat_block data bp fp ex b d (off + i) hd (by omega)]
    have hi'' : i < n := by omega
    simp [List.getD_eq_getElem?_getD, List.getElem?_take, hi'', List.getElem?_drop])
  rwa [hlen] at this

/-- `mw`: the nine words of xH·yL + xL·yH + xH·yH; `lw`: the eight of xL·yL; `aw`: the upper half of the latter added to the lower
half of the former, with carry c; `vw`: that minus xH·yH, with borrow b. -/
def halfChk (R : Routine) (C : Cert) (xb yb : Nat) (mw lw aw vw : List Nat) (c b : Poly) (l1 l2 l3 l4 l5 : List (Nat × Poly)) : Bool :=
  base C &&
  match exec R C.S C.anns C.hints C.zb 16 C.scratch C.keepBP with
  | some (out, F, H) =>
    match words H (mw.take 4), words H (mw.drop 4), words H (lw.take 4), words H (lw.drop 4), words H aw, words H vw with
    | some m0, some m1, some p0, some p1, some A, some V =>
      match mul (blkAt C.S xb 4 4) (blkAt C.S yb 0 4), mul (blkAt C.S xb 0 4) (blkAt C.S yb 4 4), mul (blkAt C.S xb 4 4) (blkAt C.S yb 4 4),
        mul (blkAt C.S xb 0 4) (blkAt C.S yb 0 4) with
      | some t1, some t2, some t3, some t4 =>
        Nat.beq (mw.take 4).length 4 && (Nat.beq (lw.take 4).length 4 && (Nat.beq aw.length 4 && (Nat.beq vw.length 9 &&
        (ile 0 (loB b) && (ile (hiB b) 1 &&
        (zmod 0 F l1 (sub' (add m0 (scale (2 ^ 256) m1)) (add (add t1 t2) t3)) &&
        (zmod 0 F l2 (sub' (add p0 (scale (2 ^ 256) p1)) t4) &&
        (zmod 0 F l3 (sub' (add A (scale (2 ^ 256) c)) (add m0 p1)) &&
        (zmod 0 F l4 (sub' (add (add A (scale (2 ^ 256) m1)) (scale (2 ^ 576) b)) (add V t3)) &&
        zmod (2 ^ (64 * 16)) F l5 (sub' out (add (add (add t4 (scale (2 ^ 256) (add t1 t2))) (scale (2 ^ 512) t3)) (scale (2 ^ 832) b))))))))))))
      | _, _, _, _ => false
    | _, _, _, _, _, _ => false
  | none => false

/-- What the borrow depends on: xH·yL + xL·yH + xH·yH with the upper half of xL·yL added to its lower half, without the carry. -/
def late (xH xL yH yL : Nat) : Nat :=
  ((xH * yL + xL * yH + xH * yH) % 2 ^ 256 + xL * yL / 2 ^ 256) % 2 ^ 256 + 2 ^ 256 * ((xH * yL + xL * yH + xH * yH) / 2 ^ 256)

theorem divmod {K m0 m1 : Int} {M K' : Nat} (hK : K = K') (h0 : 0 ≤ m0) (h1 : m0 < K) (h : m0 + K * m1 = M) : m0 = ((M % K' : Nat) : Int) ∧ m1 = ((M / K' : Nat) : Int) := by
  subst hK
  have hk : (K' : Int) ≠ 0 := by omega
  constructor
  · rw [Int.natCast_emod, ← h, Int.add_mul_emod_self_left, Int.emod_eq_of_lt h0 h1]
  · rw [Int.natCast_ediv, ← h, Int.add_mul_ediv_left _ _ hk, Int.ediv_eq_zero_of_lt h0 h1, Int.zero_add]

theorem half_arith {K W : Nat} {M P Q : Nat} {m0 m1 p0 p1 A V c b : Int} (a1 : 0 ≤ m0) (a2 : m0 < K) (b1 : 0 ≤ p0) (b2 : p0 < K)
    (c1 : 0 ≤ A) (c2 : A < K) (d1 : 0 ≤ V) (d2 : V < W) (e1 : 0 ≤ b) (e2 : b ≤ 1)
    (h1 : m0 + K * m1 = M) (h2 : p0 + K * p1 = P) (h3 : A + K * c = m0 + p1) (h4 : A + K * m1 + W * b = V + Q) :
    b = if (M % K + P / K) % K + K * (M / K) < Q then 1 else 0 := by
  obtain ⟨x1, x2⟩ := divmod rfl a1 a2 h1
  obtain ⟨_, y2⟩ := divmod rfl b1 b2 h2
  have h3' : A + K * c = ((M % K + P / K : Nat) : Int) := by rw [h3, x1, y2]; push_cast; rfl
  obtain ⟨z1, _⟩ := divmod rfl c1 c2 h3'
  rw [z1, x2] at h4
  rcases (show b = 0 ∨ b = 1 by omega) with hb | hb
  · rw [hb, Int.mul_zero] at h4
    rw [hb, if_neg]
    intro hlt
    have : (((M % K + P / K) % K + K * (M / K) : Nat) : Int) < Q := by exact_mod_cast hlt
    push_cast at this h4
    omega
  · rw [hb, Int.mul_one] at h4
    rw [hb, if_pos]
    have : (((M % K + P / K) % K + K * (M / K) : Nat) : Int) < Q := by push_cast at h4 ⊢; omega
    exact_mod_cast this

theorem val8 (x : List W64) (h : 8 ≤ x.length) : val (x.take 8) = val ((x.drop 0).take 4) + 2 ^ 256 * val ((x.drop 4).take 4) := by
  rw [List.drop_zero]
  have e1 : x.take 8 = x.take 4 ++ (x.drop 4).take 4 := by
    rw [show 8 = 4 + 4 from rfl, List.take_add]
  have : (x.take 4).length = 4 := by rw [List.length_take]; omega
  rw [e1, val_append, this]

theorem half_ok {R : Routine} {C : Cert} {xb yb : Nat} {mw lw aw vw : List Nat} {c b : Poly} {l1 l2 l3 l4 l5 : List (Nat × Poly)}
    (h : halfChk R C xb yb mw lw aw vw c b l1 l2 l3 l4 l5 = true)
    {data : List (List W64)} (hl : C.S.lens = data.map List.length) {x y : List W64} (hx : data[xb]? = some x) (hy : data[yb]? = some y)
    (lx : 8 ≤ x.length) (ly : 8 ≤ y.length) (ht : C.S.tops = []) {xH xL yH yL : Nat} (exL : val (x.take 4) = xL) (exH : val ((x.drop 4).take 4) = xH)
    (eyL : val (y.take 4) = yL) (eyH : val ((y.drop 4).take 4) = yH) {res : List W64} (hr : res.length = 16)
    (hv : val res = (val (x.take 8) * val (y.take 8) + if late xH xL yH yL < xH * yH then 2 ^ 832 else 0) % 2 ^ 1024) :
    Gives R data (C.S.args.map argB) C.zb C.scratch C.keepBP res := by
  unfold halfChk at h
  rw [Bool.and_eq_true] at h
  obtain ⟨hb, h⟩ := h
  rcases hex : exec R C.S C.anns C.hints C.zb 16 C.scratch C.keepBP with _ | ⟨out, F, H⟩
  · rw [hex] at h; simp at h
  rw [hex] at h
  simp only at h
  split at h
  case h_2 => simp at h
  rename_i m0 m1 p0 p1 A V hm0 hm1 hp0 hp1 hA hV
  split at h
  case h_2 => simp at h
  rename_i t1 t2 t3 t4 ht1 ht2 ht3 ht4
  simp only [Bool.and_eq_true] at h
  obtain ⟨n1, n2, n3, n4, k1, k2, g1, g2, g3, g4, g5⟩ := h
  have n1 := Nat.eq_of_beq_eq_true n1
  have n2 := Nat.eq_of_beq_eq_true n2
  have n3 := Nat.eq_of_beq_eq_true n3
  have n4 := Nat.eq_of_beq_eq_true n4
  refine gives_of hex hb hl (by rw [ht]; simp) hr (fun e bp fp xs hs hxl hout hin hF hH => ?_)
  have g1 := zmod_sound hF g1
  have g2 := zmod_sound hF g2
  have g3 := zmod_sound hF g3
  have g4 := zmod_sound hF g4
  have g5 := zmod_sound hF g5
  have w1 := words_sound hH _ _ hm0
  have w2 := words_sound hH _ _ hp0
  have w3 := words_sound hH _ _ hA
  have w4 := words_sound hH _ _ hV
  rw [n1] at w1
  rw [n2] at w2
  rw [n3] at w3
  rw [n4] at w4
  have bx0 := blkAt_eval hin hl hs (off := 0) (n := 4) hx (by omega)
  have bx4 := blkAt_eval hin hl hs (off := 4) (n := 4) hx (by omega)
  have by0 := blkAt_eval hin hl hs (off := 0) (n := 4) hy (by omega)
  have by4 := blkAt_eval hin hl hs (off := 4) (n := 4) hy (by omega)
  have vx := val8 x lx
  have vy := val8 y ly
  rw [List.drop_zero] at bx0 by0 vx vy
  rw [exL] at bx0 vx
  rw [exH] at bx4 vx
  rw [eyL] at by0 vy
  rw [eyH] at by4 vy
  have e1 := eval_mul e _ _ _ ht1
  have e2 := eval_mul e _ _ _ ht2
  have e3 := eval_mul e _ _ _ ht3
  have e4 := eval_mul e _ _ _ ht4
  rw [bx4, by0] at e1
  rw [bx0, by4] at e2
  rw [bx4, by4] at e3
  rw [bx0, by0] at e4
  simp only [eval_sub', eval_add, eval_scale, e1, e2, e3, e4, hout, Nat.cast_zero, zero_dvd_iff] at g1 g2 g3 g4 g5
  have k1 := le_trans (ile_le k1) (le_eval e b)
  have k2 := le_trans (eval_le e b) (ile_le k2)
  have key := half_arith (K := 2 ^ 256) (W := 2 ^ 576) (M := xH * yL + xL * yH + xH * yH) (P := xL * yL) (Q := xH * yH)
    (m1 := e.eval m1) (p1 := e.eval p1) (c := e.eval c)
    w1.1 (by exact_mod_cast w1.2) w2.1 (by exact_mod_cast w2.2) w3.1 (by exact_mod_cast w3.2) w4.1 (by exact_mod_cast w4.2) k1 k2
    (by push_cast; linarith) (by push_cast; linarith) (by push_cast; linarith) (by push_cast; linarith)
  have a := val_lt xs
  rw [hxl] at a
  rw [hv]
  refine nat_of_dvd (M := 2 ^ (64 * 16)) a (Nat.mod_lt _ (by positivity)) ?_
  have hb2 : e.eval b = ((if late xH xL yH yL < xH * yH then 1 else 0 : Nat) : Int) := by
    rw [key]
    unfold late
    split <;> rfl
  have hif : (if late xH xL yH yL < xH * yH then 2 ^ 832 else 0 : Nat) = 2 ^ 832 * (if late xH xL yH yL < xH * yH then 1 else 0) := by
    split <;> simp
  rw [hif]
  rw [hb2] at g5
  generalize (if late xH xL yH yL < xH * yH then 1 else 0 : Nat) = β at *
  have h6 : ((2 ^ (64 * 16) : Nat) : Int) ∣ ((val (x.take 8) * val (y.take 8) + 2 ^ 832 * β : Nat) : Int) -
      (((val (x.take 8) * val (y.take 8) + 2 ^ 832 * β) % 2 ^ 1024 : Nat) : Int) := by
    rw [Int.natCast_emod]
    exact Int.dvd_self_sub_emod
  have h7 := dvd_add g5 h6
  rw [vx, vy] at h7 ⊢
  generalize ((xL + 2 ^ 256 * xH) * (yL + 2 ^ 256 * yH) + 2 ^ 832 * β) % 2 ^ 1024 = r at h7 ⊢
  have e5 : (val xs : Int) - (xL * yL + 2 ^ 256 * (xH * yL + xL * yH) + 2 ^ 512 * (xH * yH) + 2 ^ 832 * β) +
      (((xL + 2 ^ 256 * xH) * (yL + 2 ^ 256 * yH) + 2 ^ 832 * β : Nat) - (r : Int)) = val xs - r := by
    rw [show (2 : Int) ^ 512 = 2 ^ 256 * 2 ^ 256 by rw [← pow_add]]
    push_cast
    generalize (2 : Int) ^ 256 = K
    generalize (2 : Int) ^ 832 = L
    ring
  rw [e5] at h7
  exact h7

end Lemmas.AsmFamArm
