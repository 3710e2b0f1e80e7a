import Verif.Lemmas.AsmCall
import Verif.Lemmas.SidhArith
import Mathlib.Data.Int.ModEq
import Mathlib.RingTheory.Coprime.Lemmas
/-
Checks that a routine computes what the portable function of the same name computes, for every input.  Each check runs the
routine symbolically and tests congruences between the result and the inputs; the theorems say what a check means.
-/
namespace Lemmas.AsmFam
open Model Model.Asm Model.Limb Model.Sidh Spec Lemmas.Limb Lemmas.SidhArith Lemmas.AsmPoly Lemmas.AsmSym Lemmas.AsmSound Lemmas.AsmCall

/-! ### The portable functions for inputs of any size -/

/-- Subtract with borrow, then add m back when it borrowed. -/
theorem sub_mask (x m y : List W64) (hm : x.length = m.length) (hy : x.length = y.length) :
    let z := (addLoop (subLoop x y 0).1 (maskWords m (0 - (subLoop x y 0).2)) 0).1
    val z = (if val x < val y then val x + 2 ^ (64 * x.length) - val y + val m else val x - val y) % 2 ^ (64 * x.length) ∧
      z.length = x.length := by
  obtain ⟨h1, h2, h3⟩ := subLoop_borrow x y hy
  intro z
  have hl : (subLoop x y 0).1.length = (maskWords m (0 - (subLoop x y 0).2)).length := by
    rw [maskWords_length, h3, hm]
  obtain ⟨hz, hzl⟩ := addLoop_mod _ _ hl
  refine ⟨?_, by rw [hzl, h3]⟩
  have hz' : val z = (val (subLoop x y 0).1 + val (maskWords m (0 - (subLoop x y 0).2))) % 2 ^ (64 * (subLoop x y 0).1.length) := hz
  rw [hz', h3]
  split
  · rename_i h
    obtain ⟨hb, he⟩ := h1 h
    rw [hb, maskWords_ones]
    congr 1
    omega
  · rename_i h
    obtain ⟨hb, he⟩ := h2 (by omega)
    rw [hb, show (0 - 0 : W64) = 0 from rfl, maskWords_zero, val_replicate_zero, Nat.add_zero]
    congr 1
    omega

variable {P : Prime}

theorem addP_mod (g : Good P) (x y : List W64) (lx : x.length = P.n) (ly : y.length = P.n) :
    val (addP P x y) = (if (val x + val y) % 2 ^ (64 * P.n) < 2 * val P.p then (val x + val y) % 2 ^ (64 * P.n) + 2 ^ (64 * P.n) - 2 * val P.p + 2 * val P.p
      else (val x + val y) % 2 ^ (64 * P.n) - 2 * val P.p) % 2 ^ (64 * P.n) ∧ (addP P x y).length = P.n := by
  obtain ⟨h1, h2⟩ := addLoop_mod x y (by omega)
  obtain ⟨a1, a2⟩ := sub_mask (addLoop x y 0).1 P.px2 P.px2 (by rw [h2, g.lpx2, lx]) (by rw [h2, g.lpx2, lx])
  rw [h1, h2, lx, g.vpx2] at a1
  rw [h2, lx] at a2
  exact ⟨a1, a2⟩

theorem subP_mod (g : Good P) (x y : List W64) (lx : x.length = P.n) (ly : y.length = P.n) :
    val (subP P x y) = (if val x < val y then val x + 2 ^ (64 * P.n) - val y + 2 * val P.p else val x - val y) % 2 ^ (64 * P.n) ∧
      (subP P x y).length = P.n := by
  obtain ⟨a1, a2⟩ := sub_mask x P.px2 y (by rw [lx, g.lpx2]) (by rw [lx, ly])
  rw [lx, g.vpx2] at a1
  rw [lx] at a2
  exact ⟨a1, a2⟩

theorem modP_mod (g : Good P) (x : List W64) (lx : x.length = P.n) :
    val (modP P x) = (if val x < val P.p then val x + 2 ^ (64 * P.n) - val P.p + val P.p else val x - val P.p) % 2 ^ (64 * P.n) ∧
      (modP P x).length = P.n := by
  obtain ⟨a1, a2⟩ := sub_mask x P.p P.p (by rw [lx, g.lp]) (by rw [lx, g.lp])
  rw [lx] at a1 a2
  exact ⟨a1, a2⟩

theorem pow2 (n : Nat) : 2 ^ (64 * (2 * n)) = 2 ^ (64 * n) * 2 ^ (64 * n) := by rw [← Nat.pow_add]; congr 1; omega

theorem sulP_mod (g : Good P) (x y : List W64) (lx : x.length = 2 * P.n) (ly : y.length = 2 * P.n) :
    val (sulP P x y) = (if val x < val y then val x + 2 ^ (64 * (2 * P.n)) - val y + 2 ^ (64 * P.n) * val P.p else val x - val y) % 2 ^ (64 * (2 * P.n)) ∧
    (sulP P x y).length = 2 * P.n := by
  obtain ⟨h1, h2, h3⟩ := subLoop_borrow x y (by omega)
  have hz := val_split (subLoop x y 0).1 P.n (by rw [h3, lx]; omega)
  have hzlt := val_lt (subLoop x y 0).1
  have hlo := val_lt ((subLoop x y 0).1.take P.n)
  have ll : ((subLoop x y 0).1.take P.n).length = P.n := by rw [List.length_take, h3, lx]; omega
  have lh : ((subLoop x y 0).1.drop P.n).length = P.n := by rw [List.length_drop, h3, lx]; omega
  rw [ll] at hlo
  rw [h3, lx] at hzlt
  obtain ⟨a1, a2⟩ := addLoop_mod ((subLoop x y 0).1.drop P.n) (maskWords P.p (0 - (subLoop x y 0).2)) (by rw [lh, maskWords_length, g.lp])
  rw [lh] at a1 a2
  have hd : sulP P x y = (subLoop x y 0).1.take P.n ++ (addLoop ((subLoop x y 0).1.drop P.n) (maskWords P.p (0 - (subLoop x y 0).2)) 0).1 := rfl
  rw [hd]
  refine ⟨?_, by rw [List.length_append, ll, a2]; omega⟩
  rw [val_append, ll, a1]
  rw [lx] at h1
  have key : ∀ k, val ((subLoop x y 0).1.take P.n) + 2 ^ (64 * P.n) * ((val ((subLoop x y 0).1.drop P.n) + k) % 2 ^ (64 * P.n)) =
      (val (subLoop x y 0).1 + 2 ^ (64 * P.n) * k) % 2 ^ (64 * (2 * P.n)) := by
    intro k
    rw [hz, pow2, Nat.mod_mul, Nat.add_assoc, ← Nat.mul_add, Nat.add_mul_mod_self_left, Nat.mod_eq_of_lt hlo]
    congr 2
    rw [Nat.add_mul_div_left _ _ (by positivity), Nat.div_eq_of_lt hlo, Nat.zero_add]
  split
  · rename_i h
    obtain ⟨hb, he⟩ := h1 h
    rw [hb, maskWords_ones, key]
    congr 1
    omega
  · rename_i h
    obtain ⟨hb, he⟩ := h2 (by omega)
    rw [hb, show (0 - 0 : W64) = 0 from rfl, maskWords_zero, val_replicate_zero, key, Nat.mul_zero, Nat.add_zero]
    congr 1
    omega

/-! ### Reading the caller's arrays -/

variable {e : Env}

theorem flat_block (data : List (List W64)) (bp fp : W64) (ex : List W64) : ∀ (b : Nat) (d : List W64) (i : Nat), data[b]? = some d → i < d.length →
    (flat data bp fp ex).getD (((data.map List.length).take b).sum + i) 0 = d.getD i 0 := by
  have key : ∀ (b : Nat) (d : List W64) (i : Nat), data[b]? = some d → i < d.length →
      ((data.map List.length).take b).sum + i < data.flatten.length ∧ data.flatten.getD (((data.map List.length).take b).sum + i) 0 = d.getD i 0 := by
    induction data with
    | nil => intro b d i h; simp at h
    | cons c data ih =>
      intro b d i h hi
      cases b with
      | zero =>
        simp only [List.getElem?_cons_zero, Option.some.injEq] at h
        subst h
        simp only [List.map_cons, List.take_zero, List.sum_nil, Nat.zero_add, List.flatten_cons, List.length_append]
        exact ⟨by omega, getD_left _ _ _ _ hi⟩
      | succ b =>
        rw [List.getElem?_cons_succ] at h
        obtain ⟨h1, h2⟩ := ih b d i h hi
        simp only [List.map_cons, List.take_succ_cons, List.sum_cons, List.flatten_cons, List.length_append]
        refine ⟨by omega, ?_⟩
        rw [Nat.add_assoc, getD_right, h2]
  intro b d i h hi
  obtain ⟨h1, h2⟩ := key b d i h hi
  rw [flat, getD_left _ _ _ _ h1, h2]

theorem block_end (data : List (List W64)) : ∀ (b : Nat) (d : List W64), data[b]? = some d →
    ((data.map List.length).take b).sum + d.length ≤ (data.map List.length).sum := by
  induction data with
  | nil => intro b d h; simp at h
  | cons c data ih =>
    intro b d h
    cases b with
    | zero =>
      simp only [List.getElem?_cons_zero, Option.some.injEq] at h
      subst h
      simp
    | succ b =>
      rw [List.getElem?_cons_succ] at h
      have := ih b d h
      simp only [List.map_cons, List.take_succ_cons, List.sum_cons]
      omega

/-- The polynomial of the number in the first n words of array b. -/
def blk (S : Sig) (b n : Nat) : Poly := inP S.tops (S.lens.take b).sum n

theorem blk_eval {S : Sig} {data : List (List W64)} {bp fp : W64} {ex : List W64} (hi : Inp e S.tops (flat data bp fp ex))
    (hl : S.lens = data.map List.length) (hs : S.lens.sum ≤ 127) {b n : Nat} {d : List W64} (hd : data[b]? = some d) (hn : n ≤ d.length) :
    e.eval (blk S b n) = val (d.take n) := by
  have hlen : (d.take n).length = n := by rw [List.length_take]; omega
  have hb := block_end data b d hd
  rw [← hl] at hb
  have := inP_eval hi (d.take n) (S.lens.take b).sum (by omega) (fun i hi' => by
    rw [hl, flat_block data bp fp ex b d i hd (by omega)]
    have hi'' : i < n := by omega
    simp [List.getD_eq_getElem?_getD, List.getElem?_take, hi''])
  rwa [hlen] at this

/-! ### Certificates -/

/-- What the checks need besides the routine: the call, annotations for the symbolic run, hints, the array written, the arrays
used as scratch space and whether BP is claimed to be preserved. -/
structure Cert where
  S : Sig
  anns : List Ann
  hints : List Hint
  zb : Nat
  scratch : List Nat
  keepBP : Bool

def SArg.isArr : SArg → Bool
  | .arr _ => true
  | .num _ => false

/-- A call of `R` on the arrays `data` with pointers to arrays `args` writes `res` over the first words of array `zb` and leaves
the rest of it and the other arrays, except for those listed in `scratch`, as they are. -/
def Gives (R : Routine) (data : List (List W64)) (args : List Nat) (zb : Nat) (scratch : List Nat) (keepBP : Bool) (res : List W64) : Prop :=
  ∀ (junk : Nat → Val) (fr : List Val) (bp fp : W64), fr.length = R.frame →
    ∃ (data' : List (List Val)) (bp' : Option Val), R.call junk fr bp fp data (args.map .arr) = some (data', bp') ∧
      After data zb res.length scratch res data' ∧ (keepBP = true → bp' = some (.w bp))

def argB : SArg → Nat
  | .arr b => b
  | .num j => j

theorem args_eq (ex : List W64) (l : List SArg) (h : l.all SArg.isArr = true) : l.map (SArg.arg ex) = (l.map argB).map .arr := by
  induction l with
  | nil => rfl
  | cons a l ih =>
    rw [List.all_cons, Bool.and_eq_true] at h
    rw [List.map_cons, List.map_cons, List.map_cons, ih h.2]
    cases a with
    | arr b => rfl
    | num j => simp [SArg.isArr] at h

def base (C : Cert) : Bool := Nat.ble C.S.lens.sum 127 && (Nat.beq C.S.nex 0 && C.S.args.all SArg.isArr)

theorem gives_of {R : Routine} {C : Cert} {n : Nat} {out : Poly} {F H : List Poly} {data : List (List W64)} {res : List W64}
    (hex : exec R C.S C.anns C.hints C.zb n C.scratch C.keepBP = some (out, F, H)) (hb : base C = true) (hl : C.S.lens = data.map List.length)
    (ht : ∀ bp fp, ∀ j ∈ C.S.tops, ((flat data bp fp []).getD j 0).toNat < 2 ^ 63) (hr : res.length = n)
    (h : ∀ (e : Env) (bp fp : W64) (xs : List W64), C.S.lens.sum ≤ 127 → xs.length = n → e.eval out = val xs → Inp e C.S.tops (flat data bp fp []) →
      (∀ q ∈ F, e.eval q = 0) → (∀ q ∈ H, 0 ≤ e.eval q ∧ e.eval q < 2 ^ 64) → val xs = val res) :
    Gives R data (C.S.args.map argB) C.zb C.scratch C.keepBP res := by
  intro junk fr bp fp hf
  unfold base at hb
  rw [Bool.and_eq_true, Bool.and_eq_true] at hb
  obtain ⟨h1, h2, h3⟩ := hb
  obtain ⟨e, xs, data', bp', hcall, hxl, hout, haft, hbp, hin, hF, hH⟩ := exec_sound hex junk fr bp fp data [] hf hl (Nat.eq_of_beq_eq_true h2).symm
    (fun j hj => by
      have := List.all_eq_true.mp h3 _ hj
      simp [SArg.isArr] at this) (ht bp fp)
  have : xs = res := val_inj (by omega) (h e bp fp xs (Nat.le_of_ble_eq_true h1) hxl hout hin hF hH)
  subst this
  rw [args_eq [] _ h3] at hcall
  exact ⟨data', bp', hcall, by rw [hxl]; exact haft, hbp⟩

/-! ### Multiplication -/

def sub' (p q : Poly) : Poly := add p (scale (-1) q)

theorem eval_sub' (p q : Poly) : e.eval (sub' p q) = e.eval p - e.eval q := by
  rw [sub', eval_add, eval_scale]; ring

def mulChk (R : Routine) (C : Cert) (n xb yb : Nat) (lam : List (Nat × Poly)) : Bool :=
  base C &&
  match exec R C.S C.anns C.hints C.zb (2 * n) C.scratch C.keepBP with
  | some (out, F, _) =>
    match mul (blk C.S xb n) (blk C.S yb n) with
    | some t => zmod (2 ^ (64 * (2 * n))) F lam (sub' out t)
    | none => false
  | none => false

/-- A number below M is determined by its class modulo M. -/
theorem nat_of_dvd {M a b : Nat} (ha : a < M) (hb : b < M) (h : (M : Int) ∣ (a : Int) - b) : a = b := by
  have h1 : (a : Int) ≡ b [ZMOD M] := (Int.modEq_iff_dvd.mpr (by rw [← Int.dvd_neg, Int.neg_sub]; exact h))
  have h2 := Int.natCast_modEq_iff.mp h1
  unfold Nat.ModEq at h2
  rwa [Nat.mod_eq_of_lt ha, Nat.mod_eq_of_lt hb] at h2

theorem mul_ok (g : Good P) {R : Routine} {C : Cert} {xb yb : Nat} {lam : List (Nat × Poly)} (h : mulChk R C P.n xb yb lam = true)
    {data : List (List W64)} (hl : C.S.lens = data.map List.length) {x y : List W64} (hx : data[xb]? = some x) (hy : data[yb]? = some y)
    (lx : P.n ≤ x.length) (ly : P.n ≤ y.length) (ht : ∀ bp fp, ∀ j ∈ C.S.tops, ((flat data bp fp []).getD j 0).toNat < 2 ^ 63) :
    Gives R data (C.S.args.map argB) C.zb C.scratch C.keepBP (mulW P (x.take P.n) (y.take P.n)) := by
  unfold mulChk at h
  rw [Bool.and_eq_true] at h
  obtain ⟨hb, h⟩ := h
  rcases hex : exec R C.S C.anns C.hints C.zb (2 * P.n) C.scratch C.keepBP with _ | ⟨out, F, H⟩
  · rw [hex] at h; simp at h
  rw [hex] at h
  simp only at h
  rcases hm : mul (blk C.S xb P.n) (blk C.S yb P.n) with _ | t
  · rw [hm] at h; simp at h
  rw [hm] at h
  simp only at h
  obtain ⟨w1, w2⟩ := mulW_spec g (x.take P.n) (y.take P.n) (by rw [List.length_take]; omega) (by rw [List.length_take]; omega)
  refine gives_of hex hb hl ht w2 (fun e bp fp xs hs hxl hout hin hF _ => ?_)
  have hd := zmod_sound hF h
  rw [eval_sub', hout, eval_mul e _ _ _ hm, blk_eval hin hl hs hx lx, blk_eval hin hl hs hy ly] at hd
  rw [w1]
  have a := val_lt xs
  have b := val_lt (mulW P (x.take P.n) (y.take P.n))
  rw [w1] at b
  rw [hxl] at a
  rw [w2] at b
  exact nat_of_dvd a b (by exact_mod_cast hd)

/-! ### Montgomery reduction -/

/-- `mp` is the multiple of p that is added. -/
def rdcChk (R : Routine) (C : Cert) (n p xb : Nat) (mp : Poly) (lam : List (Nat × Poly)) : Bool :=
  base C && (ile 0 (loB mp) && (ile (hiB mp + 1) (2 ^ (64 * n)) &&
  match exec R C.S C.anns C.hints C.zb n C.scratch C.keepBP with
  | some (out, F, _) => zmod (2 ^ (64 * (2 * n))) F lam (sub' (scale (2 ^ (64 * n)) out) (add (blk C.S xb (2 * n)) (scale p mp)))
  | none => false))

theorem rdc_arith {R o r X p m q t : Int} (hc : IsCoprime R p) (h0 : 0 < R) (hm : 0 ≤ m) (hm' : m < R) (hq : 0 ≤ q) (hq' : q < R)
    (h1 : R * R ∣ R * o - (X + p * m)) (h2 : R * (r + R * t) = X + q * p) : R ∣ o - r := by
  have h3 : R ∣ q - m := by
    apply hc.dvd_of_dvd_mul_left
    obtain ⟨k, hk⟩ := h1
    exact ⟨r + R * t + R * k - o, by linarith⟩
  have h4 : q = m := by
    obtain ⟨k, hk⟩ := h3
    have : k = 0 := by
      rcases lt_trichotomy k 0 with h | h | h
      · nlinarith
      · exact h
      · nlinarith
    rw [this] at hk
    linarith
  subst h4
  obtain ⟨k, hk⟩ := h1
  refine ⟨k + t, mul_left_cancel₀ h0.ne' ?_⟩
  linarith

theorem rdc_ok (g : Good P) (hc : Nat.Coprime (2 ^ (64 * P.n)) (val P.p)) {R : Routine} {C : Cert} {xb : Nat} {mp : Poly} {lam : List (Nat × Poly)}
    (h : rdcChk R C P.n (val P.p) xb mp lam = true) {data : List (List W64)} (hl : C.S.lens = data.map List.length) {x : List W64}
    (hx : data[xb]? = some x) (lx : 2 * P.n ≤ x.length) (ht : C.S.tops = []) :
    Gives R data (C.S.args.map argB) C.zb C.scratch C.keepBP (rdcP P (x.take (2 * P.n))) := by
  unfold rdcChk at h
  rw [Bool.and_eq_true, Bool.and_eq_true, Bool.and_eq_true] at h
  obtain ⟨hb, hlo, hhi, h⟩ := h
  rcases hex : exec R C.S C.anns C.hints C.zb P.n C.scratch C.keepBP with _ | ⟨out, F, H⟩
  · rw [hex] at h; simp at h
  rw [hex] at h
  simp only at h
  obtain ⟨q, t, hq, w1, w2⟩ := rdcP_mod g (x.take (2 * P.n)) (by rw [List.length_take]; omega)
  refine gives_of hex hb hl (by rw [ht]; simp) w2 (fun e bp fp xs hs hxl hout hin hF _ => ?_)
  have hd := zmod_sound hF h
  rw [eval_sub', eval_scale, hout, eval_add, eval_scale, blk_eval hin hl hs hx lx, pow2] at hd
  have b1 := le_trans (ile_le hlo) (le_eval e mp)
  have b2 := lt_of_le_of_lt (eval_le e mp) (Int.lt_of_add_one_le (ile_le hhi))
  have a := val_lt xs
  have b := val_lt (rdcP P (x.take (2 * P.n)))
  rw [hxl] at a
  rw [w2] at b
  refine nat_of_dvd a b ?_
  push_cast at hd ⊢
  refine rdc_arith (p := val P.p) (q := q) (t := t) (X := val (x.take (2 * P.n))) ?_ (by positivity) b1 b2 (by positivity) (by exact_mod_cast hq) hd (by exact_mod_cast w1)
  exact_mod_cast Nat.isCoprime_iff_coprime.mpr hc

/-! ### Additions and subtractions -/

/-- Constant polynomial. -/
def con (c : Nat) : Poly := cons 0 (Int.ofNat c) []

theorem eval_con (c : Nat) : e.eval (con c) = c := by
  rw [con, eval_cons', eval_nil, mon_zero]; simp

def adlChk (R : Routine) (C : Cert) (n xb yb : Nat) (lam : List (Nat × Poly)) : Bool :=
  base C &&
  match exec R C.S C.anns C.hints C.zb n C.scratch C.keepBP with
  | some (out, F, _) => zmod (2 ^ (64 * n)) F lam (sub' out (add (blk C.S xb n) (blk C.S yb n)))
  | none => false

theorem adl_ok {n : Nat} {R : Routine} {C : Cert} {xb yb : Nat} {lam : List (Nat × Poly)} (h : adlChk R C n xb yb lam = true)
    {data : List (List W64)} (hl : C.S.lens = data.map List.length) {x y : List W64} (hx : data[xb]? = some x) (hy : data[yb]? = some y)
    (lx : n ≤ x.length) (ly : n ≤ y.length) (ht : C.S.tops = []) :
    Gives R data (C.S.args.map argB) C.zb C.scratch C.keepBP (adlP (x.take n) (y.take n)) := by
  unfold adlChk at h
  rw [Bool.and_eq_true] at h
  obtain ⟨hb, h⟩ := h
  rcases hex : exec R C.S C.anns C.hints C.zb n C.scratch C.keepBP with _ | ⟨out, F, H⟩
  · rw [hex] at h; simp at h
  rw [hex] at h
  simp only at h
  have l1 : (x.take n).length = n := by rw [List.length_take]; omega
  have l2 : (y.take n).length = n := by rw [List.length_take]; omega
  obtain ⟨w1, w2⟩ := addLoop_mod (x.take n) (y.take n) (by omega)
  rw [l1] at w1 w2
  refine gives_of hex hb hl (by rw [ht]; simp) w2 (fun e bp fp xs hs hxl hout hin hF _ => ?_)
  have hd := zmod_sound hF h
  rw [eval_sub', eval_add, hout, blk_eval hin hl hs hx lx, blk_eval hin hl hs hy ly] at hd
  have a := val_lt xs
  rw [hxl] at a
  rw [adlP, w1]
  refine nat_of_dvd a (Nat.mod_lt _ (by positivity)) ?_
  have : ((2 ^ (64 * n) : Nat) : Int) ∣ ((val (x.take n) + val (y.take n) : Nat) : Int) - ((val (x.take n) + val (y.take n)) % 2 ^ (64 * n) : Nat) := by
    rw [Int.natCast_emod]
    exact Int.dvd_self_sub_emod
  have := dvd_add hd this
  push_cast at this ⊢
  rwa [sub_add_sub_cancel] at this

/-- Subtract y from x giving the words `dw` with borrow `b`, and add m when it borrows. -/
def maskChk (F H : List Poly) (n : Nat) (X Y : Poly) (m : Nat) (dw : List Nat) (b : Poly) (lam1 lam2 : List (Nat × Poly)) (out : Poly) : Bool :=
  match words H dw with
  | some D => Nat.beq dw.length n && (ile 0 (loB b) && (ile (hiB b) 1 &&
      (zmod 0 F lam1 (sub' (add D Y) (add X (scale (2 ^ (64 * n)) b))) && zmod (2 ^ (64 * n)) F lam2 (sub' out (add D (scale m b))))))
  | none => false

theorem mask_ok {F H : List Poly} (hF : ∀ q ∈ F, e.eval q = 0) (hH : ∀ q ∈ H, 0 ≤ e.eval q ∧ e.eval q < 2 ^ 64) {n : Nat} {X Y : Poly} {m : Nat} {dw : List Nat}
    {b : Poly} {lam1 lam2 : List (Nat × Poly)} {out : Poly} (h : maskChk F H n X Y m dw b lam1 lam2 out = true) {x y o : Nat}
    (hx : e.eval X = x) (hy : e.eval Y = y) (ho : e.eval out = o) (lx : x < 2 ^ (64 * n)) (ly : y < 2 ^ (64 * n)) (lo : o < 2 ^ (64 * n)) :
    o = (if x < y then x + 2 ^ (64 * n) - y + m else x - y) % 2 ^ (64 * n) := by
  unfold maskChk at h
  rcases hw : words H dw with _ | D
  · rw [hw] at h; simp at h
  rw [hw] at h
  simp only [Bool.and_eq_true] at h
  obtain ⟨hn, h1, h2, h3, h4⟩ := h
  have hn := Nat.eq_of_beq_eq_true hn
  obtain ⟨d1, d2⟩ := words_sound hH dw D hw
  rw [hn] at d2
  have b1 := le_trans (ile_le h1) (le_eval e b)
  have b2 := le_trans (eval_le e b) (ile_le h2)
  have h3 := zmod_sound hF h3
  have h4 := zmod_sound hF h4
  rw [eval_sub', eval_add, eval_add, eval_scale, hx, hy] at h3
  rw [eval_sub', eval_add, eval_scale, ho] at h4
  rw [Nat.cast_zero, zero_dvd_iff] at h3
  have hR : ((2 ^ (64 * n) : Nat) : Int) = 2 ^ (64 * n) := by push_cast; rfl
  have hRpos : 0 < 2 ^ (64 * n) := by positivity
  rw [← hR] at h3 d2
  generalize 2 ^ (64 * n) = M at *
  have step : ∀ k : Nat, (M : Int) ∣ o - k → o = k % M := by
    intro k hk
    have := (Int.emod_emod_of_dvd (o : Int) (dvd_refl (M : Int)))
    have h5 : (o : Int) % M = k % M := Int.emod_eq_emod_iff_emod_sub_eq_zero.mpr (Int.emod_eq_zero_of_dvd hk)
    have h6 : o % M = k % M := by exact_mod_cast h5
    rwa [Nat.mod_eq_of_lt lo] at h6
  have hb : e.eval b = 0 ∨ e.eval b = 1 := by omega
  rcases hb with hb | hb
  · rw [hb] at h3 h4
    rw [if_neg (by omega)]
    apply step
    have : ((x - y : Nat) : Int) = e.eval D := by omega
    rw [this]; simpa using h4
  · rw [hb] at h3 h4
    rw [if_pos (by omega)]
    apply step
    have : ((x + M - y + m : Nat) : Int) = e.eval D + m := by omega
    rw [this]; simpa using h4

def subChk (R : Routine) (C : Cert) (n m xb yb : Nat) (dw : List Nat) (b : Poly) (lam1 lam2 : List (Nat × Poly)) : Bool :=
  base C &&
  match exec R C.S C.anns C.hints C.zb n C.scratch C.keepBP with
  | some (out, F, H) => maskChk F H n (blk C.S xb n) (blk C.S yb n) m dw b lam1 lam2 out
  | none => false

theorem sub_gen {n m : Nat} {R : Routine} {C : Cert} {xb yb : Nat} {dw : List Nat} {b : Poly} {lam1 lam2 : List (Nat × Poly)}
    (h : subChk R C n m xb yb dw b lam1 lam2 = true)
    {data : List (List W64)} (hl : C.S.lens = data.map List.length) {x y : List W64} (hx : data[xb]? = some x) (hy : data[yb]? = some y)
    (lx : n ≤ x.length) (ly : n ≤ y.length) (ht : C.S.tops = []) {res : List W64} (hr : res.length = n)
    (hv : val res = (if val (x.take n) < val (y.take n) then val (x.take n) + 2 ^ (64 * n) - val (y.take n) + m else val (x.take n) - val (y.take n)) % 2 ^ (64 * n)) :
    Gives R data (C.S.args.map argB) C.zb C.scratch C.keepBP res := by
  unfold subChk at h
  rw [Bool.and_eq_true] at h
  obtain ⟨hb, h⟩ := h
  rcases hex : exec R C.S C.anns C.hints C.zb n C.scratch C.keepBP with _ | ⟨out, F, H⟩
  · rw [hex] at h; simp at h
  rw [hex] at h
  simp only at h
  have l1 : (x.take n).length = n := by rw [List.length_take]; omega
  have l2 : (y.take n).length = n := by rw [List.length_take]; omega
  refine gives_of hex hb hl (by rw [ht]; simp) hr (fun e bp fp xs hs hxl hout hin hF hH => ?_)
  have a := val_lt xs
  have b := val_lt (x.take n)
  have c := val_lt (y.take n)
  rw [hxl] at a
  rw [l1] at b
  rw [l2] at c
  rw [hv]
  exact mask_ok hF hH h (blk_eval hin hl hs hx lx) (blk_eval hin hl hs hy ly) hout b c a

theorem sub_ok (g : Good P) {R : Routine} {C : Cert} {xb yb : Nat} {dw : List Nat} {b : Poly} {lam1 lam2 : List (Nat × Poly)}
    (h : subChk R C P.n (2 * val P.p) xb yb dw b lam1 lam2 = true)
    {data : List (List W64)} (hl : C.S.lens = data.map List.length) {x y : List W64} (hx : data[xb]? = some x) (hy : data[yb]? = some y)
    (lx : P.n ≤ x.length) (ly : P.n ≤ y.length) (ht : C.S.tops = []) :
    Gives R data (C.S.args.map argB) C.zb C.scratch C.keepBP (subP P (x.take P.n) (y.take P.n)) := by
  obtain ⟨w1, w2⟩ := subP_mod g (x.take P.n) (y.take P.n) (by rw [List.length_take]; omega) (by rw [List.length_take]; omega)
  exact sub_gen h hl hx hy lx ly ht w2 w1

theorem sul_ok (g : Good P) {R : Routine} {C : Cert} {xb yb : Nat} {dw : List Nat} {b : Poly} {lam1 lam2 : List (Nat × Poly)}
    (h : subChk R C (2 * P.n) (2 ^ (64 * P.n) * val P.p) xb yb dw b lam1 lam2 = true)
    {data : List (List W64)} (hl : C.S.lens = data.map List.length) {x y : List W64} (hx : data[xb]? = some x) (hy : data[yb]? = some y)
    (lx : 2 * P.n ≤ x.length) (ly : 2 * P.n ≤ y.length) (ht : C.S.tops = []) :
    Gives R data (C.S.args.map argB) C.zb C.scratch C.keepBP (sulP P (x.take (2 * P.n)) (y.take (2 * P.n))) := by
  obtain ⟨w1, w2⟩ := sulP_mod g (x.take (2 * P.n)) (y.take (2 * P.n)) (by rw [List.length_take]; omega) (by rw [List.length_take]; omega)
  exact sub_gen h hl hx hy lx ly ht w2 w1

def modChk (R : Routine) (C : Cert) (n p xb : Nat) (dw : List Nat) (b : Poly) (lam1 lam2 : List (Nat × Poly)) : Bool :=
  base C &&
  match exec R C.S C.anns C.hints C.zb n C.scratch C.keepBP with
  | some (out, F, H) => maskChk F H n (blk C.S xb n) (con p) p dw b lam1 lam2 out
  | none => false

theorem p_lt (g : Good P) : 2 * val P.p < 2 ^ (64 * P.n) := by
  have := g.small
  have := g.ppos
  omega

theorem mod_ok (g : Good P) {R : Routine} {C : Cert} {xb : Nat} {dw : List Nat} {b : Poly} {lam1 lam2 : List (Nat × Poly)}
    (h : modChk R C P.n (val P.p) xb dw b lam1 lam2 = true)
    {data : List (List W64)} (hl : C.S.lens = data.map List.length) {x : List W64} (hx : data[xb]? = some x)
    (lx : P.n ≤ x.length) (ht : C.S.tops = []) :
    Gives R data (C.S.args.map argB) C.zb C.scratch C.keepBP (modP P (x.take P.n)) := by
  unfold modChk at h
  rw [Bool.and_eq_true] at h
  obtain ⟨hb, h⟩ := h
  rcases hex : exec R C.S C.anns C.hints C.zb P.n C.scratch C.keepBP with _ | ⟨out, F, H⟩
  · rw [hex] at h; simp at h
  rw [hex] at h
  simp only at h
  have l1 : (x.take P.n).length = P.n := by rw [List.length_take]; omega
  obtain ⟨w1, w2⟩ := modP_mod g (x.take P.n) l1
  refine gives_of hex hb hl (by rw [ht]; simp) w2 (fun e bp fp xs hs hxl hout hin hF hH => ?_)
  have a := val_lt xs
  have b := val_lt (x.take P.n)
  rw [hxl] at a
  rw [l1] at b
  rw [w1]
  have := p_lt g
  exact mask_ok hF hH h (blk_eval hin hl hs hx lx) (eval_con _) hout b (by omega) a

/-- The sum is in the words `sw`. -/
def addChk (R : Routine) (C : Cert) (n p xb yb : Nat) (sw dw : List Nat) (b : Poly) (lam0 lam1 lam2 : List (Nat × Poly)) : Bool :=
  base C &&
  match exec R C.S C.anns C.hints C.zb n C.scratch C.keepBP with
  | some (out, F, H) =>
    match words H sw with
    | some X => Nat.beq sw.length n && (zmod (2 ^ (64 * n)) F lam0 (sub' X (add (blk C.S xb n) (blk C.S yb n))) &&
        maskChk F H n X (con (2 * p)) (2 * p) dw b lam1 lam2 out)
    | none => false
  | none => false

theorem add_ok (g : Good P) {R : Routine} {C : Cert} {xb yb : Nat} {sw dw : List Nat} {b : Poly} {lam0 lam1 lam2 : List (Nat × Poly)}
    (h : addChk R C P.n (val P.p) xb yb sw dw b lam0 lam1 lam2 = true)
    {data : List (List W64)} (hl : C.S.lens = data.map List.length) {x y : List W64} (hx : data[xb]? = some x) (hy : data[yb]? = some y)
    (lx : P.n ≤ x.length) (ly : P.n ≤ y.length) (ht : C.S.tops = []) :
    Gives R data (C.S.args.map argB) C.zb C.scratch C.keepBP (addP P (x.take P.n) (y.take P.n)) := by
  unfold addChk at h
  rw [Bool.and_eq_true] at h
  obtain ⟨hb, h⟩ := h
  rcases hex : exec R C.S C.anns C.hints C.zb P.n C.scratch C.keepBP with _ | ⟨out, F, H⟩
  · rw [hex] at h; simp at h
  rw [hex] at h
  simp only at h
  rcases hw : words H sw with _ | X
  · rw [hw] at h; simp at h
  rw [hw] at h
  simp only [Bool.and_eq_true] at h
  obtain ⟨hn, h0, h⟩ := h
  have hn := Nat.eq_of_beq_eq_true hn
  have l1 : (x.take P.n).length = P.n := by rw [List.length_take]; omega
  have l2 : (y.take P.n).length = P.n := by rw [List.length_take]; omega
  obtain ⟨w1, w2⟩ := addP_mod g (x.take P.n) (y.take P.n) l1 l2
  refine gives_of hex hb hl (by rw [ht]; simp) w2 (fun e bp fp xs hs hxl hout hin hF hH => ?_)
  have a := val_lt xs
  rw [hxl] at a
  rw [w1]
  have hp := p_lt g
  have hd := zmod_sound hF h0
  rw [eval_sub', eval_add, blk_eval hin hl hs hx lx, blk_eval hin hl hs hy ly] at hd
  obtain ⟨d1, d2⟩ := words_sound hH sw X hw
  rw [hn] at d2
  have hX : e.eval X = ((val (x.take P.n) + val (y.take P.n)) % 2 ^ (64 * P.n) : Nat) := by
    have h5 : e.eval X % ((2 ^ (64 * P.n) : Nat) : Int) = (val (x.take P.n) + val (y.take P.n) : Nat) % ((2 ^ (64 * P.n) : Nat) : Int) :=
      Int.emod_eq_emod_iff_emod_sub_eq_zero.mpr (Int.emod_eq_zero_of_dvd (by push_cast at hd ⊢; exact hd))
    rw [Int.emod_eq_of_lt d1 (by push_cast; exact d2)] at h5
    rw [h5, Int.natCast_emod]
  exact mask_ok hF hH h hX (eval_con _) hout (Nat.mod_lt _ (by positivity)) (by omega) a

end Lemmas.AsmFam
