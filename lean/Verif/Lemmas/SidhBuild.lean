import Verif.Model.SidhBuild
import Verif.Lemmas.SidhLimb
import Verif.Props.AsmArm
/-
The field operations of the builds agree with those of arith_generic.go on field elements.
-/
namespace Lemmas.SidhBuild
open Model Model.Limb Model.Asm Model.Sidh Spec Spec.Asm Spec.Sidh Lemmas.Limb Lemmas.SidhArith Lemmas.SidhGood Lemmas.SidhFp2 Lemmas.SidhNat
open Props.SidhKeys Props.SidhFp2

variable {f : Fld} {M : Arith}

/-! ### The routines -/

/-- The routines compute what the portable ones do: on all words, but products only on numbers without the top bit, and swaps for the
choices 0 and 1. -/
structure Agrees (M : Arith) (f : Fld) : Prop where
  add : ∀ {x y : List W64}, x.length = f.words → y.length = f.words → M.add x y = addP (primeOf f) x y
  sub : ∀ {x y : List W64}, x.length = f.words → y.length = f.words → M.sub x y = subP (primeOf f) x y
  mul : ∀ {x y : List W64}, x.length = f.words → y.length = f.words → val x < 2 ^ (64 * f.words - 1) → val y < 2 ^ (64 * f.words - 1) →
    M.mul x y = mulW (primeOf f) x y
  rdc : ∀ {x : List W64}, x.length = 2 * f.words → M.rdc x = rdcP (primeOf f) x
  adl : ∀ {x y : List W64}, x.length = 2 * f.words → y.length = 2 * f.words → M.adl x y = adlP x y
  sul : ∀ {x y : List W64}, x.length = 2 * f.words → y.length = 2 * f.words → M.sul x y = sulP (primeOf f) x y
  mod : ∀ {x : List W64}, x.length = f.words → M.mod x = modP (primeOf f) x
  cswap : ∀ {x y : List W64} {c : Byte}, c = 0 ∨ c = 1 → x.length = f.words → y.length = f.words → M.cswap x y c = cswapP x y c

theorem agrees_portable (f : Fld) : Agrees (portable (primeOf f)) f :=
  ⟨fun _ _ => rfl, fun _ _ => rfl, fun _ _ _ _ => rfl, fun _ => rfl, fun _ _ => rfl, fun _ _ => rfl, fun _ => rfl, fun _ _ _ => rfl⟩

theorem map_numOf (l : List W64) : (l.map Val.w).map numOf = l := by
  rw [List.map_map]; exact List.map_id l

theorem fill_length (e : Env) (m : Nat) (x : List W64) (h : x.length ≤ m) : (e.fill m x).length = m := by
  simp only [Env.fill, List.length_append, List.length_map, List.length_range]; omega

theorem dest_length (e : Env) (m : Nat) : (e.dest m).length = m := by simp [Env.dest]

theorem fill_take (e : Env) (m : Nat) {x : List W64} {n : Nat} (h : x.length = n) : (e.fill m x).take n = x := by
  subst h; exact List.take_left

/-- What a call of a routine that does its work gives. -/
theorem result_eq (e : Env) {R : Routine} {data : List (List W64)} {args : List Nat} {zb : Nat} {scratch : List Nat} {res d : List W64} {n : Nat}
    (h : Writes R data args zb scratch res) (hd : data[zb]? = some d) (hz : zb ∉ scratch) (hn : res.length = n) :
    e.result R data (args.map .arr) zb n = res := by
  obtain ⟨data', bp', h1, _, h3⟩ := h e.junk ((List.range R.frame).map e.stack) e.bp e.fp (by simp)
  have h4 := h3 zb d hd hz
  rw [if_pos rfl] at h4
  simp only [Env.result, h1, List.getD_eq_getElem?_getD, h4, Option.getD_some]
  rw [← List.map_take, map_numOf, ← hn, List.take_left]

theorem op2_eq (e : Env) {R : Routine} {m k n : Nat} {x y res : List W64} (hn : res.length = n)
    (h : Writes R [e.dest m, e.fill k x, e.fill k y] [0, 1, 2] 0 [] res) : e.op2 R m k n x y = res :=
  result_eq e (args := [0, 1, 2]) h rfl (by simp) hn

/-- The byte of the argument slot. -/
theorem slot_eq (u : W64) (c : Byte) : Props.AsmCsidh.choiceOf ((u <<< 8) ||| c.zeroExtend 64) = c := by
  apply BitVec.eq_of_getLsbD_eq
  intro i hi
  simp only [Props.AsmCsidh.choiceOf, BitVec.getLsbD_setWidth, BitVec.getLsbD_or, BitVec.getLsbD_shiftLeft]
  simp [hi, show i < 64 by omega]

theorem swap_eq (e : Env) {R : Routine} {n : Nat} {x y u v : List W64} {c : Byte} (lu : u.length = n) (lv : v.length = n)
    {u' v' : List W64} (h : Returns R [e.fill 12 x, e.fill 12 y] [.arr 0, .arr 1, .num ((e.rest 0 <<< 8) ||| c.zeroExtend 64)] [u ++ u', v ++ v']) :
    e.swap R n x y c = (u, v) := by
  have h1 := h e.junk ((List.range R.frame).map e.stack) e.bp e.fp (by simp)
  simp only [Env.swap, Env.result, h1, List.map_cons, List.getD_cons_zero, List.getD_cons_succ]
  rw [← List.map_take, map_numOf, ← lu, List.take_left, ← List.map_take, map_numOf, lu, ← lv, List.take_left]


theorem len_add {x y : List W64} (hx : x.length = f.words) (hy : y.length = f.words) : (addP (primeOf f) x y).length = f.words := by
  have hp : (primeOf f).px2.length = f.words := by rw [(good f).lpx2, n_eq]
  obtain ⟨_, a⟩ := addLoop_mod x y (hx.trans hy.symm)
  obtain ⟨_, _, b⟩ := subLoop_spec (addLoop x y 0).1 (primeOf f).px2 0 (by rw [a, hx, hp]) (by decide)
  exact (addLoop_mod _ _ (by rw [maskWords_length, b, a, hx, hp])).2.trans (by rw [b, a, hx])

theorem len_sub {x y : List W64} (hx : x.length = f.words) (hy : y.length = f.words) : (subP (primeOf f) x y).length = f.words := by
  have hp : (primeOf f).px2.length = f.words := by rw [(good f).lpx2, n_eq]
  obtain ⟨_, _, b⟩ := subLoop_spec x y 0 (hx.trans hy.symm) (by decide)
  exact (addLoop_mod _ _ (by rw [maskWords_length, b, hx, hp])).2.trans (by rw [b, hx])

theorem len_mod {x : List W64} (hx : x.length = f.words) : (modP (primeOf f) x).length = f.words := by
  have hp : (primeOf f).p.length = f.words := by rw [(good f).lp, n_eq]
  obtain ⟨_, _, b⟩ := subLoop_spec x (primeOf f).p 0 (hx.trans hp.symm) (by decide)
  exact (addLoop_mod _ _ (by rw [maskWords_length, b, hx, hp])).2.trans (by rw [b, hx])

theorem len_adl {x y : List W64} {n : Nat} (hx : x.length = n) (hy : y.length = n) : (adlP x y).length = n :=
  (addLoop_mod x y (hx.trans hy.symm)).2.trans hx

theorem len_sul {x y : List W64} (hx : x.length = 2 * f.words) (hy : y.length = 2 * f.words) : (sulP (primeOf f) x y).length = 2 * f.words := by
  have hp : (primeOf f).p.length = f.words := by rw [(good f).lp, n_eq]
  have hn := n_eq f
  obtain ⟨_, _, b⟩ := subLoop_spec x y 0 (hx.trans hy.symm) (by decide)
  have hd : ((subLoop x y 0).1.drop (primeOf f).n).length = f.words := by rw [List.length_drop, b, hx]; omega
  have := (addLoop_mod ((subLoop x y 0).1.drop (primeOf f).n) (maskWords (primeOf f).p (0 - (subLoop x y 0).2)) (by rw [maskWords_length, hd, hp])).2
  change ((subLoop x y 0).1.take (primeOf f).n ++ _).length = _
  rw [List.length_append, List.length_take, b, hx, this, hd]; omega

theorem len_mul {x y : List W64} (hx : x.length = f.words) (hy : y.length = f.words) : (mulW (primeOf f) x y).length = 2 * f.words :=
  (mulW_spec (good f) x y (by rw [hx, n_eq]) (by rw [hy, n_eq])).2.trans (by rw [n_eq])

theorem len_rdc {x : List W64} (hx : x.length = 2 * f.words) : (rdcP (primeOf f) x).length = f.words := by
  obtain ⟨_, _, _, _, h⟩ := rdcP_mod (good f) x (by rw [hx, n_eq])
  rw [h, n_eq]

theorem len_cswap {x y : List W64} {c : Byte} (hc : c = 0 ∨ c = 1) (hx : x.length = f.words) (hy : y.length = f.words) :
    (cswapP x y c).1.length = f.words ∧ (cswapP x y c).2.length = f.words := by
  obtain ⟨h0, h1⟩ := cswapP_spec x y (hx.trans hy.symm)
  rcases hc with rfl | rfl
  · rw [h0]; exact ⟨hx, hy⟩
  · rw [h1]; exact ⟨hy, hx⟩

theorem snd_none (x y : List W64) : Alias.none.snd x y = y := rfl

theorem words_le (f : Fld) : f.words ≤ 12 := by cases f <;> decide

open Props.AsmArith in
/-- amd64, on every CPU and whatever the calls find. -/
theorem agrees_amd64 (f : Fld) (c : Cpu) (e : List W64 → List W64 → Env) : Agrees (amd64 f c e) f := by
  have hw := words_le f
  constructor
  · intro x y hx hy
    refine op2_eq _ (len_add hx hy) ?_
    have h := c78_add f c .none (dest_length (e x y) 12) (fill_length (e x y) 12 x (by omega)) (fill_length (e x y) 12 y (by omega))
    rw [snd_none, fill_take _ _ hx, fill_take _ _ hy] at h
    exact h
  · intro x y hx hy
    refine op2_eq _ (len_sub hx hy) ?_
    have h := c78_sub f c .none (dest_length (e x y) 12) (fill_length (e x y) 12 x (by omega)) (fill_length (e x y) 12 y (by omega))
    rw [snd_none, fill_take _ _ hx, fill_take _ _ hy] at h
    exact h
  · intro x y hx hy vx vy
    refine op2_eq _ (len_mul hx hy) ?_
    have h := (c79_mul f c (dest_length (e x y) 24) (fill_length (e x y) 12 x (by omega)) (fill_length (e x y) 12 y (by omega))
      (by rw [fill_take _ _ hx]; exact vx) (by rw [fill_take _ _ hy]; exact vy)).1
    rw [fill_take _ _ hx, fill_take _ _ hy] at h
    exact h
  · intro x hx
    have h := c81_rdc f c (dest_length (e x []) 12) (fill_length (e x []) 24 x (by omega))
    rw [fill_take _ _ hx] at h
    exact result_eq (e x []) (args := [0, 1]) h rfl (by simp) (len_rdc hx)
  · intro x y hx hy
    refine op2_eq _ (len_adl hx hy) ?_
    have h := c78_adl f c .none (dest_length (e x y) 24) (fill_length (e x y) 24 x (by omega)) (fill_length (e x y) 24 y (by omega))
    rw [snd_none, fill_take _ _ hx, fill_take _ _ hy] at h
    exact h
  · intro x y hx hy
    refine op2_eq _ (len_sul hx hy) ?_
    have h := c78_sul f c .none (dest_length (e x y) 24) (fill_length (e x y) 24 x (by omega)) (fill_length (e x y) 24 y (by omega))
    rw [snd_none, fill_take _ _ hx, fill_take _ _ hy] at h
    exact h
  · intro x hx
    have h := c78_mod f c (fill_length (e x []) 12 x (by omega))
    rw [fill_take _ _ hx] at h
    exact result_eq (e x []) (args := [0]) h rfl (by simp) (len_mod hx)
  · intro x y b hb hx hy
    obtain ⟨l1, l2⟩ := len_cswap hb hx hy
    have h := Props.AsmCsidh.c85_sidh_portable f (((e x y).rest 0 <<< 8) ||| b.zeroExtend 64) (fill_length (e x y) 12 x (by omega)) (fill_length (e x y) 12 y (by omega))
    rw [slot_eq, fill_take _ _ hx, fill_take _ _ hy] at h
    refine swap_eq (e x y) l1 l2 ?_ (u' := ((e x y).fill 12 x).drop f.words) (v' := ((e x y).fill 12 y).drop f.words)
    cases f <;> exact h

open Props.AsmArm in
/-- arm64, but for the products. -/
theorem agrees_arm64_with (g : Arm64.Field) (e : List W64 → List W64 → Env) {mul : List W64 → List W64 → List W64}
    (hm : ∀ {x y : List W64}, x.length = g.fld.words → y.length = g.fld.words → val x < 2 ^ (64 * g.fld.words - 1) → val y < 2 ^ (64 * g.fld.words - 1) →
      mul x y = mulW (primeOf g.fld) x y) : Agrees {arm64 g e with mul := mul} g.fld := by
  have hw := words_le g.fld
  constructor
  · intro x y hx hy
    refine op2_eq _ (len_add hx hy) ?_
    have h := c87_add g .none (dest_length (e x y) 12) (fill_length (e x y) 12 x (by omega)) (fill_length (e x y) 12 y (by omega))
    rw [snd_none, fill_take _ _ hx, fill_take _ _ hy] at h
    exact h
  · intro x y hx hy
    refine op2_eq _ (len_sub hx hy) ?_
    have h := c87_sub g .none (dest_length (e x y) 12) (fill_length (e x y) 12 x (by omega)) (fill_length (e x y) 12 y (by omega))
    rw [snd_none, fill_take _ _ hx, fill_take _ _ hy] at h
    exact h
  · exact hm
  · intro x hx
    have h := c88_rdc g (dest_length (e x []) 12) (fill_length (e x []) 24 x (by omega))
    rw [fill_take _ _ hx] at h
    exact result_eq (e x []) (args := [0, 1]) h rfl (by simp) (len_rdc hx)
  · intro x y hx hy
    refine op2_eq _ (len_adl hx hy) ?_
    have h := c87_adl g .none (dest_length (e x y) 24) (fill_length (e x y) 24 x (by omega)) (fill_length (e x y) 24 y (by omega))
    rw [snd_none, fill_take _ _ hx, fill_take _ _ hy] at h
    exact h
  · intro x y hx hy
    refine op2_eq _ (len_sul hx hy) ?_
    have h := c87_sul g .none (dest_length (e x y) 24) (fill_length (e x y) 24 x (by omega)) (fill_length (e x y) 24 y (by omega))
    rw [snd_none, fill_take _ _ hx, fill_take _ _ hy] at h
    exact h
  · intro x hx
    have h := c87_mod g (fill_length (e x []) 12 x (by omega))
    rw [fill_take _ _ hx] at h
    exact result_eq (e x []) (args := [0]) h rfl (by simp) (len_mod hx)
  · intro x y b hb hx hy
    obtain ⟨l1, l2⟩ := len_cswap hb hx hy
    have h := c92_portable g (((e x y).rest 0 <<< 8) ||| b.zeroExtend 64) (by rw [slot_eq]; exact hb)
      (fill_length (e x y) 12 x (by omega)) (fill_length (e x y) 12 y (by omega))
    rw [slot_eq, fill_take _ _ hx, fill_take _ _ hy] at h
    exact swap_eq (e x y) l1 l2 h

/-- arm64, p751. -/
theorem agrees_arm64 (e : List W64 → List W64 → Env) : Agrees (arm64 .p751 e) .p751 := by
  refine agrees_arm64_with .p751 e (mul := (arm64 .p751 e).mul) ?_
  intro x y hx hy _ _
  have hw : Arm64.Field.p751.fld.words ≤ 12 := words_le _
  refine op2_eq _ (len_mul hx hy) ?_
  have h := Props.AsmArm.mul_writes .p751 (dest_length (e x y) 24) (fill_length (e x y) 12 x (by omega)) (fill_length (e x y) 12 y (by omega)) (fun h => by cases h)
  rw [fill_take _ _ hx, fill_take _ _ hy] at h
  exact h

/-! ### fp2.go -/

section
variable (h : Agrees M f)
include h

omit h in
theorem top (f : Fld) : 2 * f.p < 2 ^ (64 * f.words - 1) := by cases f <;> decide +kernel

theorem mulW_eq {x y : List W64} (hx : V f x) (hy : V f y) : M.mul x y = mulW (primeOf f) x y :=
  h.mul hx.len hy.len (lt_trans hx.lt (top f)) (lt_trans hy.lt (top f))

theorem rdc_mul_eq {x y : List W64} (hx : V f x) (hy : V f y) : M.rdc (M.mul x y) = rdcP (primeOf f) (mulW (primeOf f) x y) := by
  rw [mulW_eq h hx hy, h.rdc (len_mul hx.len hy.len)]

theorem mulP_eq {x y : List W64} (hx : V f x) (hy : V f y) : M.mulP x y = mulP (primeOf f) x y := rdc_mul_eq h hx hy

theorem p34Table_eq {xx : List W64} (hxx : V f xx) (k : Nat) : ∀ {last : List W64}, V f last → M.p34Table xx last k = p34Table (primeOf f) xx last k := by
  induction k with
  | zero => intro last _; rfl
  | succ k ih =>
    intro last hl
    simp only [Arith.p34Table, p34Table]
    rw [mulP_eq h hl hxx, ih (mulP_V hl hxx).1]

theorem sqrTimes_eq (k : Nat) : ∀ {d : List W64}, V f d → M.sqrTimes d k = sqrTimes (primeOf f) d k := by
  induction k with
  | zero => intro d _; rfl
  | succ k ih =>
    intro d hd
    simp only [Arith.sqrTimes, sqrTimes]
    rw [mulP_eq h hd hd, ih (mulP_V hd hd).1]

theorem p34Loop_eq (lookup : List (List W64)) (hl : ∀ i, i < 16 → V f (lookup.getD i [])) (pows : List Nat) : ∀ (muls : List Nat) (d : List W64),
    (∀ m ∈ muls, m < 16) → V f d → M.p34Loop lookup d pows muls = p34Loop (primeOf f) lookup d pows muls := by
  induction pows with
  | nil => intro muls d _ _; simp [Arith.p34Loop, p34Loop]
  | cons pw pows ih =>
    intro muls d hm hd
    cases muls with
    | nil => simp [Arith.p34Loop, p34Loop]
    | cons m muls =>
      simp only [Arith.p34Loop, p34Loop]
      have a := (mulP_V hd hd).1
      have b := (sqrTimes_V (pw - 1) a).1
      have l := hl m (hm m (by simp))
      rw [mulP_eq h hd hd, sqrTimes_eq h _ a, mulP_eq h b l]
      exact ih _ _ (fun k hk => hm k (by simp [hk])) (mulP_V b l).1

theorem p34_eq {x : List W64} (hx : V f x) : M.p34 (primeOf f) x = p34 (primeOf f) x := by
  obtain ⟨_, t2, t3⟩ := tables f
  have a := (mulP_V hx hx).1
  simp only [Arith.p34, p34]
  rw [mulP_eq h hx hx, p34Table_eq h a 15 hx]
  have hl : ∀ i, i < 16 → V f ((x :: p34Table (primeOf f) (mulP (primeOf f) x x) x 15).getD i []) := by
    intro i hi
    cases i with
    | zero => exact hx
    | succ i => exact (p34Table_V (last := x) a 15 x hx i (by omega)).1
  exact p34Loop_eq h _ hl _ _ _ t2 (hl _ t3)

theorem add2_eq {x y : Fp2} (hx : V2 f x) (hy : V2 f y) : M.add2 x y = add (primeOf f) x y := by
  simp only [Arith.add2, add, h.add hx.A.len hy.A.len, h.add hx.B.len hy.B.len]

theorem sub2_eq {x y : Fp2} (hx : V2 f x) (hy : V2 f y) : M.sub2 x y = sub (primeOf f) x y := by
  simp only [Arith.sub2, sub, h.sub hx.A.len hy.A.len, h.sub hx.B.len hy.B.len]

theorem mul2_eq {x y : Fp2} (hx : V2 f x) (hy : V2 f y) : M.mul2 x y = mul (primeOf f) x y := by
  have s1 := (subP_V hx.B hx.A).1
  have s2 := (subP_V hy.A hy.B).1
  have l1 := len_mul (f := f) hx.A.len hy.A.len
  have l2 := len_mul (f := f) hx.B.len hy.B.len
  have l3 := len_mul (f := f) s1.len s2.len
  simp only [Arith.mul2, mul]
  rw [mulW_eq h hx.A hy.A, mulW_eq h hx.B hy.B, h.sub hx.B.len hx.A.len, h.sub hy.A.len hy.B.len, mulW_eq h s1 s2,
    h.adl l3 l1, h.adl (len_adl l3 l1) l2, h.sul l1 l2, h.rdc (len_sul l1 l2), h.rdc (len_adl (len_adl l3 l1) l2)]

theorem sqr2_eq {x : Fp2} (hx : V2 f x) : M.sqr2 x = sqr (primeOf f) x := by
  have a1 := (addP_V hx.A hx.A).1
  have a2 := (addP_V hx.A hx.B).1
  have a3 := (subP_V hx.A hx.B).1
  simp only [Arith.sqr2, sqr]
  rw [h.add hx.A.len hx.A.len, h.add hx.A.len hx.B.len, h.sub hx.A.len hx.B.len, rdc_mul_eq h a2 a3, rdc_mul_eq h a1 hx.B]

theorem inv2_eq {x : Fp2} (hx : V2 f x) : M.inv2 (primeOf f) x = inv (primeOf f) x := by
  have l1 := len_mul (f := f) hx.A.len hx.A.len
  have l2 := len_mul (f := f) hx.B.len hx.B.len
  have hr := room f
  have hp := p_gt f
  obtain ⟨e1, e1l, e1b⟩ := mulW_V hx.A hx.A
  obtain ⟨e2, e2l, e2b⟩ := mulW_V hx.B hx.B
  have hR : (2 : Nat) ^ (64 * (2 * f.words)) = f.R * f.R := by rw [Fld.R, ← Nat.pow_add]; congr 1; omega
  have hpp : 4 * f.p * f.p + 4 * f.p * f.p ≤ f.p * f.R := by nlinarith
  have hRR : f.p * f.R ≤ f.R * f.R := Nat.mul_le_mul_right _ (by omega)
  obtain ⟨d1, d1l⟩ := adlP_spec (mulW (primeOf f) x.A x.A) (mulW (primeOf f) x.B x.B) (by omega) (by rw [e1l, hR, e1, e2]; omega)
  have f1 := (rdcP_V (f := f) (x := adlP (mulW (primeOf f) x.A x.A) (mulW (primeOf f) x.B x.B)) (by omega) (by rw [d1, e1, e2]; omega)).1
  have f2 := (mulP_V f1 f1).1
  have f3 := (p34_V f2).1
  have f4 := (mulP_V f3 f3).1
  have f5 := (mulP_V f4 f1).1
  have z := (zero_V f).1
  have n := (subP_V z hx.B).1
  simp only [Arith.inv2, inv]
  rw [mulW_eq h hx.A hx.A, mulW_eq h hx.B hx.B, h.adl l1 l2, h.rdc (len_adl l1 l2), mulP_eq h f1 f1, p34_eq h f2, mulP_eq h f3 f3,
    mulP_eq h f4 f1, rdc_mul_eq h hx.A f5, h.sub z.len hx.B.len, rdc_mul_eq h n f5]

theorem cswap2_eq {x y : Fp2} {c : Byte} (hc : c = 0 ∨ c = 1) (hx : V2 f x) (hy : V2 f y) : M.cswap2 x y c = cswap x y c := by
  simp only [Arith.cswap2, cswap, h.cswap hc hx.A.len hy.A.len, h.cswap hc hx.B.len hy.B.len]

/-- The same element, and a field element. -/
def Same (f : Fld) (x y : Fp2) : Prop := x = y ∧ V2 f y

theorem ops_rel : OpsRel (M.ops (primeOf f)) (limbOps (primeOf f)) (Same f) where
  add := by
    rintro x y x' y' ⟨rfl, hx⟩ ⟨rfl, hy⟩
    exact ⟨add2_eq h hx hy, (add_V hx hy).1⟩
  sub := by
    rintro x y x' y' ⟨rfl, hx⟩ ⟨rfl, hy⟩
    exact ⟨sub2_eq h hx hy, (sub_V hx hy).1⟩
  mul := by
    rintro x y x' y' ⟨rfl, hx⟩ ⟨rfl, hy⟩
    exact ⟨mul2_eq h hx hy, (mul_V hx hy).1⟩
  sqr := by
    rintro x x' ⟨rfl, hx⟩
    exact ⟨sqr2_eq h hx, (sqr_V hx).1⟩
  inv := by
    rintro x x' ⟨rfl, hx⟩
    exact ⟨inv2_eq h hx, (inv_V hx).1⟩
  cswap := by
    rintro x y x' y' c hc ⟨rfl, hx⟩ ⟨rfl, hy⟩
    have e : (M.ops (primeOf f)).cswap x y c = cswap x y c := cswap2_eq h hc hx hy
    rw [e]
    change Same f (cswap x y c).1 (cswap x y c).1 ∧ Same f (cswap x y c).2 (cswap x y c).2
    obtain ⟨h0, h1⟩ := Props.SidhArith.c42_cswap2 x y (by rw [hx.A.len, hy.A.len]) (by rw [hx.B.len, hy.B.len])
    rcases hc with rfl | rfl
    · rw [h0]; exact ⟨⟨rfl, hx⟩, rfl, hy⟩
    · rw [h1]; exact ⟨⟨rfl, hy⟩, rfl, hx⟩

theorem fromMontgomery_eq {x : Fp2} (lA : x.A.length = f.words) (lB : x.B.length = f.words) : M.fromMontgomery (primeOf f) x = fromMontgomery (primeOf f) x := by
  have l : ∀ {u : List W64}, u.length = f.words → (u ++ List.replicate (primeOf f).n 0).length = 2 * f.words := by
    intro u hu; rw [List.length_append, hu, List.length_replicate, n_eq]; omega
  simp only [Arith.fromMontgomery, fromMontgomery, h.rdc (l lA), h.rdc (l lB), h.mod (len_rdc (l lA)), h.mod (len_rdc (l lB))]

theorem toMontgomery_eq {x : Fp2} (lA : x.A.length = f.words) (lB : x.B.length = f.words) (vA : val x.A < 2 ^ (64 * f.words - 1))
    (vB : val x.B < 2 ^ (64 * f.words - 1)) : M.toMontgomery (primeOf f) x = toMontgomery (primeOf f) x ∧ V2 f (toMontgomery (primeOf f) x) := by
  obtain ⟨r, rl⟩ := r2_val f
  have vr : val (primeOf f).r2 < 2 ^ (64 * f.words - 1) := by
    have : f.R * f.R % f.p < f.p := Nat.mod_lt _ (by have := p_gt f; omega)
    have := top f
    omega
  refine ⟨?_, ⟨(toMont1 lA).1, (toMont1 lB).1⟩⟩
  simp only [Arith.toMontgomery, toMontgomery]
  rw [h.mul lA rl vA vr, h.mul lB rl vB vr, h.rdc (len_mul lA rl), h.rdc (len_mul lB rl)]

end

end Lemmas.SidhBuild
