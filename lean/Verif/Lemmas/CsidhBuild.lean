import Verif.Model.CsidhBuild
import Verif.Lemmas.SidhBuild
import Verif.Lemmas.CsidhNat
import Verif.Lemmas.CsidhKeys
import Verif.Lemmas.CsidhValidate
/-
CSIDH over the routines of a build agrees with CSIDH over those of fp511_generic.go.
-/
namespace Lemmas.CsidhBuild
open Model Model.Limb Model.Asm Model.Csidh Spec Spec.Asm Lemmas.CsidhNat Lemmas.CsidhArith

/-! ### The routines -/

/-- The routines compute what the portable ones do on 8 words; swaps for the choices 0 and 1. -/
structure Agrees (M : Prim) : Prop where
  mul512 : ∀ {x : Fp} {m : W64}, x.length = 8 → M.mul512 x m = mul512 x m
  mul576 : ∀ {x : Fp} {m : W64}, x.length = 8 → M.mul576 x m = mul576 x m
  cswap : ∀ {x y : Fp} {c : Byte}, c = 0 ∨ c = 1 → x.length = 8 → y.length = 8 → M.cswap512 x y c = cswap512 x y c
  bmi : ∀ f, M.bmi = some f → ∀ {x y : Fp}, x.length = 8 → y.length = 8 → f x y = mulGeneric x y

theorem agrees_portable : Agrees portable := ⟨fun _ => rfl, fun _ => rfl, fun _ _ _ => rfl, fun _ h => by cases h⟩

theorem result_ret (e : Sidh.Env) {R : Routine} {data : List (List W64)} {args : List Arg} {data' : List (List W64)} {b n : Nat} {d : List W64}
    (h : Returns R data args data') (hd : data'[b]? = some d) (hn : d.length = n) : e.result R data args b n = d := by
  have h1 := h e.junk ((List.range R.frame).map e.stack) e.bp e.fp (by simp)
  simp only [Sidh.Env.result, h1, List.getD_eq_getElem?_getD, List.getElem?_map, hd, Option.map_some, Option.getD_some]
  rw [← List.map_take, Lemmas.SidhBuild.map_numOf, ← hn, List.take_length]

theorem addLoop_len : ∀ (x y : List W64) (c : W64), x.length = y.length → (addLoop x y c).1.length = x.length
  | [], [], _, _ => rfl
  | _ :: xs, _ :: ys, c, h => by
    simp only [addLoop, List.length_cons]
    rw [addLoop_len xs ys _ (by simpa using h)]
  | [], _ :: _, _, h => by simp at h
  | _ :: _, [], _, h => by simp at h

theorem len_condSub {r : Fp} (h : r.length = 8) : (condSub r).length = 8 := by
  obtain ⟨_, _, b⟩ := Lemmas.Limb.subLoop_spec r p 0 (by rw [h]; rfl) (by decide)
  simp only [condSub, pickWords, List.length_zipWith, b, h, Nat.min_self]

theorem len_addRdc {x y : Fp} (hx : x.length = 8) (hy : y.length = 8) : (addRdc x y).length = 8 :=
  len_condSub ((addLoop_len x y 0 (hx.trans hy.symm)).trans hx)

theorem len_subRdc {x y : Fp} (hx : x.length = 8) (hy : y.length = 8) : (subRdc x y).length = 8 := by
  obtain ⟨_, _, b⟩ := Lemmas.Limb.subLoop_spec x y 0 (hx.trans hy.symm) (by decide)
  exact (addLoop_len _ _ 0 (by rw [b, List.length_map, hx]; rfl)).trans (b.trans hx)

theorem len_mulRound {y s : Fp} {xi c0 : W64} (hy : y.length = 8) (hs : s.length = 8) : (mulRound y s xi c0).1.length = 8 := by
  have h1 := (mul576_spec p ((xi * word y 0 + word s 0) * word pNegInv 0) rfl).1
  have h2 := (mul576_spec y xi hy).1
  have h3 := addLoop_len (mul576 p ((xi * word y 0 + word s 0) * word pNegInv 0)) (mul576 y xi) c0 (h1.trans h2.symm)
  simp only [mulRound, List.length_append, List.length_cons, List.length_nil]
  rw [addLoop_len _ _ _ (by rw [List.length_take, List.length_take, List.length_drop, List.length_drop, h3, h1, hs]; rfl)]
  rw [List.length_take, List.length_drop, h3, h1]
  rfl

theorem len_mulLoop {y : Fp} (hy : y.length = 8) : ∀ (xs : List W64) (s : Fp × W64), s.1.length = 8 → (mulLoop y xs s).1.length = 8
  | [], _, h => h
  | _ :: xs, (_, _), h => len_mulLoop hy xs _ (len_mulRound hy h)

theorem len_mulGeneric {x y : Fp} (hy : y.length = 8) : (mulGeneric x y).length = 8 :=
  len_mulRound hy (len_mulLoop hy _ _ (by simp))

theorem len_mulRdc {x y : Fp} (hy : y.length = 8) : (mulRdc x y).length = 8 := len_condSub (len_mulGeneric hy)

theorem agrees_amd64 (c : Cpu) (e : List W64 → List W64 → Sidh.Env) : Agrees (amd64 c e) where
  mul512 := fun {x m} hx => by
    obtain ⟨h1, -, h3, -⟩ := Props.AsmCsidh.c84_mul512 (z := (e x [m]).dest 8) c m (Lemmas.SidhBuild.dest_length _ _) hx
    exact result_ret _ h1 rfl h3
  mul576 := fun {x m} hx => by
    obtain ⟨h1, h3, -⟩ := Props.AsmCsidh.c84_mul576 (z := (e x [m]).dest 9) m (Lemmas.SidhBuild.dest_length _ _) hx
    exact result_ret _ h1 rfl h3
  cswap := fun {x y c} hc hx hy => by
    have hs := Lemmas.SidhBuild.slot_eq ((e x y).rest 0) c
    obtain ⟨h1, h2⟩ := Props.AsmCsidh.c85_csidh ((((e x y).rest 0) <<< 8) ||| c.zeroExtend 64) (by rw [hs]; exact hc) hx hy
    rw [hs] at h1 h2
    rw [h2]
    simp only [amd64]
    rcases hc with rfl | rfl
    · rw [if_neg (by decide)] at h1 ⊢
      rw [result_ret _ h1 (b := 0) rfl hx, result_ret _ h1 (b := 1) rfl hy]
    · rw [if_pos rfl] at h1 ⊢
      rw [result_ret _ h1 (b := 0) rfl hy, result_ret _ h1 (b := 1) rfl hx]
  bmi := fun f hf x y hx hy => by
    cases c with
    | base => cases hf
    | bmi2 => cases hf
    | adx =>
      simp only [amd64, Option.some.injEq] at hf
      subst hf
      exact result_ret _ (Props.AsmCsidh.c84_mulBmi .none (Lemmas.SidhBuild.dest_length _ _) hx hy) rfl (len_mulGeneric hy)

/-! ### fp511.go -/

variable {M : Prim}

theorem mulRound_eq (h : Agrees M) {y s : Fp} {xi c0 : W64} (hy : y.length = 8) : M.mulRound y s xi c0 = mulRound y s xi c0 := by
  simp only [Prim.mulRound, mulRound]
  rw [h.mul576 (x := p) rfl, h.mul576 hy]

theorem mulLoop_eq (h : Agrees M) {y : Fp} (hy : y.length = 8) : ∀ (xs : List W64) (s : Fp × W64), M.mulLoop y xs s = mulLoop y xs s
  | [], _ => rfl
  | xi :: xs, (s, _) => by rw [Prim.mulLoop, mulLoop, mulRound_eq h hy, mulLoop_eq h hy xs]

theorem mulGeneric_eq (h : Agrees M) {x y : Fp} (hy : y.length = 8) : M.mulGeneric x y = mulGeneric x y := by
  unfold Prim.mulGeneric mulGeneric
  rw [mulLoop_eq h hy]
  simp only [mulRound_eq h hy]

theorem mulRdc_eq (h : Agrees M) {x y : Fp} (hx : x.length = 8) (hy : y.length = 8) : M.mulRdc x y = mulRdc x y := by
  unfold Prim.mulRdc mulRdc
  cases hb : M.bmi with
  | none => rw [mulGeneric_eq h hy]
  | some f => simp only [h.bmi f hb hx hy]

theorem precomp_eq (h : Agrees M) {b : Fp} (hb : b.length = 8) : ∀ k, M.precomp b k = precomp b k ∧ (precomp b k).length = 2 * k + 2 ∧
    ∀ x ∈ precomp b k, x.length = 8
  | 0 => ⟨rfl, rfl, by
      intro x hx
      simp only [precomp, List.mem_cons, List.not_mem_nil, or_false] at hx
      rcases hx with rfl | rfl
      · rfl
      · exact hb⟩
  | k + 1 => by
    obtain ⟨h1, h2, h3⟩ := precomp_eq h hb k
    have hg : ((precomp b k).getD (2 * (k + 1) / 2) []).length = 8 := by
      rw [List.getD_eq_getElem?_getD, List.getElem?_eq_getElem (by omega)]
      exact h3 _ (List.getElem_mem _)
    have hs := len_mulRdc (x := (precomp b k).getD (2 * (k + 1) / 2) []) hg
    refine ⟨?_, ?_, ?_⟩
    · simp only [Prim.precomp, precomp, h1]
      rw [mulRdc_eq h hg hg, mulRdc_eq h hs hb]
    · simp only [precomp, List.length_append, h2]; rfl
    · intro x hx
      simp only [precomp, List.mem_append, List.mem_cons, List.not_mem_nil, or_false] at hx
      rcases hx with hx | rfl | rfl
      · exact h3 x hx
      · exact hs
      · exact len_mulRdc hb

theorem sqrTimes_eq (h : Agrees M) : ∀ (k : Nat) (r : Fp), r.length = 8 → M.sqrTimes k r = sqrTimes k r ∧ (sqrTimes k r).length = 8
  | 0, _, hr => ⟨rfl, hr⟩
  | k + 1, r, hr => by
    rw [Prim.sqrTimes, sqrTimes, mulRdc_eq h hr hr]
    exact sqrTimes_eq h k _ (len_mulRdc hr)

theorem expLoop_eq (h : Agrees M) {tab : List Fp} (ht : tab.length = 16) (hl : ∀ x ∈ tab, x.length = 8) (e : Fp) :
    ∀ (i : Nat) (r : Fp), r.length = 8 → M.expLoop tab e i r = expLoop tab e i r ∧ (expLoop tab e i r).length = 8
  | 0, _, hr => ⟨rfl, hr⟩
  | i + 1, r, hr => by
    obtain ⟨h1, h2⟩ := sqrTimes_eq h 4 r hr
    have hg : (tab.getD ((word e (i / 16) >>> (i % 16 * 4)) &&& 15).toNat []).length = 8 := by
      have : ((word e (i / 16) >>> (i % 16 * 4)) &&& 15).toNat < 16 := by
        rw [BitVec.toNat_and]
        exact lt_of_le_of_lt Nat.and_le_right (by decide)
      rw [List.getD_eq_getElem?_getD, List.getElem?_eq_getElem (by omega)]
      exact hl _ (List.getElem_mem _)
    rw [Prim.expLoop, expLoop]
    simp only [h1]
    rw [mulRdc_eq h h2 hg]
    exact expLoop_eq h ht hl e i _ (len_mulRdc hg)

theorem modExp_eq (h : Agrees M) {b e : Fp} (hb : b.length = 8) (n : Nat) : M.modExpRdcCommon b e n = modExpRdcCommon b e n ∧ (modExpRdcCommon b e n).length = 8 := by
  obtain ⟨h1, h2, h3⟩ := precomp_eq h hb 7
  obtain ⟨h4, h5⟩ := expLoop_eq h h2 h3 e (n / 4) one rfl
  unfold Prim.modExpRdcCommon modExpRdcCommon
  rw [h1, h4]
  exact ⟨rfl, len_condSub h5⟩

theorem isNonQuadRes_eq (h : Agrees M) {v : Fp} (hv : v.length = 8) : M.isNonQuadRes v = isNonQuadRes v := by
  unfold Prim.isNonQuadRes isNonQuadRes Prim.modExpRdc512 modExpRdc512
  rw [(modExp_eq h hv 512).1]

/-! ### curve.go -/

/-- the same words, and 8 of them -/
structure Same (x y : Fp) : Prop where
  eq : x = y
  len : y.length = 8

theorem len_cswap {x y : Fp} {c : Byte} (hc : c = 0 ∨ c = 1) (hx : x.length = 8) (hy : y.length = 8) :
    (cswap512 x y c).1.length = 8 ∧ (cswap512 x y c).2.length = 8 := by
  obtain ⟨h0, h1⟩ := cswap512_spec x y (hx.trans hy.symm)
  rcases hc with rfl | rfl
  · rw [h0]; exact ⟨hx, hy⟩
  · rw [h1]; exact ⟨hy, hx⟩

theorem exp64_same (h : Agrees M) {x : Fp} (hx : x.length = 8) (n : W64) : Same (M.modExpRdc64 x n) (modExpRdc64 x n) := by
  unfold Prim.modExpRdc64 modExpRdc64
  generalize n :: List.replicate 7 0 = e
  obtain ⟨h1, h2⟩ := modExp_eq h (e := e) hx 64
  exact ⟨h1, h2⟩

theorem exp64_M : M.ops.exp64 = M.modExpRdc64 := rfl
theorem exp64_limb : limbOps.exp64 = modExpRdc64 := by simp only [limbOps]

theorem same_rel (h : Agrees M) : OpsRel M.ops limbOps Same := by
  constructor
  case zero => exact ⟨rfl, rfl⟩
  case one => exact ⟨rfl, rfl⟩
  case four => exact ⟨rfl, rfl⟩
  case add =>
    rintro x y _ _ ⟨rfl, hx⟩ ⟨rfl, hy⟩
    exact ⟨rfl, len_addRdc hx hy⟩
  case sub =>
    rintro x y _ _ ⟨rfl, hx⟩ ⟨rfl, hy⟩
    exact ⟨rfl, len_subRdc hx hy⟩
  case mul =>
    rintro x y _ _ ⟨rfl, hx⟩ ⟨rfl, hy⟩
    exact ⟨mulRdc_eq h hx hy, len_mulRdc hy⟩
  case exp64 =>
    rintro x _ n ⟨rfl, hx⟩
    have := exp64_same h hx n
    rw [exp64_M, exp64_limb]
    exact this
  case cswap =>
    rintro x y _ _ c hc ⟨rfl, hx⟩ ⟨rfl, hy⟩
    have := len_cswap hc hx hy
    have e : M.ops.cswap x y c = limbOps.cswap x y c := h.cswap hc hx hy
    rw [e]
    exact ⟨⟨rfl, this.1⟩, ⟨rfl, this.2⟩⟩

/-- a point of two elements of 8 words -/
structure P8 (P : Pt Fp) : Prop where
  x : P.x.length = 8
  z : P.z.length = 8

structure C8 (A : Coef Fp) : Prop where
  a : A.a.length = 8
  c : A.c.length = 8

theorem P8.rel {P : Pt Fp} (h : P8 P) : RPt Same P P := ⟨⟨rfl, h.x⟩, ⟨rfl, h.z⟩⟩
theorem C8.rel {A : Coef Fp} (h : C8 A) : RCoef Same A A := ⟨⟨rfl, h.a⟩, ⟨rfl, h.c⟩⟩

theorem pt_eq {P Q : Pt Fp} (h : RPt Same P Q) : P = Q ∧ P8 Q := by
  obtain ⟨⟨h1, h2⟩, ⟨h3, h4⟩⟩ := h
  cases P; cases Q
  simp only at h1 h3
  subst h1; subst h3
  exact ⟨rfl, ⟨h2, h4⟩⟩

theorem co_eq {A B : Coef Fp} (h : RCoef Same A B) : A = B ∧ C8 B := by
  obtain ⟨⟨h1, h2⟩, ⟨h3, h4⟩⟩ := h
  cases A; cases B
  simp only at h1 h3
  subst h1; subst h3
  exact ⟨rfl, ⟨h2, h4⟩⟩

theorem xMul_eq (h : Agrees M) {P : Pt Fp} {A : Coef Fp} (hP : P8 P) (hA : C8 A) (k : Fp) : xMul M.ops P A k = xMul limbOps P A k ∧ P8 (xMul limbOps P A k) :=
  pt_eq (xMul_rel (same_rel h) hP.rel hA.rel k)

theorem xDbl_eq (h : Agrees M) {P A : Pt Fp} (hP : P8 P) (hA : P8 A) : xDbl M.ops P A = xDbl limbOps P A ∧ P8 (xDbl limbOps P A) :=
  pt_eq (xDbl_rel (same_rel h) hP.rel hA.rel)

theorem xIso_eq (h : Agrees M) {P K : Pt Fp} {A : Coef Fp} (hP : P8 P) (hA : C8 A) (hK : P8 K) (v : W64) :
    xIso M.ops P A K v = xIso limbOps P A K v ∧ P8 (xIso limbOps P A K v).1 ∧ C8 (xIso limbOps P A K v).2 := by
  obtain ⟨h1, h2⟩ := xIso_rel (same_rel h) hP.rel hA.rel hK.rel v
  exact ⟨Prod.ext (pt_eq h1).1 (co_eq h2).1, (pt_eq h1).2, (co_eq h2).2⟩

theorem montEval_eq (h : Agrees M) {A x : Fp} (hA : A.length = 8) (hx : x.length = 8) : montEval M.ops A x = montEval limbOps A x ∧ (montEval limbOps A x).length = 8 := by
  obtain ⟨h1, h2⟩ := montEval_rel (same_rel h) ⟨rfl, hA⟩ ⟨rfl, hx⟩
  exact ⟨h1, h2⟩

/-! ### csidh.go -/

theorem len_mul512 {x : Fp} {m : W64} (hx : x.length = 8) : (mul512 x m).length = 8 := (mul512_spec x m hx).1

theorem fold_eq (h : Agrees M) : ∀ (l : List W64) (m : Fp), m.length = 8 → l.foldl M.mul512 m = l.foldl mul512 m ∧ (l.foldl mul512 m).length = 8
  | [], _, hm => ⟨rfl, hm⟩
  | v :: l, m, hm => by
    rw [List.foldl_cons, List.foldl_cons, h.mul512 hm]
    exact fold_eq h l _ (len_mul512 hm)

theorem mulPrimes_eq (h : Agrees M) (lo n : Nat) {m : Fp} (hm : m.length = 8) : M.mulPrimes lo n m = mulPrimes lo n m ∧ (mulPrimes lo n m).length = 8 := fold_eq h _ m hm

theorem cofactorMul_eq (h : Agrees M) {a : Coef Fp} (ha : C8 a) : ∀ (n lo : Nat) (P : Pt Fp) (order : Fp), P8 P → order.length = 8 →
    M.cofactorMul P a lo n order = cofactorMul P a lo n order ∧ (cofactorMul P a lo n order).2.2.length = 8 := by
  intro n
  induction n using Nat.strong_induction_on with
  | _ n ih =>
  intro lo P order hP ho
  rw [Prim.cofactorMul, cofactorMul]
  by_cases h0 : n = 0
  · rw [if_pos h0, if_pos h0]
    exact ⟨rfl, ho⟩
  rw [if_neg h0, if_neg h0]
  by_cases h1 : n = 1
  · rw [if_pos h1, if_pos h1, (xMul_eq h hP ha _).1, h.mul512 ho]
    refine ⟨rfl, ?_⟩
    split
    · simp only
      split
      · exact ho
      · split
        · exact len_mul512 ho
        · exact len_mul512 ho
    · exact ho
  rw [if_neg h1, if_neg h1]
  simp only
  obtain ⟨a1, -⟩ := mulPrimes_eq h lo ((n + 1) / 2) (m := fpw 1) rfl
  obtain ⟨b1, -⟩ := mulPrimes_eq h (lo + (n + 1) / 2) (n - (n + 1) / 2) (m := fpw 1) rfl
  rw [a1, b1]
  obtain ⟨c1, c2⟩ := xMul_eq h hP ha (mulPrimes lo ((n + 1) / 2) (fpw 1))
  obtain ⟨d1, d2⟩ := xMul_eq h hP ha (mulPrimes (lo + (n + 1) / 2) (n - (n + 1) / 2) (fpw 1))
  rw [c1, d1]
  obtain ⟨i1, i2⟩ := ih (n - (n + 1) / 2) (by omega) (lo + (n + 1) / 2) _ order c2 ho
  rw [i1]
  obtain ⟨j1, j2⟩ := ih ((n + 1) / 2) (by omega) lo _ _ d2 i2
  rw [j1]
  exact ⟨rfl, j2⟩

theorem splitKey_eq (h : Agrees M) (prv : List Byte) (sg : Bool) : ∀ (vs : List W64) (i : Nat) (s : Half), s.k.length = 8 →
    M.splitKey prv sg vs i s = splitKey prv sg vs i s ∧ (splitKey prv sg vs i s).k.length = 8
  | [], _, _, hk => ⟨rfl, hk⟩
  | v :: vs, i, s, hk => by
    rw [Prim.splitKey, splitKey]
    generalize (if sg = true then -expAt prv i else expAt prv i) = t
    by_cases ht : (0 : Int) < t.toInt
    · rw [if_pos ht, if_pos ht]
      exact splitKey_eq h prv sg vs (i + 1) {s with e := s.e.set i t} hk
    · rw [if_neg ht, if_neg ht, h.mul512 hk]
      exact splitKey_eq h prv sg vs (i + 1) {s with e := s.e.set i 0, k := mul512 s.k v} (len_mul512 hk)

theorem cofactor_eq (h : Agrees M) (e : List Byte) (i : Nat) : M.cofactor e i = cofactor e i := by
  unfold Prim.cofactor cofactor
  generalize List.range' (i + 1) (74 - (i + 1)) = l
  have : ∀ (l : List Nat) (m : Fp), m.length = 8 → l.foldl (fun cof j => if e.getD j 0 ≠ 0 then M.mul512 cof (word primes j) else cof) m =
      l.foldl (fun cof j => if e.getD j 0 ≠ 0 then mul512 cof (word primes j) else cof) m := by
    intro l
    induction l with
    | nil => intro _ _; rfl
    | cons j l ih =>
      intro m hm
      rw [List.foldl_cons, List.foldl_cons, h.mul512 hm]
      apply ih
      split
      · exact len_mul512 hm
      · exact hm
  exact this l _ rfl

structure A8 (s : ActSt) : Prop where
  P : P8 s.P
  A : C8 s.A
  k : s.half.k.length = 8

theorem actStep_eq (h : Agrees M) {sg : Bool} {st x : Fp} {v : W64} {i : Nat} {s : ActSt} (hs : A8 s) :
    M.actStep sg st x v i s = actStep sg st x v i s ∧ A8 (actStep sg st x v i s) := by
  unfold Prim.actStep actStep
  rw [cofactor_eq h]
  obtain ⟨a1, a2⟩ := xMul_eq h hs.P hs.A (cofactor s.half.e i)
  rw [a1]
  obtain ⟨K, hK⟩ : ∃ K, xMul limbOps s.P s.A (cofactor s.half.e i) = K := ⟨_, rfl⟩
  rw [hK] at a2 ⊢
  obtain ⟨b1, b2, b3⟩ := xIso_eq h hs.P hs.A a2 v
  simp only [b1]
  rw [h.mul512 hs.k]
  refine ⟨rfl, ?_⟩
  split
  · split
    · refine ⟨b2, b3, ?_⟩
      simp only
      split
      · exact len_mul512 hs.k
      · exact hs.k
    · exact ⟨hs.P, hs.A, hs.k⟩
  · exact ⟨hs.P, hs.A, hs.k⟩

theorem actLoop_eq (h : Agrees M) {sg : Bool} {st x : Fp} : ∀ (vs : List W64) (i : Nat) (s : ActSt), A8 s →
    M.actLoop sg st x vs i s = actLoop sg st x vs i s ∧ A8 (actLoop sg st x vs i s)
  | [], _, _, hs => ⟨rfl, hs⟩
  | v :: vs, i, s, hs => by
    obtain ⟨h1, h2⟩ := actStep_eq h (sg := sg) (st := st) (x := x) (v := v) (i := i) hs
    rw [Prim.actLoop, actLoop, h1]
    exact actLoop_eq h vs (i + 1) _ h2

structure R8 (s : RoundSt) : Prop where
  A : s.A.length = 8
  k0 : s.h0.k.length = 8
  k1 : s.h1.k.length = 8

theorem roundHalf_eq (h : Agrees M) {sg : Bool} {A x : Fp} {hf : Half} {log : List Event} (hA : A.length = 8) (hx : x.length = 8) (hk : hf.k.length = 8) :
    M.roundHalf sg A x hf log = roundHalf sg A x hf log ∧ A8 (roundHalf sg A x hf log) := by
  obtain ⟨h1, h2⟩ := xMul_eq h (P := ⟨x, one⟩) (A := ⟨A, one⟩) ⟨hx, rfl⟩ ⟨hA, rfl⟩ hf.k
  unfold Prim.roundHalf roundHalf
  rw [h1]
  exact actLoop_eq h primes 0 _ ⟨h2, ⟨hA, rfl⟩, hk⟩

theorem actRound_eq (h : Agrees M) {s : RoundSt} {x : Fp} (hs : R8 s) (hx : x.length = 8) :
    M.actRound s x = actRound s x ∧ ∀ s', actRound s x = some s' → R8 s' := by
  obtain ⟨m1, m2⟩ := montEval_eq h hs.A hx
  simp only [Prim.actRound, actRound]
  rw [m1, isNonQuadRes_eq h m2]
  obtain ⟨sg, hsg⟩ : ∃ sg, decide (isNonQuadRes (montEval limbOps s.A x) ≠ 0) = sg := ⟨_, rfl⟩
  simp only [hsg]
  have hk : (if sg = true then s.h1 else s.h0).k.length = 8 := by
    split
    · exact hs.k1
    · exact hs.k0
  obtain ⟨r1, r2⟩ := roundHalf_eq h (sg := sg) (log := s.log) hs.A hx hk
  rw [r1]
  obtain ⟨r, hr⟩ : ∃ r, roundHalf sg s.A x (if sg = true then s.h1 else s.h0) s.log = r := ⟨_, rfl⟩
  rw [hr] at r2 ⊢
  have e1 := modExp_eq h (e := pMin1) r2.A.c 512
  have e2 : M.modExpRdc512 r.A.c pMin1 = modExpRdc512 r.A.c pMin1 := e1.1
  have e3 : (modExpRdc512 r.A.c pMin1).length = 8 := e1.2
  rw [e2]
  generalize modExpRdc512 r.A.c pMin1 = w at e3 ⊢
  rw [mulRdc_eq h r2.A.a e3]
  have e4 := len_mulRdc (x := r.A.a) e3
  generalize mulRdc r.A.a w = A' at e4 ⊢
  refine ⟨rfl, ?_⟩
  intro s' hs'
  by_cases hd : (if sg = true then s.h1 else s.h0).done = true
  · rw [if_pos hd] at hs'
    cases hs'
  · rw [if_neg hd] at hs'
    obtain rfl := Option.some.inj hs'
    refine ⟨e4, ?_, ?_⟩
    · simp only
      split
      · exact hs.k0
      · exact r2.k
    · simp only
      split
      · exact r2.k
      · exact hs.k1

theorem randFp_len {rng : List Byte} {x : Fp} {rest : List Byte} (h : randFp rng = some (x, rest)) : x.length = 8 := by
  obtain ⟨_, hx⟩ := Lemmas.CsidhKeys.randFp_elt h
  exact hx.len

theorem actRounds_none {round : RoundSt → Fp → Option RoundSt} {s : RoundSt} {rng : List Byte} (hr : randFp rng = none) : actRounds round s rng = none := by
  rw [actRounds]
  split
  · rfl
  · rename_i h
    rw [hr] at h
    cases h

theorem actRounds_some {round : RoundSt → Fp → Option RoundSt} {s : RoundSt} {rng rest : List Byte} {x : Fp} (hr : randFp rng = some (x, rest)) :
    actRounds round s rng = match round s x with
      | none => actRounds round s rest
      | some s' => if s'.h0.done && s'.h1.done then some (s', rest) else actRounds round s' rest := by
  rw [actRounds]
  split
  · rename_i h
    rw [hr] at h
    cases h
  · rename_i h
    rw [hr] at h
    cases h
    rfl

/-- Two loop bodies that agree where an invariant holds and keep it make loops that agree. -/
theorem actRounds_congr {f g : RoundSt → Fp → Option RoundSt} {I : RoundSt → Prop}
    (hfg : ∀ s x, I s → x.length = 8 → f s x = g s x ∧ ∀ s', g s x = some s' → I s') :
    ∀ (n : Nat) (rng : List Byte) (s : RoundSt), rng.length ≤ n → I s →
      actRounds f s rng = actRounds g s rng ∧ ∀ r, actRounds g s rng = some r → I r.1 := by
  intro n
  induction n with
  | zero =>
    intro rng s hn _
    have hr : randFp rng = none := by
      cases hr : randFp rng with
      | none => rfl
      | some v =>
        have := randFp_length rng v.1 v.2 hr
        omega
    rw [actRounds_none hr, actRounds_none hr]
    exact ⟨rfl, fun r hr => by cases hr⟩
  | succ n ih =>
    intro rng s hn hs
    cases hr : randFp rng with
    | none =>
      rw [actRounds_none hr, actRounds_none hr]
      exact ⟨rfl, fun r hr => by cases hr⟩
    | some v =>
      obtain ⟨x, rest⟩ := v
      have hlen := randFp_length rng x rest hr
      obtain ⟨a1, a2⟩ := hfg s x hs (randFp_len hr)
      rw [actRounds_some hr, actRounds_some hr, a1]
      cases hc : g s x with
      | none => exact ih rest s (by omega) hs
      | some s' =>
        have hs' := a2 s' hc
        simp only
        split
        · exact ⟨rfl, fun r hr => by cases hr; exact hs'⟩
        · exact ih rest s' (by omega) hs'

theorem groupAction_eq (h : Agrees M) {a : Fp} (ha : a.length = 8) (prv : PrivateKey) (rng : List Byte) :
    M.groupAction a prv rng = groupAction a prv rng ∧ ∀ r, groupAction a prv rng = some r → r.1.length = 8 := by
  obtain ⟨k1, k2⟩ := splitKey_eq h prv.e false primes 0 ⟨fpw 4, List.replicate 74 0, false⟩ rfl
  obtain ⟨l1, l2⟩ := splitKey_eq h prv.e true primes 0 ⟨fpw 4, List.replicate 74 0, false⟩ rfl
  simp only [Prim.groupAction, groupAction, groupActionLog]
  rw [k1, l1]
  generalize splitKey prv.e false primes 0 ⟨fpw 4, List.replicate 74 0, false⟩ = h0 at k2 ⊢
  generalize splitKey prv.e true primes 0 ⟨fpw 4, List.replicate 74 0, false⟩ = h1 at l2 ⊢
  obtain ⟨r1, r2⟩ := actRounds_congr (fun s x hs hx => actRound_eq h (s := s) hs hx) rng.length rng ⟨a, h0, h1, []⟩ le_rfl ⟨ha, k2, l2⟩
  rw [r1]
  refine ⟨rfl, ?_⟩
  intro r hr
  rw [Option.map_eq_some_iff] at hr
  obtain ⟨s, hs, rfl⟩ := hr
  exact (r2 s hs).A

theorem generatePublicKey_eq (h : Agrees M) (prv : PrivateKey) (rng : List Byte) : M.generatePublicKey prv rng = generatePublicKey prv rng := by
  unfold Prim.generatePublicKey generatePublicKey
  rw [(groupAction_eq h (a := fp0) rfl prv rng).1]

theorem validateLoop_none {a : Fp} {rng : List Byte} (hr : randFp rng = none) : M.validateLoop a rng = none ∧ validateLoop a rng = none := by
  constructor
  · rw [Prim.validateLoop]
    split
    · rfl
    · rename_i h
      rw [hr] at h
      cases h
  · rw [validateLoop]
    split
    · rfl
    · rename_i h
      rw [hr] at h
      cases h

theorem validateLoop_some {a : Fp} {rng rest : List Byte} {x : Fp} (hr : randFp rng = some (x, rest)) :
    M.validateLoop a rng = if (M.cofactorMul (xDbl M.ops (xDbl M.ops ⟨x, one⟩ ⟨a, one⟩) ⟨a, one⟩) ⟨a, one⟩ 0 74 (fpw 1)).1 then
      some ((M.cofactorMul (xDbl M.ops (xDbl M.ops ⟨x, one⟩ ⟨a, one⟩) ⟨a, one⟩) ⟨a, one⟩ 0 74 (fpw 1)).2.1, rest) else M.validateLoop a rest := by
  rw [Prim.validateLoop]
  split
  · rename_i h
    rw [hr] at h
    cases h
  · rename_i h
    rw [hr] at h
    cases h
    rfl

theorem validateLoop_eq (h : Agrees M) {a : Fp} (ha : a.length = 8) : ∀ (n : Nat) (rng : List Byte), rng.length ≤ n → M.validateLoop a rng = validateLoop a rng := by
  intro n
  induction n with
  | zero =>
    intro rng hn
    have hr : randFp rng = none := by
      cases hr : randFp rng with
      | none => rfl
      | some v =>
        have := randFp_length rng v.1 v.2 hr
        omega
    rw [(validateLoop_none hr).1, (validateLoop_none (M := M) hr).2]
  | succ n ih =>
    intro rng hn
    cases hr : randFp rng with
    | none => rw [(validateLoop_none hr).1, (validateLoop_none (M := M) hr).2]
    | some v =>
      obtain ⟨x, rest⟩ := v
      have hlen := randFp_length rng x rest hr
      rw [validateLoop_some hr, Lemmas.CsidhValidate.validateLoop_def hr]
      obtain ⟨a1, a2⟩ := xDbl_eq h (P := ⟨x, one⟩) (A := ⟨a, one⟩) ⟨randFp_len hr, rfl⟩ ⟨ha, rfl⟩
      rw [a1]
      obtain ⟨b1, b2⟩ := xDbl_eq h (A := ⟨a, one⟩) a2 ⟨ha, rfl⟩
      rw [b1, (cofactorMul_eq h (a := ⟨a, one⟩) ⟨ha, rfl⟩ 74 0 _ (fpw 1) b2 rfl).1, ih rest (by omega)]

theorem validate_eq (h : Agrees M) {pub : PublicKey} (hp : pub.a.length = 8) (rng : List Byte) : M.validate pub rng = validate pub rng := by
  unfold Prim.validate validate
  rw [validateLoop_eq h hp rng.length rng le_rfl]

theorem deriveSecret_eq (h : Agrees M) {pub : PublicKey} (hp : pub.a.length = 8) (out : List Byte) (prv : PrivateKey) (rng : List Byte) :
    M.deriveSecret out pub prv rng = deriveSecret out pub prv rng := by
  unfold Prim.deriveSecret deriveSecret
  rw [validate_eq h hp]
  have : ∀ rng, M.groupAction pub.a prv rng = groupAction pub.a prv rng := fun rng => (groupAction_eq h hp prv rng).1
  simp only [this]
  rfl

/-! ### kem/mkem/csidh.go -/

open Model.CsidhPke Model.Sha3

theorem orBytes_len : ∀ (bs : List Byte) (i : Nat) (v : Fp), (orBytes bs i v).length = v.length
  | [], _, _ => rfl
  | _ :: bs, i, v => by rw [orBytes, orBytes_len bs, List.length_set]

theorem import_len {c : PublicKey} (hc : c.a.length = 8) (key : List Byte) : (c.importKey key).1.a.length = 8 := by
  unfold PublicKey.importKey
  split
  · exact hc
  · simp only [orBytes_len, hc]

theorem enc_eq (h : Agrees M) (P : Plat) (c : PKE) {pk : PublicKey} (hp : pk.a.length = 8) (pt : List Byte) : M.enc P c pk pt = c.enc P pk pt := by
  unfold Prim.enc PKE.enc
  simp only [deriveSecret_eq h hp, generatePublicKey_eq h]

theorem dec_eq (h : Agrees M) (P : Plat) (c : PKE) (sk : PrivateKey) (ct : Ciphertext) : M.dec P c sk ct = c.dec P sk ct := by
  unfold Prim.dec PKE.dec
  simp only [deriveSecret_eq h (import_len (c := PublicKey.zero) rfl ct.U)]

theorem encryptLoop_eq (h : Agrees M) (P : Plat) (skA : PrivateKey) (pt : List Byte) : ∀ (keys : List PublicKey), (∀ k ∈ keys, k.a.length = 8) →
    ∀ (i : Nat) (ss rng : List Byte) (hs : Option State) (cts : List (List Byte)),
    M.encryptLoop P skA pt keys i ss rng hs cts = encryptLoop P skA pt keys i ss rng hs cts
  | [], _, _, _, _, _, _ => rfl
  | pk :: pks, hk, i, ss, rng, hs, cts => by
    rw [Prim.encryptLoop, encryptLoop, deriveSecret_eq h (hk pk (by simp))]
    simp only [encryptLoop_eq h P skA pt pks (fun k hk' => hk k (by simp [hk']))]

theorem encrypt_eq (h : Agrees M) (P : Plat) (c : MultiPKE) {keys : List PublicKey} (hk : ∀ k ∈ keys, k.a.length = 8) (pt : List Byte) :
    M.encrypt P c keys pt = c.encrypt P keys pt := by
  unfold Prim.encrypt MultiPKE.encrypt
  simp only [encryptLoop_eq h P _ pt keys hk, generatePublicKey_eq h]

end Lemmas.CsidhBuild
