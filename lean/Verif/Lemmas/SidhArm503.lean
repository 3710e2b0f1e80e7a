import Verif.Lemmas.SidhRun
import Verif.Lemmas.SidhBuildApi
/-
What the arm64 build of p503 computes, as calculation with the numbers in the words: products are as Props/AsmArm.lean `c89_exact` says, with the
lost carry.  The kernel can run the curve code with these numbers.
-/
namespace Lemmas.SidhArm503
open Model Model.Limb Model.Asm Model.Sidh Spec Spec.Sidh Lemmas.Limb Lemmas.SidhArith Lemmas.SidhGood Lemmas.SidhFp2 Lemmas.SidhNat Lemmas.SidhBuild Lemmas.SidhRun
open Props.AsmArm

/-- the prime -/
def p : Nat := 13175843156907117380839252916199345042492186767578363998445663477035843932020761233518914911546024351608607150390087656982982306331019593961154237431807
/-- −1/p modulo 2^512 -/
def pinv : Nat := 6065675077156873435035227002350430177491063329901205159753051403086787233484264013212685315622142810923598086102248658953025689659673111349565601750188033
def p2 : Nat := 26351686313814234761678505832398690084984373535156727996891326954071687864041522467037829823092048703217214300780175313965964612662039187922308474863614
/-- p · 2^512 -/
def pR : Nat := 176659174362859151079493161924389627020317226077669654571662782764171573898994745614235126884448960498723931104601883819289335692198594683555131224691485116071678175096091204352537803801421769852438835577191276176867589288193125365859521853483784321360925019927362625839449808513965292121170325084907241472

def K : Nat := 115792089237316195423570985008687907853269984665640564039457584007913129639936
def RR : Nat := 13407807929942597099574024998205846127479365820592393377723561443721764030073546976801874298166903427690031858186486050853753882811946569946433649006084096

theorem p_eq : p = Fld.p503.p := by decide +kernel
theorem K_eq : K = 2 ^ 256 := by decide +kernel
theorem RR_eq : RR = Fld.p503.R := by decide +kernel
theorem pinv_eq : (p * pinv + 1) % RR = 0 := by decide +kernel
theorem p2_eq : p2 = 2 * p := by decide +kernel

def rdcN (t : Nat) : Nat := force (t * pinv % RR) fun q => (t + q * p) / RR

def mulN (a b : Nat) : Nat :=
  force (a / K) fun ha => force (a % K) fun la => force (b / K) fun hb => force (b % K) fun lb =>
  force (ha * lb + la * hb) fun m => force (la * lb / K) fun c =>
  bif Nat.ble K ((m + ha * hb) % K + c) && Nat.ble (m + c + 1) K then a * b + 2 ^ 832 else a * b

def addN (a b : Nat) : Nat := (a + b) % p2
def subN (a b : Nat) : Nat := (a + p2 - b) % p2
def sulN (a b : Nat) : Nat := bif Nat.ble b a then a - b else a + pR - b

/-- the routines, on numbers -/
structure Num where
  add : Nat → Nat → Nat
  sub : Nat → Nat → Nat
  mul : Nat → Nat → Nat
  rdc : Nat → Nat
  sul : Nat → Nat → Nat

/-- those of p503 on arm64 -/
def arm : Num := ⟨addN, subN, mulN, rdcN, sulN⟩

section
variable (O : Num)

def mpN (a b : Nat) : Nat := O.rdc (O.mul a b)

def tabN (xx last : Nat) : Nat → List Nat
  | 0 => []
  | k + 1 => force (mpN O last xx) fun t => t :: tabN xx t k

def sqN : Nat → Nat → Nat
  | d, 0 => d
  | d, k + 1 => force (mpN O d d) fun t => sqN t k

def loopN (lookup : List Nat) : Nat → List Nat → List Nat → Nat
  | d, pw :: pows, m :: muls => force (mpN O d d) fun a => force (sqN O a (pw - 1)) fun b => force (mpN O b (lookup.getD m 0)) fun c => loopN lookup c pows muls
  | d, _, _ => d

def p34N (P : Prime) (x : Nat) : Nat :=
  force (mpN O x x) fun xx => loopN O (x :: tabN O xx x 15) ((x :: tabN O xx x 15).getD P.initialMul 0) P.powStrategy P.mulStrategy

def invA (P : Prime) (x : N2) : N2 :=
  force (O.rdc (O.mul x.1 x.1 + O.mul x.2 x.2)) fun f1 => force (mpN O f1 f1) fun f2 => force (p34N O P f2) fun f3 => force (mpN O f3 f3) fun f4 =>
  force (mpN O f4 f1) fun f5 => (mpN O x.1 f5, mpN O (O.sub 0 x.2) f5)

def mulA (x y : N2) : N2 :=
  force (O.mul x.1 y.1) fun ac => force (O.mul x.2 y.2) fun bd => force (O.mul (O.sub x.2 x.1) (O.sub y.1 y.2)) fun ad =>
  (O.rdc (O.sul ac bd), O.rdc (ad + ac + bd))

def sqrA (x : N2) : N2 := (mpN O (O.add x.1 x.2) (O.sub x.1 x.2), mpN O (O.add x.1 x.1) x.2)

/-- fp2.go on numbers -/
def aOps (P : Prime) : Ops N2 where
  add x y := (O.add x.1 y.1, O.add x.2 y.2)
  sub x y := (O.sub x.1 y.1, O.sub x.2 y.2)
  mul := mulA O
  sqr := sqrA O
  inv := invA O P
  cswap x y c := if c = 0 then (x, y) else (y, x)

end

/-! ### the words hold these numbers -/

theorem pR_eq : pR = Fld.p503.p * Fld.p503.R := by decide +kernel

/-- the words hold a reduced number -/
structure N (x : List W64) (a : Nat) : Prop where
  v : V .p503 x
  e : val x = a

theorem words_eq : Fld.p503.words = 8 := rfl

variable {e : List W64 → List W64 → Env}

theorem rest (e : List W64 → List W64 → Env) : Agrees {arm64 .p503 e with mul := mulW (primeOf .p503)} .p503 :=
  agrees_arm64_with .p503 e fun _ _ _ _ => rfl

theorem rdc_num {R v t q : Nat} (hq : q < R) (hm : (p * pinv + 1) % R = 0) (h : R * v = t + q * p) : v = (t + t * pinv % R * p) / R := by
  have hR : 0 < R := by omega
  have h1 : t * pinv + q * (p * pinv + 1) = R * v * pinv + q := by rw [h]; ring
  obtain ⟨d, hd⟩ := Nat.dvd_of_mod_eq_zero hm
  have h2 : t * pinv % R = q := by
    have h3 : (t * pinv + q * (p * pinv + 1)) % R = t * pinv % R := by
      rw [hd, show t * pinv + q * (R * d) = t * pinv + R * (q * d) by ring, Nat.add_mul_mod_self_left]
    rw [← h3, h1, Nat.mul_assoc, Nat.mul_add_mod, Nat.mod_eq_of_lt hq]
  rw [h2, ← h, Nat.mul_div_cancel_left _ hR]

theorem rdcN_eq (t : Nat) : rdcN t = (t + t * pinv % RR * p) / RR := by rw [rdcN, force_eq]

theorem rdc_N {x : List W64} {t : Nat} (lx : x.length = 16) (hx : val x = t) (ht : t < pR) : N ((arm64 .p503 e).rdc x) (rdcN t) := by
  have h0 : (arm64 .p503 e).rdc x = rdcP (primeOf .p503) x := (rest e).rdc lx
  rw [h0]
  subst hx
  have hR : (2 : Nat) ^ (64 * (primeOf .p503).n) = RR := by rw [RR_eq]; decide +kernel
  have hp : val (primeOf .p503).p = p := by rw [p_eq]; exact Lemmas.SidhGood.p_eq .p503
  have hlt : val x < val (primeOf .p503).p * 2 ^ (64 * (primeOf .p503).n) := by
    rw [hR, hp]; rw [pR_eq] at ht; rw [p_eq, RR_eq]; exact ht
  obtain ⟨q, h1, h2, h3, h4⟩ := rdcP_spec (good .p503) x (by rw [lx, n_eq, words_eq]) hlt
  rw [hR] at h1 h2
  rw [hp] at h2 h3
  refine ⟨⟨by rw [h4, n_eq], by rw [← p_eq]; exact h3⟩, ?_⟩
  rw [rdcN_eq]
  exact rdc_num h1 pinv_eq h2

theorem lo_eq {x : List W64} (h : x.length = 8) (e : Env) : lo (e.fill 12 x) = val x % K := by
  have h1 := val_split x 4 (by omega)
  have h2 := val_four (x.take 4) (by rw [List.length_take]; omega)
  have h3 : (e.fill 12 x).take 4 = x.take 4 := by
    have := congrArg (List.take 4) (fill_take e 12 h)
    rwa [List.take_take] at this
  rw [lo, h3, K_eq, h1, show (2 : Nat) ^ (64 * 4) = 2 ^ 256 from rfl, Nat.add_mul_mod_self_left, Nat.mod_eq_of_lt h2]

theorem hi_eq {x : List W64} (h : x.length = 8) (e : Env) : hi (e.fill 12 x) = val x / K := by
  have h1 := val_split x 4 (by omega)
  have h2 := val_four (x.take 4) (by rw [List.length_take]; omega)
  have h3 : ((e.fill 12 x).drop 4).take 4 = x.drop 4 := by
    have := congrArg (List.drop 4) (fill_take e 12 h)
    rwa [List.drop_take] at this
  rw [hi, h3, K_eq, h1, show (2 : Nat) ^ (64 * 4) = 2 ^ 256 from rfl, Nat.add_mul_div_left _ _ (Nat.two_pow_pos _), Nat.div_eq_of_lt h2, Nat.zero_add]

theorem mulN_eq (a b : Nat) : mulN a b = a * b + if K ≤ (a / K * (b % K) + a % K * (b / K) + a / K * (b / K)) % K + a % K * (b % K) / K ∧
    a / K * (b % K) + a % K * (b / K) + a % K * (b % K) / K < K then 2 ^ 832 else 0 := by
  simp only [mulN, force_eq]
  split
  · rename_i h
    rw [Nat.ble_eq_true_of_le h.1, Nat.ble_eq_true_of_le (Nat.succ_le_of_lt h.2)]
    rfl
  · rename_i h
    rw [Nat.add_zero]
    cases hb : Nat.ble K ((a / K * (b % K) + a % K * (b / K) + a / K * (b / K)) % K + a % K * (b % K) / K) &&
      Nat.ble (a / K * (b % K) + a % K * (b / K) + a % K * (b % K) / K + 1) K with
    | false => rfl
    | true =>
      rw [Bool.and_eq_true] at hb
      exact absurd ⟨Nat.le_of_ble_eq_true hb.1, Nat.lt_of_succ_le (Nat.le_of_ble_eq_true hb.2)⟩ h

/-- room for three products -/
theorem room3 : 3 * (4 * p * p + 2 ^ 832) < pR ∧ pR < 2 ^ 1024 := by decide +kernel

theorem sum3 {a b c : Nat} (ha : a < 4 * p * p + 2 ^ 832) (hb : b < 4 * p * p + 2 ^ 832) (hc : c < 4 * p * p + 2 ^ 832) :
    a < pR ∧ a + b < pR ∧ a + b + c < pR ∧ a < 2 ^ 1024 ∧ a + b < 2 ^ 1024 ∧ a + b + c < 2 ^ 1024 := by
  obtain ⟨r1, r2⟩ := room3
  generalize 4 * p * p + 2 ^ 832 = u at *
  generalize (2 : Nat) ^ 1024 = w at *
  omega

theorem mulN_lt {a b : Nat} (ha : a < 2 * p) (hb : b < 2 * p) : mulN a b < 4 * p * p + 2 ^ 832 := by
  rw [mulN_eq]
  have h : a * b < 4 * p * p := by
    have := Nat.mul_lt_mul'' ha hb
    rwa [show 2 * p * (2 * p) = 4 * p * p by ring] at this
  generalize (2 : Nat) ^ 832 = u
  split <;> omega

theorem mul_N {x y : List W64} {a b : Nat} (hx : N x a) (hy : N y b) :
    ((arm64 .p503 e).mul x y).length = 16 ∧ val ((arm64 .p503 e).mul x y) = mulN a b ∧ mulN a b < 4 * p * p + 2 ^ 832 := by
  have lx : x.length = 8 := hx.v.len
  have ly : y.length = 8 := hy.v.len
  have la : a < 2 * p := by rw [← hx.e, p_eq]; exact hx.v.lt
  have lb : b < 2 * p := by rw [← hy.e, p_eq]; exact hy.v.lt
  have hlt := mulN_lt la lb
  obtain ⟨r, r1, r2, r3⟩ := c89_exact (dest_length (e x y) 24) (fill_length (e x y) 12 x (by omega)) (fill_length (e x y) 12 y (by omega))
  have h0 : (arm64 .p503 e).mul x y = r := op2_eq _ r1 r3
  rw [h0]
  refine ⟨r1, ?_, hlt⟩
  rw [r2, fill_take _ _ lx, fill_take _ _ ly]
  simp only [Lost, lo_eq lx, lo_eq ly, hi_eq lx, hi_eq ly, hx.e, hy.e]
  rw [← K_eq, ← mulN_eq]
  have := room3
  refine Nat.mod_eq_of_lt ?_
  generalize (2 : Nat) ^ 832 = u at *
  generalize (2 : Nat) ^ 1024 = w at *
  omega

theorem add_N {x y : List W64} {a b : Nat} (hx : N x a) (hy : N y b) : N ((arm64 .p503 e).add x y) (addN a b) := by
  have h0 : (arm64 .p503 e).add x y = addP (primeOf .p503) x y := (rest e).add hx.v.len hy.v.len
  have hp : val (primeOf .p503).p = Fld.p503.p := Lemmas.SidhGood.p_eq .p503
  rw [h0]
  refine ⟨(addP_V hx.v hy.v).1, ?_⟩
  rw [(addP_spec (good .p503) x y (by rw [hx.v.len, n_eq]) (by rw [hy.v.len, n_eq]) (by rw [hp]; exact hx.v.lt) (by rw [hp]; exact hy.v.lt)).1,
    hx.e, hy.e, hp, addN, p2_eq, p_eq]

theorem sub_N {x y : List W64} {a b : Nat} (hx : N x a) (hy : N y b) : N ((arm64 .p503 e).sub x y) (subN a b) := by
  have h0 : (arm64 .p503 e).sub x y = subP (primeOf .p503) x y := (rest e).sub hx.v.len hy.v.len
  have hp : val (primeOf .p503).p = Fld.p503.p := Lemmas.SidhGood.p_eq .p503
  rw [h0]
  refine ⟨(subP_V hx.v hy.v).1, ?_⟩
  rw [(subP_spec (good .p503) x y (by rw [hx.v.len, n_eq]) (by rw [hy.v.len, n_eq]) (by rw [hp]; exact hx.v.lt) (by rw [hp]; exact hy.v.lt)).1,
    hx.e, hy.e, hp, subN, p2_eq, p_eq]

theorem mp_N {x y : List W64} {a b : Nat} (hx : N x a) (hy : N y b) : N ((arm64 .p503 e).rdc ((arm64 .p503 e).mul x y)) (rdcN (mulN a b)) := by
  obtain ⟨h1, h2, h3⟩ := mul_N (e := e) hx hy
  have := room3
  exact rdc_N h1 h2 (by generalize (2 : Nat) ^ 832 = u at *; omega)

/-- the words of a pair hold reduced numbers -/
structure NN (x : Fp2) (n : N2) : Prop where
  a : N x.A n.1
  b : N x.B n.2

theorem sulN_eq (a b : Nat) : sulN a b = if a < b then a + pR - b else a - b := by
  rw [sulN]
  cases hb : Nat.ble b a with
  | true => rw [if_neg (Nat.not_lt.mpr (Nat.le_of_ble_eq_true hb))]; rfl
  | false => rw [if_pos (Nat.lt_of_not_le fun h => by rw [Nat.ble_eq_true_of_le h] at hb; cases hb)]; rfl

attribute [local irreducible] mulN rdcN addN subN sulN p pR K RR p2 pinv

theorem two_N {x y z w : List W64} {a b c d : Nat} (hx : N x a) (hy : N y b) (hz : N z c) (hw : N w d) :
    N ((arm64 .p503 e).rdc ((arm64 .p503 e).adl ((arm64 .p503 e).mul x y) ((arm64 .p503 e).mul z w))) (rdcN (mulN a b + mulN c d)) := by
  obtain ⟨l1, v1, b1⟩ := mul_N (e := e) hx hy
  obtain ⟨l2, v2, b2⟩ := mul_N (e := e) hz hw
  have d0 : (arm64 .p503 e).adl ((arm64 .p503 e).mul x y) ((arm64 .p503 e).mul z w) = adlP ((arm64 .p503 e).mul x y) ((arm64 .p503 e).mul z w) := (rest e).adl l1 l2
  rw [d0]
  obtain ⟨e1, e2⟩ := adlP_spec _ _ (l1.trans l2.symm) (by
    rw [l1, v1, v2]; exact (sum3 b1 b2 b2).2.2.2.2.1)
  refine rdc_N (e2.trans l1) (by rw [e1, v1, v2]) ?_
  exact (sum3 b1 b2 b2).2.1

theorem dif_N {x y z w : List W64} {a b c d : Nat} (hx : N x a) (hy : N y b) (hz : N z c) (hw : N w d) :
    N ((arm64 .p503 e).rdc ((arm64 .p503 e).sul ((arm64 .p503 e).mul x y) ((arm64 .p503 e).mul z w))) (rdcN (sulN (mulN a b) (mulN c d))) := by
  obtain ⟨l1, v1, b1⟩ := mul_N (e := e) hx hy
  obtain ⟨l2, v2, b2⟩ := mul_N (e := e) hz hw
  have d0 : (arm64 .p503 e).sul ((arm64 .p503 e).mul x y) ((arm64 .p503 e).mul z w) = sulP (primeOf .p503) ((arm64 .p503 e).mul x y) ((arm64 .p503 e).mul z w) := (rest e).sul l1 l2
  rw [d0]
  have hR : (2 : Nat) ^ (64 * (primeOf .p503).n) = Fld.p503.R := by decide +kernel
  have hp : val (primeOf .p503).p = Fld.p503.p := Lemmas.SidhGood.p_eq .p503
  have hpR : val (primeOf .p503).p * 2 ^ (64 * (primeOf .p503).n) = pR := by rw [hR, hp, pR_eq]
  obtain ⟨s1, s2⟩ := sulP_spec (good .p503) ((arm64 .p503 e).mul x y) ((arm64 .p503 e).mul z w) (by rw [l1, n_eq, words_eq]) (by rw [l2, n_eq, words_eq])
    (by rw [hpR, v2]; exact (sum3 b2 b2 b2).1.le)
  rw [hpR, v1, v2, ← sulN_eq] at s1
  refine rdc_N (by rw [s2, n_eq, words_eq]) s1 ?_
  rw [sulN_eq]
  have h1 := (sum3 b1 b1 b1).1
  split <;> omega

theorem three_N {x y z w u v : List W64} {a b c d g h : Nat} (hx : N x a) (hy : N y b) (hz : N z c) (hw : N w d) (hu : N u g) (hv : N v h) :
    N ((arm64 .p503 e).rdc ((arm64 .p503 e).adl ((arm64 .p503 e).adl ((arm64 .p503 e).mul x y) ((arm64 .p503 e).mul z w)) ((arm64 .p503 e).mul u v)))
      (rdcN (mulN a b + mulN c d + mulN g h)) := by
  obtain ⟨l1, v1, b1⟩ := mul_N (e := e) hx hy
  obtain ⟨l2, v2, b2⟩ := mul_N (e := e) hz hw
  obtain ⟨l3, v3, b3⟩ := mul_N (e := e) hu hv
  have hs := sum3 b1 b2 b3
  have ad : ∀ s t : List W64, s.length = 16 → t.length = 16 → (arm64 .p503 e).adl s t = adlP s t := fun s t hs ht => (rest e).adl hs ht
  have rd : ∀ (s : List W64) (t : Nat), s.length = 16 → val s = t → t < pR → N ((arm64 .p503 e).rdc s) (rdcN t) := fun s t h1 h2 h3 => rdc_N h1 h2 h3
  generalize arm64 .p503 e = M at *
  generalize M.mul x y = m1 at *
  generalize M.mul z w = m2 at *
  generalize M.mul u v = m3 at *
  obtain ⟨e1, e2⟩ := adlP_spec m1 m2 (l1.trans l2.symm) (by rw [l1, v1, v2]; exact hs.2.2.2.2.1)
  have e2 := e2.trans l1
  obtain ⟨e3, e4⟩ := adlP_spec (adlP m1 m2) m3 (e2.trans l3.symm) (by rw [e2, e1, v1, v2, v3]; exact hs.2.2.2.2.2)
  rw [ad m1 m2 l1 l2, ad _ m3 e2 l3]
  exact rd _ _ (e4.trans e2) (by rw [e3, e1, v1, v2, v3]) hs.2.2.1

/-- the routines of a build of p503 compute these numbers -/
structure Sim (M : Arith) (O : Num) : Prop where
  add : ∀ {x y : List W64} {a b : Nat}, N x a → N y b → N (M.add x y) (O.add a b)
  sub : ∀ {x y : List W64} {a b : Nat}, N x a → N y b → N (M.sub x y) (O.sub a b)
  one : ∀ {x y : List W64} {a b : Nat}, N x a → N y b → N (M.rdc (M.mul x y)) (O.rdc (O.mul a b))
  two : ∀ {x y z w : List W64} {a b c d : Nat}, N x a → N y b → N z c → N w d → N (M.rdc (M.adl (M.mul x y) (M.mul z w))) (O.rdc (O.mul a b + O.mul c d))
  dif : ∀ {x y z w : List W64} {a b c d : Nat}, N x a → N y b → N z c → N w d → N (M.rdc (M.sul (M.mul x y) (M.mul z w))) (O.rdc (O.sul (O.mul a b) (O.mul c d)))
  three : ∀ {x y z w u v : List W64} {a b c d g h : Nat}, N x a → N y b → N z c → N w d → N u g → N v h →
    N (M.rdc (M.adl (M.adl (M.mul x y) (M.mul z w)) (M.mul u v))) (O.rdc (O.mul a b + O.mul c d + O.mul g h))
  cswap : ∀ {x y : List W64} {c : Byte}, c = 0 ∨ c = 1 → V .p503 x → V .p503 y → M.cswap x y c = if c = 0 then (x, y) else (y, x)

theorem sim_arm (e : List W64 → List W64 → Env) : Sim (arm64 .p503 e) arm where
  add := add_N
  sub := sub_N
  one := mp_N
  two := two_N
  dif := dif_N
  three := three_N
  cswap := by
    intro x y c hc hx hy
    have e0 : (arm64 .p503 e).cswap x y c = cswapP x y c := (rest e).cswap hc hx.len hy.len
    rw [e0]
    obtain ⟨h0, h1⟩ := cswapP_spec x y (hx.len.trans hy.len.symm)
    rcases hc with rfl | rfl
    · rw [h0]; rfl
    · rw [h1]; rfl

section
variable {M : Arith} {O : Num} (s : Sim M O)
include s

theorem tab_N {xx : List W64} {aa : Nat} (hxx : N xx aa) : ∀ (k : Nat) {l : List W64} {b : Nat}, N l b →
    ∀ i, i < k → N ((M.p34Table xx l k).getD i []) ((tabN O aa b k).getD i 0)
  | 0, _, _, _, i, hi => by omega
  | k + 1, l, b, hl, i, hi => by
    have h := s.one hl hxx
    rw [Arith.p34Table, tabN, force_eq]
    cases i with
    | zero => exact h
    | succ i => exact tab_N hxx k h i (by omega)

theorem sq_N : ∀ (k : Nat) {d : List W64} {a : Nat}, N d a → N (M.sqrTimes d k) (sqN O a k)
  | 0, _, _, h => h
  | k + 1, _, _, h => by
    rw [Arith.sqrTimes, sqN, force_eq]
    exact sq_N k (s.one h h)

theorem loop_N {lk : List (List W64)} {ln : List Nat} (hl : ∀ i, i < 16 → N (lk.getD i []) (ln.getD i 0)) : ∀ (pows muls : List Nat) {d : List W64} {a : Nat},
    (∀ m ∈ muls, m < 16) → N d a → N (M.p34Loop lk d pows muls) (loopN O ln a pows muls)
  | [], _, _, _, _, h => by simpa only [Arith.p34Loop, loopN] using h
  | _ :: _, [], _, _, _, h => by simpa only [Arith.p34Loop, loopN] using h
  | pw :: pows, m :: muls, d, a, hm, h => by
    simp only [Arith.p34Loop, loopN, force_eq]
    exact loop_N hl pows muls (fun k hk => hm k (by simp [hk])) (s.one (sq_N s _ (s.one h h)) (hl m (hm m (by simp))))

theorem p34_N {P : Prime} (t2 : ∀ m ∈ P.mulStrategy, m < 16) (t3 : P.initialMul < 16) {x : List W64} {a : Nat} (hx : N x a) : N (M.p34 P x) (p34N O P a) := by
  have h : N (M.mulP x x) (mpN O a a) := s.one hx hx
  have hl : ∀ i, i < 16 → N ((x :: M.p34Table (M.mulP x x) x 15).getD i []) ((a :: tabN O (mpN O a a) a 15).getD i 0) := by
    intro i hi
    cases i with
    | zero => exact hx
    | succ i => exact tab_N s h 15 hx i (by omega)
  simp only [p34N, force_eq]
  exact loop_N s hl _ _ t2 (hl _ t3)

theorem inv_NN {P : Prime} (t2 : ∀ m ∈ P.mulStrategy, m < 16) (t3 : P.initialMul < 16) (z : N (List.replicate P.n 0) 0) {x : Fp2} {a : N2} (hx : NN x a) :
    NN (M.inv2 P x) (invA O P a) := by
  have f1 := s.two hx.a hx.a hx.b hx.b
  have f3 := p34_N s t2 t3 (s.one f1 f1)
  have f5 := s.one (s.one f3 f3) f1
  simp only [invA, force_eq]
  exact ⟨s.one hx.a f5, s.one (s.sub z hx.b) f5⟩

theorem ops_NN {P : Prime} (t2 : ∀ m ∈ P.mulStrategy, m < 16) (t3 : P.initialMul < 16) (z : N (List.replicate P.n 0) 0) : OpsRel (M.ops P) (aOps O P) NN where
  add hx hy := ⟨s.add hx.a hy.a, s.add hx.b hy.b⟩
  sub hx hy := ⟨s.sub hx.a hy.a, s.sub hx.b hy.b⟩
  mul := by
    intro x y a b hx hy
    simp only [aOps, mulA, force_eq]
    exact ⟨s.dif hx.a hy.a hx.b hy.b, s.three (s.sub hx.b hx.a) (s.sub hy.a hy.b) hx.a hy.a hx.b hy.b⟩
  sqr hx := ⟨s.one (s.add hx.a hx.b) (s.sub hx.a hx.b), s.one (s.add hx.a hx.a) hx.b⟩
  inv hx := inv_NN s t2 t3 z hx
  cswap := by
    intro x y x' y' c hc hx hy
    change NN (M.cswap2 x y c).1 _ ∧ NN (M.cswap2 x y c).2 _
    rw [Arith.cswap2, s.cswap hc hx.a.v hy.a.v, s.cswap hc hx.b.v hy.b.v]
    rcases hc with rfl | rfl
    · exact ⟨hx, hy⟩
    · exact ⟨hy, hx⟩

end

theorem ops_arm (e : List W64 → List W64 → Env) : OpsRel ((arm64 .p503 e).ops (primeOf .p503)) (aOps arm (primeOf .p503)) NN :=
  ops_NN (sim_arm e) (tables .p503).2.1 (tables .p503).2.2 ⟨(zero_V .p503).1, val_replicate_zero _⟩

end Lemmas.SidhArm503
