import Verif.Lemmas.AsmArm64
import Verif.Lemmas.AsmSwapArm
import Verif.Props.AsmArith
import Verif.Props.AsmCsidh
/-!
The arm64 assembly of the SIDH fields (C87 to C92): dh/sidh/internal/p503 and p751, arith_arm64.s.

A field element is an array of 12 words of which the first `f.fld.words` count (`common.Fp`), a product an array of 24 words
(`common.FpX2`).  `addP`, `subP`, `adlP`, `sulP`, `modP`, `mulW` and `rdcP` are the portable functions of arith_generic.go.
-/
namespace Props.AsmArm
open Model Model.Asm Model.Sidh Model.Arm64 Spec Spec.Asm Spec.Sidh Lemmas.SidhGood Lemmas.AsmAmd64 Lemmas.AsmArm64 Lemmas.AsmFam Lemmas.AsmFamArm
open Props.AsmArith (observe observe_writes observe_bp ones small)
open Props.AsmCsidh (choiceOf)

variable {z x y : List W64}

/-! ### C87: additions and subtractions -/

/-- The assembly addition computes what the portable one does, for all words, however the arguments alias. -/
theorem c87_add (f : Field) (a : Alias) (lz : z.length = 12) (lx : x.length = 12) (ly : y.length = 12) :
    Writes (Arm64.add f) (a.data z x y) a.args 0 [] (addP (primeOf f.fld) (x.take f.fld.words) ((a.snd x y).take f.fld.words)) := by
  match f with
  | .p503 => exact writes_of (Lemmas.AsmArm64.add503_all a lz lx ly)
  | .p751 => exact writes_of (Lemmas.AsmArm64.add751_all a lz lx ly)

theorem c87_sub (f : Field) (a : Alias) (lz : z.length = 12) (lx : x.length = 12) (ly : y.length = 12) :
    Writes (Arm64.sub f) (a.data z x y) a.args 0 [] (subP (primeOf f.fld) (x.take f.fld.words) ((a.snd x y).take f.fld.words)) := by
  match f with
  | .p503 => exact writes_of (Lemmas.AsmArm64.sub503_all a lz lx ly)
  | .p751 => exact writes_of (Lemmas.AsmArm64.sub751_all a lz lx ly)

theorem c87_adl (f : Field) (a : Alias) (lz : z.length = 24) (lx : x.length = 24) (ly : y.length = 24) :
    Writes (Arm64.adl f) (a.data z x y) a.args 0 [] (adlP (x.take (2 * f.fld.words)) ((a.snd x y).take (2 * f.fld.words))) := by
  match f with
  | .p503 => exact writes_of (Lemmas.AsmArm64.adl503_all a lz lx ly)
  | .p751 => exact writes_of (Lemmas.AsmArm64.adl751_all a lz lx ly)

theorem c87_sul (f : Field) (a : Alias) (lz : z.length = 24) (lx : x.length = 24) (ly : y.length = 24) :
    Writes (Arm64.sul f) (a.data z x y) a.args 0 [] (sulP (primeOf f.fld) (x.take (2 * f.fld.words)) ((a.snd x y).take (2 * f.fld.words))) := by
  match f with
  | .p503 => exact writes_of (Lemmas.AsmArm64.sul503_all a lz lx ly)
  | .p751 => exact writes_of (Lemmas.AsmArm64.sul751_all a lz lx ly)

theorem c87_mod (f : Field) (lx : x.length = 12) :
    Writes (Arm64.mod f) [x] [0] 0 [] (modP (primeOf f.fld) (x.take f.fld.words)) := by
  match f with
  | .p503 => exact writes_of (Lemmas.AsmArm64.mod503 lx)
  | .p751 => exact writes_of (Lemmas.AsmArm64.mod751 lx)

/-- In numbers: for elements below 2p the sum and the difference modulo 2p. -/
theorem c87_values (f : Field) (a : Alias) (lz : z.length = 12) (lx : x.length = 12) (ly : y.length = 12)
    (hx : val (x.take f.fld.words) < 2 * f.fld.p) (hy : val ((a.snd x y).take f.fld.words) < 2 * f.fld.p) :
    (∃ r : List W64, r.length = f.fld.words ∧ val r = (val (x.take f.fld.words) + val ((a.snd x y).take f.fld.words)) % (2 * f.fld.p) ∧
      Writes (Arm64.add f) (a.data z x y) a.args 0 [] r) ∧
    (∃ r : List W64, r.length = f.fld.words ∧ val r = (val (x.take f.fld.words) + 2 * f.fld.p - val ((a.snd x y).take f.fld.words)) % (2 * f.fld.p) ∧
      Writes (Arm64.sub f) (a.data z x y) a.args 0 [] r) ∧
    (∃ r : List W64, r.length = f.fld.words ∧ val r = val (x.take f.fld.words) % f.fld.p ∧ Writes (Arm64.mod f) [x] [0] 0 [] r) := by
  have hn := n_eq f.fld
  have hp := p_eq f.fld
  have hw : f.fld.words ≤ 12 := by cases f <;> decide
  have ls : (a.snd x y).length = 12 := by cases a <;> assumption
  have l1 : (x.take f.fld.words).length = (primeOf f.fld).n := by rw [List.length_take]; omega
  have l2 : ((a.snd x y).take f.fld.words).length = (primeOf f.fld).n := by rw [List.length_take]; omega
  rw [← hp] at hx hy
  obtain ⟨a1, a2⟩ := Lemmas.SidhArith.addP_spec (good f.fld) _ _ l1 l2 hx hy
  obtain ⟨s1, s2⟩ := Lemmas.SidhArith.subP_spec (good f.fld) _ _ l1 l2 hx hy
  obtain ⟨m1, m2⟩ := Lemmas.SidhArith.modP_spec (good f.fld) _ l1 hx
  rw [hp] at a1 s1 m1
  exact ⟨⟨_, by omega, a1, c87_add f a lz lx ly⟩, ⟨_, by omega, s1, c87_sub f a lz lx ly⟩, ⟨_, by omega, m1, c87_mod f lx⟩⟩

/-! ### C88: products for p751, and the reductions -/

/-- The p751 product is the portable one for all words (the amd64 routine needs the top bits to be 0). -/
theorem c88_mul751 (lz : z.length = 24) (lx : x.length = 12) (ly : y.length = 12) :
    Writes (Arm64.mul .p751) [z, x, y] [0, 1, 2] 0 [] (mulW (primeOf .p751) x y) ∧
    Writes (Arm64.mul .p751) [z, x] [0, 1, 1] 0 [] (mulW (primeOf .p751) x x) := by
  have tx : x.take 12 = x := List.take_of_length_le (by omega)
  have ty : y.take 12 = y := List.take_of_length_le (by omega)
  have h1 := Lemmas.AsmArm64.mul751 lx ly lz
  have h2 := Lemmas.AsmArm64.mul751_xy lx lz
  rw [tx] at h1 h2
  rw [ty] at h1
  exact ⟨writes_of h1, writes_of h2⟩

/-- In numbers: the exact product. -/
theorem c88_value751 (lz : z.length = 24) (lx : x.length = 12) (ly : y.length = 12) :
    ∃ r : List W64, r.length = 24 ∧ val r = val x * val y ∧ Writes (Arm64.mul .p751) [z, x, y] [0, 1, 2] 0 [] r := by
  obtain ⟨w1, w2⟩ := Lemmas.SidhArith.mulW_spec (good .p751) x y lx ly
  exact ⟨_, w2, w1, (c88_mul751 lz lx ly).1⟩

/-- Both reductions compute what the portable one does, for all words, and leave their input unchanged. -/
theorem c88_rdc (f : Field) (lz : z.length = 12) (lx : x.length = 24) :
    Writes (Arm64.rdc f) [z, x] [0, 1] 0 [] (rdcP (primeOf f.fld) (x.take (2 * f.fld.words))) := by
  match f with
  | .p503 => exact writes_of (Lemmas.AsmArm64.rdc503 lx lz)
  | .p751 => exact writes_of (Lemmas.AsmArm64.rdc751 lx lz)

/-- In numbers: below 2p, and R times it is the input modulo p. -/
theorem c88_rdc_value (f : Field) (lz : z.length = 12) (lx : x.length = 24) (hx : val (x.take (2 * f.fld.words)) < f.fld.p * f.fld.R) :
    ∃ r : List W64, r.length = f.fld.words ∧ val r < 2 * f.fld.p ∧ f.fld.R * val r ≡ val (x.take (2 * f.fld.words)) [MOD f.fld.p] ∧
      Writes (Arm64.rdc f) [z, x] [0, 1] 0 [] r := by
  have hn := n_eq f.fld
  have hw : f.fld.words ≤ 12 := by cases f <;> decide
  obtain ⟨q, _, h1, h2, h3⟩ := Lemmas.SidhArith.rdcP_spec (good f.fld) (x.take (2 * f.fld.words)) (by rw [List.length_take]; omega)
    (by rw [p_eq, R_eq]; exact hx)
  rw [p_eq] at h1 h2
  rw [R_eq] at h1
  refine ⟨_, by omega, h2, ?_, c88_rdc f lz lx⟩
  unfold Nat.ModEq
  rw [h1, Nat.add_mul_mod_self_right]

/-! ### C89: products for p503 -/

/-- The four low and the four high words of a p503 element. -/
def lo (x : List W64) : Nat := val (x.take 4)
def hi (x : List W64) : Nat := val ((x.drop 4).take 4)

/-- When `mulP503` loses a carry: with x = lo x + 2^256 hi x and y likewise, adding the high half of lo x · lo y to the low half of
(lo x + hi x)(lo y + hi y) − lo x · lo y carries although lo x · hi y + hi x · lo y + ⌊lo x · lo y / 2^256⌋ is below 2^256. -/
def Lost (x y : List W64) : Prop :=
  2 ^ 256 ≤ (hi x * lo y + lo x * hi y + hi x * hi y) % 2 ^ 256 + lo x * lo y / 2 ^ 256 ∧
  hi x * lo y + lo x * hi y + lo x * lo y / 2 ^ 256 < 2 ^ 256

instance (x y : List W64) : Decidable (Lost x y) := inferInstanceAs (Decidable (_ ∧ _))

theorem val_four (x : List W64) (h : x.length ≤ 4) : val x < 2 ^ 256 := by
  refine lt_of_lt_of_le (Lemmas.Limb.val_lt x) ?_
  exact Nat.pow_le_pow_right (by decide) (by omega)

theorem late_lt (x y : List W64) : late (hi x) (lo x) (hi y) (lo y) < hi x * hi y ↔ Lost x y := by
  have l1 : lo x < 2 ^ 256 := val_four _ (by rw [List.length_take]; omega)
  have l2 : lo y < 2 ^ 256 := val_four _ (by rw [List.length_take]; omega)
  have le : lo x * lo y / 2 ^ 256 < 2 ^ 256 := Nat.div_lt_of_lt_mul (Nat.mul_lt_mul'' l1 l2)
  unfold late Lost
  generalize hK : 2 ^ 256 = K at *
  have hK0 : 0 < K := by rw [← hK]; exact Nat.two_pow_pos 256
  clear hK
  generalize lo x * lo y / K = e at *
  generalize hi x * hi y = h
  generalize hi x * lo y + lo x * hi y = m
  have hd := Nat.mod_add_div (m + h) K
  have hm := Nat.mod_lt (m + h) hK0
  generalize (m + h) % K = r at *
  generalize K * ((m + h) / K) = q at *
  by_cases hc : K ≤ r + e
  · have : (r + e) % K = r + e - K := by
      rw [Nat.mod_eq_sub_mod hc, Nat.mod_eq_of_lt (by omega)]
    rw [this]; omega
  · rw [Nat.mod_eq_of_lt (by omega)]; omega

/-- The words of a number. -/
def wordsOf : Nat → Nat → List W64
  | 0, _ => []
  | n + 1, v => BitVec.ofNat 64 v :: wordsOf n (v / 2 ^ 64)

theorem wordsOf_len (n : Nat) : ∀ v, (wordsOf n v).length = n := by
  induction n with
  | zero => intro v; rfl
  | succ n ih => intro v; rw [wordsOf, List.length_cons, ih]

theorem wordsOf_val (n : Nat) : ∀ v, val (wordsOf n v) = v % 2 ^ (64 * n) := by
  induction n with
  | zero => intro v; rw [wordsOf, Nat.mul_zero, Nat.pow_zero, Nat.mod_one]; rfl
  | succ n ih =>
    intro v
    rw [wordsOf, val, ih, BitVec.toNat_ofNat, show 64 * (n + 1) = 64 + 64 * n by ring, Nat.pow_add, Nat.mod_mul]

theorem lost_two (x y : List W64) : (if late (val ((x.drop 4).take 4)) (val (x.take 4)) (val ((y.drop 4).take 4)) (val (y.take 4)) <
    val ((x.drop 4).take 4) * val ((y.drop 4).take 4) then 2 ^ 832 else 0) = (if Lost x y then 2 ^ 832 else 0) := by
  by_cases h : Lost x y
  · rw [if_pos h]; exact if_pos ((late_lt x y).mpr h)
  · rw [if_neg h]; exact if_neg (fun hc => h ((late_lt x y).mp hc))

/-- What `mulP503` computes for all words: the product, plus 2^832 if the carry is lost. -/
theorem c89_exact (lz : z.length = 24) (lx : x.length = 12) (ly : y.length = 12) :
    ∃ r : List W64, r.length = 16 ∧ val r = (val (x.take 8) * val (y.take 8) + if Lost x y then 2 ^ 832 else 0) % 2 ^ 1024 ∧
      Writes (Arm64.mul .p503) [z, x, y] [0, 1, 2] 0 [] r := by
  refine ⟨wordsOf 16 (val (x.take 8) * val (y.take 8) + if Lost x y then 2 ^ 832 else 0), wordsOf_len _ _, wordsOf_val _ _, ?_⟩
  exact writes_of (Lemmas.AsmArm64.mul503 lx ly lz (wordsOf_len _ _) (by rw [wordsOf_val, lost_two]))

theorem c89_exact_sq (lz : z.length = 24) (lx : x.length = 12) :
    ∃ r : List W64, r.length = 16 ∧ val r = (val (x.take 8) * val (x.take 8) + if Lost x x then 2 ^ 832 else 0) % 2 ^ 1024 ∧
      Writes (Arm64.mul .p503) [z, x] [0, 1, 1] 0 [] r := by
  refine ⟨wordsOf 16 (val (x.take 8) * val (x.take 8) + if Lost x x then 2 ^ 832 else 0), wordsOf_len _ _, wordsOf_val _ _, ?_⟩
  exact writes_of (Lemmas.AsmArm64.mul503_xy lx lz (wordsOf_len _ _) (by rw [wordsOf_val, lost_two]))

theorem val_inj : ∀ {a b : List W64}, a.length = b.length → val a = val b → a = b := by
  intro a
  induction a with
  | nil => intro b h _; cases b <;> first | rfl | simp at h
  | cons u a ih =>
    intro b h hv
    cases b with
    | nil => simp at h
    | cons v b =>
      rw [val, val] at hv
      have h1 := u.isLt
      have h2 := v.isLt
      have e : u = v := BitVec.eq_of_toNat_eq (by omega)
      subst e
      rw [ih (by simpa using h) (by omega)]

theorem prod_lt {n : Nat} {a b : List W64} (ha : a.length = n) (hb : b.length = n) : val a * val b < 2 ^ (64 * (2 * n)) := by
  have h1 := Lemmas.Limb.val_lt a
  have h2 := Lemmas.Limb.val_lt b
  rw [ha] at h1; rw [hb] at h2
  calc val a * val b < 2 ^ (64 * n) * 2 ^ (64 * n) := Nat.mul_lt_mul'' h1 h2
    _ = 2 ^ (64 * (2 * n)) := by rw [← Nat.pow_add]; congr 1; ring

/-- The routine multiplies as the portable function does, for exactly those operands where the carry is not lost. -/
theorem c89_iff (lz : z.length = 24) (lx : x.length = 12) (ly : y.length = 12) :
    Writes (Arm64.mul .p503) [z, x, y] [0, 1, 2] 0 [] (mulW (primeOf .p503) (x.take 8) (y.take 8)) ↔ ¬ Lost x y := by
  obtain ⟨r, r1, r2, r3⟩ := c89_exact lz lx ly
  have tx : (x.take 8).length = 8 := by rw [List.length_take]; omega
  have ty : (y.take 8).length = 8 := by rw [List.length_take]; omega
  obtain ⟨w1, w2⟩ := Lemmas.SidhArith.mulW_spec (good .p503) (x.take 8) (y.take 8) tx ty
  have w2 : (mulW (primeOf .p503) (x.take 8) (y.take 8)).length = 16 := w2
  have hlt : val (x.take 8) * val (y.take 8) < 2 ^ 1024 := lt_of_lt_of_eq (prod_lt tx ty) (congrArg (fun k => 2 ^ k) (by decide))
  constructor
  · intro h hl
    rw [if_pos hl] at r2
    have e1 := observe_writes (by simp) h
    rw [observe_writes (by simp) r3, Option.some.injEq] at e1
    have e1 := List.map_injective_iff.mpr (fun a b h => BitVec.eq_of_toNat_eq h) e1
    have e2 : r = mulW (primeOf .p503) (x.take 8) (y.take 8) := by
      have := congrArg (List.take 16) e1
      rwa [← r1, List.take_left, r1, ← w2, List.take_left] at this
    rw [e2, w1] at r2
    have h832 : (2 : Nat) ^ 832 < 2 ^ 1024 := Nat.pow_lt_pow_right (by decide) (by decide)
    have h0 : 0 < (2 : Nat) ^ 832 := Nat.two_pow_pos _
    generalize (2 : Nat) ^ 832 = a at *
    generalize (2 : Nat) ^ 1024 = b at *
    generalize val (x.take 8) * val (y.take 8) = v at *
    by_cases hc : v + a < b
    · rw [Nat.mod_eq_of_lt hc] at r2; omega
    · rw [Nat.mod_eq_sub_mod (by omega), Nat.mod_eq_of_lt (by omega)] at r2; omega
  · intro hl
    rw [if_neg hl, Nat.add_zero, Nat.mod_eq_of_lt hlt] at r2
    rw [← val_inj (r1.trans w2.symm) (r2.trans w1.symm)]
    exact r3

/-- The carry is not lost if the product of one half with the other reaches 2^256, or if one operand is below 2^256. -/
theorem not_lost (h : 2 ^ 256 ≤ hi x * lo y + lo x * hi y ∨ hi x = 0 ∨ hi y = 0) : ¬ Lost x y := by
  intro ⟨h1, h2⟩
  rcases h with h | h
  · omega
  · have h0 : hi x * hi y = 0 := by rcases h with h | h <;> rw [h] <;> simp
    rw [h0, Nat.add_zero, Nat.mod_eq_of_lt (by omega)] at h1
    omega

/-- The part of the claim that holds: the product is the portable one if 2^256 ≤ hi x · lo y + lo x · hi y, or if one operand is
below 2^256.  The excluded operands are real, see `c89_false`. -/
theorem c89_mul503_partial (lz : z.length = 24) (lx : x.length = 12) (ly : y.length = 12)
    (h : 2 ^ 256 ≤ hi x * lo y + lo x * hi y ∨ hi x = 0 ∨ hi y = 0) :
    Writes (Arm64.mul .p503) [z, x, y] [0, 1, 2] 0 [] (mulW (primeOf .p503) (x.take 8) (y.take 8)) :=
  (c89_iff lz lx ly).mpr (not_lost h)

/-- 2^320 + 2^191 − 2^63 − 2^60, which is below p. -/
def bad : List W64 := [0x7000000000000000, 0xffffffffffffffff, 0x7fffffffffffffff, 0, 0, 1, 0, 0, 0, 0, 0, 0]

theorem bad_val : val (bad.take 8) = 2 ^ 320 + 2 ^ 191 - 2 ^ 63 - 2 ^ 60 ∧ val (bad.take 8) < Fld.p503.p := by
  constructor <;> decide +kernel

theorem bad_lost : Lost bad bad := by
  have h1 : hi bad = 2 ^ 64 := by decide +kernel
  have h2 : lo bad = 2 ^ 191 - 2 ^ 63 - 2 ^ 60 := by decide +kernel
  unfold Lost
  rw [h1, h2]
  decide +kernel

/-- For two reduced field elements the assembly product is not their product. -/
theorem c89_false : ¬ ∀ z x y : List W64, z.length = 24 → x.length = 12 → y.length = 12 → val (x.take 8) < Fld.p503.p → val (y.take 8) < Fld.p503.p →
    Writes (Arm64.mul .p503) [z, x, y] [0, 1, 2] 0 [] (mulW (primeOf .p503) (x.take 8) (y.take 8)) := fun h =>
  (c89_iff (z := List.replicate 24 0) rfl rfl rfl).mp (h (List.replicate 24 0) bad bad rfl rfl rfl bad_val.2 bad_val.2) bad_lost

/-- Nor is it their product in the field: the square of this element followed by a reduction is not the Montgomery square. -/
theorem c89_false_field : ∃ t : List W64, t.length = 24 ∧ Writes (Arm64.mul .p503) [List.replicate 24 0, bad] [0, 1, 1] 0 [] (t.take 16) ∧
    ∃ r : List W64, Writes (Arm64.rdc .p503) [List.replicate 12 0, t] [0, 1] 0 [] r ∧
      ¬ Fld.p503.R * val r ≡ val (bad.take 8) * val (bad.take 8) [MOD Fld.p503.p] := by
  obtain ⟨m, m1, m2, m3⟩ := c89_exact_sq (x := bad) (z := List.replicate 24 0) rfl rfl
  rw [if_pos bad_lost] at m2
  have ht : (m ++ List.replicate 8 0).take 16 = m := by rw [← m1, List.take_left]
  have hm : val m < Fld.p503.p * Fld.p503.R := by
    rw [m2, bad_val.1]; decide +kernel
  have key := c88_rdc_value .p503 (z := List.replicate 12 0) (x := m ++ List.replicate 8 0) rfl (by rw [List.length_append, m1]; rfl)
  simp only [Field.fld] at key
  rw [show 2 * Fld.p503.words = 16 from rfl, ht] at key
  obtain ⟨r, _, _, r3, r4⟩ := key hm
  refine ⟨_, by rw [List.length_append, m1]; rfl, by rw [ht]; exact m3, r, r4, fun h => ?_⟩
  rw [m2] at r3
  have := h.symm.trans r3
  rw [bad_val.1] at this
  revert this
  unfold Nat.ModEq
  decide +kernel

/-! ### C90: a field multiplication -/

theorem mul_writes (f : Field) (lz : z.length = 24) (lx : x.length = 12) (ly : y.length = 12) (hl : f = .p503 → ¬ Lost x y) :
    Writes (Arm64.mul f) [z, x, y] [0, 1, 2] 0 [] (mulW (primeOf f.fld) (x.take f.fld.words) (y.take f.fld.words)) := by
  match f with
  | .p503 => exact (c89_iff lz lx ly).mpr (hl rfl)
  | .p751 => exact writes_of (Lemmas.AsmArm64.mul751 lx ly lz)

/-- A product followed by a reduction is a Montgomery multiplication in the field: for p751 always, for p503 if the carry is not lost. -/
theorem c90_mont_partial (f : Field) (lz : z.length = 24) (lx : x.length = 12) (ly : y.length = 12)
    (hx : val (x.take f.fld.words) < 2 * f.fld.p) (hy : val (y.take f.fld.words) < 2 * f.fld.p)
    (hl : f = .p503 → ¬ Lost x y) :
    ∃ t : List W64, t.length = 24 ∧ Writes (Arm64.mul f) [z, x, y] [0, 1, 2] 0 [] (t.take (2 * f.fld.words)) ∧
      ∀ w : List W64, w.length = 12 → ∃ r : List W64, r.length = f.fld.words ∧ val r < 2 * f.fld.p ∧
        f.fld.R * val r ≡ val (x.take f.fld.words) * val (y.take f.fld.words) [MOD f.fld.p] ∧ Writes (Arm64.rdc f) [w, t] [0, 1] 0 [] r := by
  have hw : f.fld.words ≤ 12 := by cases f <;> decide
  have hn := n_eq f.fld
  obtain ⟨m, m1, m2, m3⟩ : ∃ m : List W64, m.length = 2 * f.fld.words ∧ val m = val (x.take f.fld.words) * val (y.take f.fld.words) ∧
      Writes (Arm64.mul f) [z, x, y] [0, 1, 2] 0 [] m := by
    obtain ⟨w1, w2⟩ := Lemmas.SidhArith.mulW_spec (good f.fld) (x.take f.fld.words) (y.take f.fld.words)
      (by rw [List.length_take]; omega) (by rw [List.length_take]; omega)
    refine ⟨mulW (primeOf f.fld) (x.take f.fld.words) (y.take f.fld.words), by omega, w1, mul_writes f lz lx ly hl⟩
  have ht : (m ++ z.drop (2 * f.fld.words)).take (2 * f.fld.words) = m := by rw [← m1, List.take_left]
  refine ⟨m ++ z.drop (2 * f.fld.words), by rw [List.length_append, List.length_drop]; omega, by rw [ht]; exact m3, fun w lw => ?_⟩
  have h4 : 4 * f.fld.p ≤ f.fld.R := by
    have := room f.fld
    omega
  have hlt : val m < f.fld.p * f.fld.R := by
    rw [m2]
    have h0 : 0 < f.fld.p := by have := p_gt f.fld; omega
    calc val (x.take f.fld.words) * val (y.take f.fld.words) < (2 * f.fld.p) * (2 * f.fld.p) := Nat.mul_lt_mul'' hx hy
      _ = f.fld.p * (4 * f.fld.p) := by ring
      _ ≤ f.fld.p * f.fld.R := Nat.mul_le_mul_left _ h4
  obtain ⟨r, r1, r2, r3, r4⟩ := c88_rdc_value f (z := w) (x := m ++ z.drop (2 * f.fld.words)) lw (by rw [List.length_append, List.length_drop]; omega)
    (by rw [ht]; exact hlt)
  rw [ht, m2] at r3
  exact ⟨r, r1, r2, r3, r4⟩

/-! ### C91: the frame pointer -/

/-- The additions, subtractions and the final reduction leave the caller's frame pointer R29 as it was. -/
theorem c91_fp_partial (f : Field) (a : Alias) (lz : z.length = 12) (lx : x.length = 12) (ly : y.length = 12) {u v w : List W64}
    (lu : u.length = 24) (lv : v.length = 24) (lw : w.length = 24) :
    KeepsBP (Arm64.add f) (a.data z x y) a.args ∧ KeepsBP (Arm64.sub f) (a.data z x y) a.args ∧
    KeepsBP (Arm64.adl f) (a.data u v w) a.args ∧ KeepsBP (Arm64.sul f) (a.data u v w) a.args ∧ KeepsBP (Arm64.mod f) [x] [0] := by
  match f with
  | .p503 => exact ⟨keeps_of (Lemmas.AsmArm64.add503_all a lz lx ly), keeps_of (Lemmas.AsmArm64.sub503_all a lz lx ly),
      keeps_of (Lemmas.AsmArm64.adl503_all a lu lv lw), keeps_of (Lemmas.AsmArm64.sul503_all a lu lv lw), keeps_of (Lemmas.AsmArm64.mod503 lx)⟩
  | .p751 => exact ⟨keeps_of (Lemmas.AsmArm64.add751_all a lz lx ly), keeps_of (Lemmas.AsmArm64.sub751_all a lz lx ly),
      keeps_of (Lemmas.AsmArm64.adl751_all a lu lv lw), keeps_of (Lemmas.AsmArm64.sul751_all a lu lv lw), keeps_of (Lemmas.AsmArm64.mod751 lx)⟩

/-- The products and the Montgomery reductions use R29 as a scratch register and do not restore it. -/
theorem c91_false : ∀ f,
    (¬ ∀ z x y : List W64, z.length = 24 → x.length = 12 → y.length = 12 → KeepsBP (Arm64.mul f) [z, x, y] [0, 1, 2]) ∧
    (¬ ∀ z x : List W64, z.length = 12 → x.length = 24 → KeepsBP (Arm64.rdc f) [z, x] [0, 1]) := by
  intro f
  constructor
  · intro h
    have := observe_bp (h (List.replicate 24 0) (ones 12) (ones 12) rfl rfl rfl)
    revert this
    cases f <;> decide +kernel
  · intro h
    have := observe_bp (h (List.replicate 12 0) (ones 24) rfl rfl)
    revert this
    cases f <;> decide +kernel

/-! ### C92: conditional swaps -/

/-- The swap leaves its arguments alone if the choice byte is 0 and exchanges the words of the two field elements for every other one. -/
theorem c92_cswap (f : Field) (c : W64) (lx : x.length = 12) (ly : y.length = 12) :
    Returns (Arm64.cswap f) [x, y] [.arr 0, .arr 1, .num c]
      (if choiceOf c = 0 then [x, y] else [y.take f.fld.words ++ x.drop f.fld.words, x.take f.fld.words ++ y.drop f.fld.words]) := by
  intro junk fr bp fp _
  match f with
  | .p503 => exact Lemmas.AsmSwapArm.cswap503 junk fr bp fp x y c lx ly
  | .p751 => exact Lemmas.AsmSwapArm.cswap751 junk fr bp fp x y c lx ly

/-- For the choices 0 and 1 it does what the portable swap does. -/
theorem c92_portable (f : Field) (c : W64) (h : choiceOf c = 0 ∨ choiceOf c = 1) (lx : x.length = 12) (ly : y.length = 12) :
    Returns (Arm64.cswap f) [x, y] [.arr 0, .arr 1, .num c]
      [(Sidh.cswapP (x.take f.fld.words) (y.take f.fld.words) (choiceOf c)).1 ++ x.drop f.fld.words,
       (Sidh.cswapP (x.take f.fld.words) (y.take f.fld.words) (choiceOf c)).2 ++ y.drop f.fld.words] := by
  have h1 := c92_cswap f c lx ly
  have e : [(Sidh.cswapP (x.take f.fld.words) (y.take f.fld.words) (choiceOf c)).1 ++ x.drop f.fld.words,
      (Sidh.cswapP (x.take f.fld.words) (y.take f.fld.words) (choiceOf c)).2 ++ y.drop f.fld.words] =
      (if choiceOf c = 0 then [x, y] else [y.take f.fld.words ++ x.drop f.fld.words, x.take f.fld.words ++ y.drop f.fld.words]) := by
    change [Lemmas.AsmSwap.swap1 (0 - (choiceOf c).setWidth 64) f.fld.words x y, Lemmas.AsmSwap.swap2 (0 - (choiceOf c).setWidth 64) f.fld.words x y] = _
    rw [Props.AsmCsidh.mask_of h]
    rcases h with h | h
    · rw [h, if_neg (by decide), if_pos rfl, (Props.AsmCsidh.swap_zero f.fld.words (lx.trans ly.symm)).1, (Props.AsmCsidh.swap_zero f.fld.words (lx.trans ly.symm)).2]
    · rw [h, if_pos rfl, if_neg (by decide), (Props.AsmCsidh.swap_ones f.fld.words (lx.trans ly.symm)).1, (Props.AsmCsidh.swap_ones f.fld.words (lx.trans ly.symm)).2]
  rw [e]; exact h1

/-- For other choices, of which the comment at arith_arm64.s:9-11 speaks, the builds differ: the portable swap mixes the bits. -/
theorem c92_other : ∃ (c : W64) (x y : List W64), x.length = 12 ∧ y.length = 12 ∧ ∀ f : Field,
    ¬ Returns (Arm64.cswap f) [x, y] [.arr 0, .arr 1, .num c]
      [(Sidh.cswapP (x.take f.fld.words) (y.take f.fld.words) (choiceOf c)).1 ++ x.drop f.fld.words,
       (Sidh.cswapP (x.take f.fld.words) (y.take f.fld.words) (choiceOf c)).2 ++ y.drop f.fld.words] := by
  refine ⟨2, List.replicate 12 0, List.replicate 12 0xffffffffffffffff, rfl, rfl, fun f h => ?_⟩
  have h1 := h (fun _ => .w 0) [] 0 0 (by cases f <;> rfl)
  rw [c92_cswap f 2 rfl rfl (fun _ => .w 0) [] 0 0 (by cases f <;> rfl)] at h1
  have h2 := congrArg (fun r => (r.map fun p => ((p.1.headD []).map fun | Val.w w => w.toNat | .ptr b => b))) h1
  revert h2
  cases f <;> decide +kernel

/-! ### Examples: the hypotheses are met, and the machine runs the routines -/

/-- 3 · 4 = 12. -/
example : ∀ f, (observe (Arm64.mul f) [small 24 7, small 12 3, small 12 4] [0, 1, 2]).map (fun r => r.1) = some (12 :: List.replicate 23 0) := by
  intro f; cases f <;> decide +kernel

example : val ((small 12 3).take (Fld.p503).words) < 2 * (Fld.p503).p ∧ hi (small 12 3) = 0 := by constructor <;> decide +kernel

/-- Numbers with both halves, for which the product is right. -/
example : 2 ^ 256 ≤ hi (ones 12) * lo (ones 12) + lo (ones 12) * hi (ones 12) := by decide +kernel

/-- 3 − 4 = 2p − 1. -/
example : (observe (Arm64.sub .p503) [small 12 7, small 12 3, small 12 4] [0, 1, 2]).map (fun r => r.1.take 4) =
    some [0xfffffffffffffffd, 0xffffffffffffffff, 0xffffffffffffffff, 0x57ffffffffffffff] := by decide +kernel

/-- A swap with choice 1 exchanges 3 and 4. -/
example : ∀ f, ((Arm64.cswap f).call (fun _ => .w 0) [] 0 0 [small 12 3, small 12 4] [.arr 0, .arr 1, .num 1]).map
    (fun r => r.1.map fun d => d.map fun | Val.w w => w.toNat | .ptr b => b) = some [4 :: List.replicate 11 0, 3 :: List.replicate 11 0] := by
  intro f; cases f <;> decide +kernel

end Props.AsmArm
