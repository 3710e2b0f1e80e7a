import Verif.Lemmas.AsmAmd64
/-!
The amd64 assembly of the SIDH fields (C78 to C83): dh/sidh/internal/p434, p503 and p751, arith_amd64.s.

A field element is an array of 12 words of which the first `f.words` count (`common.Fp`), a product an array of 24 words
(`common.FpX2`).  `addP`, `subP`, `adlP`, `sulP`, `modP`, `mulW` and `rdcP` are the portable functions of arith_generic.go.
-/
namespace Props.AsmArith
open Model Model.Asm Model.Sidh Spec Spec.Asm Spec.Sidh Lemmas.SidhGood Lemmas.AsmAmd64 Lemmas.AsmFam

variable {z x y : List W64}

/-! ### C78: additions and subtractions -/

/-- The assembly addition computes what the portable one does, for all words, however the arguments alias. -/
theorem c78_add (f : Fld) (c : Cpu) (a : Alias) (lz : z.length = 12) (lx : x.length = 12) (ly : y.length = 12) :
    Writes (Amd64.add f c) (a.data z x y) a.args 0 [] (addP (primeOf f) (x.take f.words) ((a.snd x y).take f.words)) := by
  match f, c with
  | .p434, .base => exact writes_of (add434_all a lz lx ly)
  | .p434, .bmi2 => exact writes_of (add434_all a lz lx ly)
  | .p434, .adx => exact writes_of (add434_all a lz lx ly)
  | .p503, .base => exact writes_of (add503_all a lz lx ly)
  | .p503, .bmi2 => exact writes_of (add503_all a lz lx ly)
  | .p503, .adx => exact writes_of (add503_all a lz lx ly)
  | .p751, .base => exact writes_of (add751_all a lz lx ly)
  | .p751, .bmi2 => exact writes_of (add751_all a lz lx ly)
  | .p751, .adx => exact writes_of (add751_all a lz lx ly)

theorem c78_sub (f : Fld) (c : Cpu) (a : Alias) (lz : z.length = 12) (lx : x.length = 12) (ly : y.length = 12) :
    Writes (Amd64.sub f c) (a.data z x y) a.args 0 [] (subP (primeOf f) (x.take f.words) ((a.snd x y).take f.words)) := by
  match f, c with
  | .p434, .base => exact writes_of (sub434_all a lz lx ly)
  | .p434, .bmi2 => exact writes_of (sub434_all a lz lx ly)
  | .p434, .adx => exact writes_of (sub434_all a lz lx ly)
  | .p503, .base => exact writes_of (sub503_all a lz lx ly)
  | .p503, .bmi2 => exact writes_of (sub503_all a lz lx ly)
  | .p503, .adx => exact writes_of (sub503_all a lz lx ly)
  | .p751, .base => exact writes_of (sub751_all a lz lx ly)
  | .p751, .bmi2 => exact writes_of (sub751_all a lz lx ly)
  | .p751, .adx => exact writes_of (sub751_all a lz lx ly)

theorem c78_adl (f : Fld) (c : Cpu) (a : Alias) (lz : z.length = 24) (lx : x.length = 24) (ly : y.length = 24) :
    Writes (Amd64.adl f c) (a.data z x y) a.args 0 [] (adlP (x.take (2 * f.words)) ((a.snd x y).take (2 * f.words))) := by
  match f, c with
  | .p434, .base => exact writes_of (adl434_all a lz lx ly)
  | .p434, .bmi2 => exact writes_of (adl434_all a lz lx ly)
  | .p434, .adx => exact writes_of (adl434_all a lz lx ly)
  | .p503, .base => exact writes_of (adl503_all a lz lx ly)
  | .p503, .bmi2 => exact writes_of (adl503_all a lz lx ly)
  | .p503, .adx => exact writes_of (adl503_all a lz lx ly)
  | .p751, .base => exact writes_of (adl751_all a lz lx ly)
  | .p751, .bmi2 => exact writes_of (adl751_all a lz lx ly)
  | .p751, .adx => exact writes_of (adl751_all a lz lx ly)

theorem c78_sul (f : Fld) (c : Cpu) (a : Alias) (lz : z.length = 24) (lx : x.length = 24) (ly : y.length = 24) :
    Writes (Amd64.sul f c) (a.data z x y) a.args 0 [] (sulP (primeOf f) (x.take (2 * f.words)) ((a.snd x y).take (2 * f.words))) := by
  match f, c with
  | .p434, .base => exact writes_of (sul434_all a lz lx ly)
  | .p434, .bmi2 => exact writes_of (sul434_all a lz lx ly)
  | .p434, .adx => exact writes_of (sul434_all a lz lx ly)
  | .p503, .base => exact writes_of (sul503_all a lz lx ly)
  | .p503, .bmi2 => exact writes_of (sul503_all a lz lx ly)
  | .p503, .adx => exact writes_of (sul503_all a lz lx ly)
  | .p751, .base => exact writes_of (sul751_all a lz lx ly)
  | .p751, .bmi2 => exact writes_of (sul751_all a lz lx ly)
  | .p751, .adx => exact writes_of (sul751_all a lz lx ly)

theorem c78_mod (f : Fld) (c : Cpu) (lx : x.length = 12) :
    Writes (Amd64.mod f c) [x] [0] 0 [] (modP (primeOf f) (x.take f.words)) := by
  match f, c with
  | .p434, .base => exact writes_of (mod434 lx)
  | .p434, .bmi2 => exact writes_of (mod434 lx)
  | .p434, .adx => exact writes_of (mod434 lx)
  | .p503, .base => exact writes_of (mod503 lx)
  | .p503, .bmi2 => exact writes_of (mod503 lx)
  | .p503, .adx => exact writes_of (mod503 lx)
  | .p751, .base => exact writes_of (mod751 lx)
  | .p751, .bmi2 => exact writes_of (mod751 lx)
  | .p751, .adx => exact writes_of (mod751 lx)

/-- In numbers: for elements below 2p the sum and the difference modulo 2p. -/
theorem c78_values (f : Fld) (c : Cpu) (a : Alias) (lz : z.length = 12) (lx : x.length = 12) (ly : y.length = 12)
    (hx : val (x.take f.words) < 2 * f.p) (hy : val ((a.snd x y).take f.words) < 2 * f.p) :
    (∃ r : List W64, r.length = f.words ∧ val r = (val (x.take f.words) + val ((a.snd x y).take f.words)) % (2 * f.p) ∧
      Writes (Amd64.add f c) (a.data z x y) a.args 0 [] r) ∧
    (∃ r : List W64, r.length = f.words ∧ val r = (val (x.take f.words) + 2 * f.p - val ((a.snd x y).take f.words)) % (2 * f.p) ∧
      Writes (Amd64.sub f c) (a.data z x y) a.args 0 [] r) ∧
    (∃ r : List W64, r.length = f.words ∧ val r = val (x.take f.words) % f.p ∧ Writes (Amd64.mod f c) [x] [0] 0 [] r) := by
  have hn := n_eq f
  have hp := p_eq f
  have hw : f.words ≤ 12 := by cases f <;> decide
  have ls : (a.snd x y).length = 12 := by cases a <;> assumption
  have l1 : (x.take f.words).length = (primeOf f).n := by rw [List.length_take]; omega
  have l2 : ((a.snd x y).take f.words).length = (primeOf f).n := by rw [List.length_take]; omega
  rw [← hp] at hx hy
  obtain ⟨a1, a2⟩ := Lemmas.SidhArith.addP_spec (good f) _ _ l1 l2 hx hy
  obtain ⟨s1, s2⟩ := Lemmas.SidhArith.subP_spec (good f) _ _ l1 l2 hx hy
  obtain ⟨m1, m2⟩ := Lemmas.SidhArith.modP_spec (good f) _ l1 hx
  rw [hp] at a1 s1 m1
  exact ⟨⟨_, by omega, a1, c78_add f c a lz lx ly⟩, ⟨_, by omega, s1, c78_sub f c a lz lx ly⟩, ⟨_, by omega, m1, c78_mod f c lx⟩⟩

/-! ### C79: products of field elements -/

theorem top_lt {x : List W64} {n : Nat} (hn : 0 < n) (lx : n ≤ x.length) (h : val (x.take n) < 2 ^ (64 * n - 1)) : (x.getD (n - 1) 0).toNat < 2 ^ 63 := by
  have hs := Lemmas.SidhArith.val_split (x.take n) (n - 1) (by rw [List.length_take]; omega)
  have hd : (x.take n).drop (n - 1) = [x.getD (n - 1) 0] := by
    rw [List.drop_take, show n - (n - 1) = 1 by omega, List.drop_eq_getElem_cons (by omega), List.take_succ_cons, List.take_zero,
      List.getD_eq_getElem?_getD, List.getElem?_eq_getElem (by omega), Option.getD_some]
  rw [hd] at hs
  simp only [val, Nat.mul_zero, Nat.add_zero] at hs
  have e : 2 ^ (64 * n - 1) = 2 ^ (64 * (n - 1)) * 2 ^ 63 := by rw [← Nat.pow_add]; congr 1; omega
  rw [hs, e] at h
  by_contra hc
  have : 2 ^ (64 * (n - 1)) * 2 ^ 63 ≤ 2 ^ (64 * (n - 1)) * (x.getD (n - 1) 0).toNat := Nat.mul_le_mul_left _ (by omega)
  omega

/-- Numbers without the top bit (all sums of a few field elements are) are multiplied as by the portable function. -/
theorem c79_mul (f : Fld) (c : Cpu) (lz : z.length = 24) (lx : x.length = 12) (ly : y.length = 12)
    (hx : val (x.take f.words) < 2 ^ (64 * f.words - 1)) (hy : val (y.take f.words) < 2 ^ (64 * f.words - 1)) :
    Writes (Amd64.mul f c) [z, x, y] [0, 1, 2] 0 [] (mulW (primeOf f) (x.take f.words) (y.take f.words)) ∧
    Writes (Amd64.mul f c) [z, x] [0, 1, 1] 0 [] (mulW (primeOf f) (x.take f.words) (x.take f.words)) := by
  have hw : 0 < f.words ∧ f.words ≤ 12 := by cases f <;> decide
  have tx := top_lt hw.1 (by omega) hx
  have ty := top_lt hw.1 (by omega) hy
  match f, c with
  | .p434, .base => exact ⟨writes_of (mul434 lx ly lz), writes_of (mul434_xy lx lz)⟩
  | .p434, .bmi2 => exact ⟨writes_of (mul434 lx ly lz), writes_of (mul434_xy lx lz)⟩
  | .p434, .adx => exact ⟨writes_of (mul_adx434 lx ly lz), writes_of (mul_adx434_xy lx lz)⟩
  | .p503, .base => exact ⟨writes_of (mul503 lx ly lz tx ty), writes_of (mul503_xy lx lz tx)⟩
  | .p503, .bmi2 => exact ⟨writes_of (mul_bmi2503 lx ly lz tx ty), writes_of (mul_bmi2503_xy lx lz tx)⟩
  | .p503, .adx => exact ⟨writes_of (mul_adx503 lx ly lz tx ty), writes_of (mul_adx503_xy lx lz tx)⟩
  | .p751, .base => exact ⟨writes_of (mul751 lx ly lz tx ty), writes_of (mul751_xy lx lz tx)⟩
  | .p751, .bmi2 => exact ⟨writes_of (mul751 lx ly lz tx ty), writes_of (mul751_xy lx lz tx)⟩
  | .p751, .adx => exact ⟨writes_of (mul751 lx ly lz tx ty), writes_of (mul751_xy lx lz tx)⟩

/-- In numbers: for field elements below 2p the exact product. -/
theorem c79_value (f : Fld) (c : Cpu) (lz : z.length = 24) (lx : x.length = 12) (ly : y.length = 12)
    (hx : val (x.take f.words) < 2 * f.p) (hy : val (y.take f.words) < 2 * f.p) :
    ∃ r : List W64, r.length = 2 * f.words ∧ val r = val (x.take f.words) * val (y.take f.words) ∧
      Writes (Amd64.mul f c) [z, x, y] [0, 1, 2] 0 [] r := by
  have hn := n_eq f
  have hw : f.words ≤ 12 := by cases f <;> decide
  have hp : 2 * f.p < 2 ^ (64 * f.words - 1) := by cases f <;> decide +kernel
  obtain ⟨w1, w2⟩ := Lemmas.SidhArith.mulW_spec (good f) (x.take f.words) (y.take f.words) (by rw [List.length_take]; omega) (by rw [List.length_take]; omega)
  exact ⟨_, by omega, w1, (c79_mul f c lz lx ly (by omega) (by omega)).1⟩

/-! ### C80: products of arbitrary words -/

/-- For p434 there is no condition. -/
theorem c80_p434_partial (c : Cpu) (lz : z.length = 24) (lx : x.length = 12) (ly : y.length = 12) :
    Writes (Amd64.mul .p434 c) [z, x, y] [0, 1, 2] 0 [] (mulW (primeOf .p434) (x.take 7) (y.take 7)) := by
  match c with
  | .base => exact writes_of (mul434 lx ly lz)
  | .bmi2 => exact writes_of (mul434 lx ly lz)
  | .adx => exact writes_of (mul_adx434 lx ly lz)

/-- What a caller can compare: the words of the first array. -/
def observe (R : Routine) (data : List (List W64)) (args : List Nat) : Option (List Nat × Option Nat) :=
  (R.call (fun _ => .w 0) (List.replicate R.frame (.w 0)) 5 9 data (args.map .arr)).map fun r =>
    ((r.1.headD []).map fun | .w w => w.toNat | .ptr b => b, r.2.map fun | .w w => w.toNat | .ptr b => b)

def ones (n : Nat) : List W64 := List.replicate n 0xffffffffffffffff

theorem observe_writes {R : Routine} {d : List W64} {ds : List (List W64)} {args scratch : List Nat} {res : List W64} (hs : 0 ∉ scratch)
    (h : Writes R (d :: ds) args 0 scratch res) : ((observe R (d :: ds) args).map fun r => r.1) = some ((res ++ d.drop res.length).map BitVec.toNat) := by
  obtain ⟨data', bp', h1, _, h3⟩ := h (fun _ => .w 0) (List.replicate R.frame (.w 0)) 5 9 (by simp)
  have h4 := h3 0 d rfl hs
  rw [if_pos rfl] at h4
  unfold observe
  rw [h1]
  cases data' with
  | nil => simp at h4
  | cons a as =>
    simp only [List.getElem?_cons_zero, Option.some.injEq] at h4
    subst h4
    simp [List.map_map, Function.comp_def]

/-- For p503 and p751 the assembly product of 2^(64n) − 1 with itself is not the product: the carry of the sums of the two
halves is dropped. -/
theorem c80_false : ∀ f, f ≠ .p434 → ∀ c, ¬ ∀ z x y : List W64, z.length = 24 → x.length = 12 → y.length = 12 →
    Writes (Amd64.mul f c) [z, x, y] [0, 1, 2] 0 [] (mulW (primeOf f) (x.take f.words) (y.take f.words)) := by
  intro f hf c h
  have h1 := observe_writes (by simp) (h (List.replicate 24 0) (ones 12) (ones 12) rfl rfl rfl)
  revert h1
  cases f
  · exact absurd rfl hf
  · cases c <;> decide +kernel
  · cases c <;> decide +kernel

/-! ### C81: Montgomery reduction -/

/-- The reduction computes what the portable one does, for all words.  It may change its input, as arith_decl.go says. -/
theorem c81_rdc (f : Fld) (c : Cpu) (lz : z.length = 12) (lx : x.length = 24) :
    Writes (Amd64.rdc f c) [z, x] [0, 1] 0 [1] (rdcP (primeOf f) (x.take (2 * f.words))) := by
  have weak : ∀ {R : Routine} {res : List W64}, Writes R [z, x] [0, 1] 0 [] res → Writes R [z, x] [0, 1] 0 [1] res := by
    intro R res h junk fr bp fp hf
    obtain ⟨d', b', h1, h2, h3⟩ := h junk fr bp fp hf
    exact ⟨d', b', h1, h2, fun b d hd hb => h3 b d hd (by simp)⟩
  match f, c with
  | .p434, .base => exact writes_of (rdc434 lx lz)
  | .p434, .bmi2 => exact writes_of (rdc434 lx lz)
  | .p434, .adx => exact writes_of (rdc_adx434 lx lz)
  | .p503, .base => exact weak (writes_of (rdc503 lx lz))
  | .p503, .bmi2 => exact writes_of (rdc_bmi2503 lx lz)
  | .p503, .adx => exact writes_of (rdc_adx503 lx lz)
  | .p751, .base => exact weak (writes_of (rdc751 lx lz))
  | .p751, .bmi2 => exact writes_of (rdc_bmi2751 lx lz)
  | .p751, .adx => exact writes_of (rdc_adx751 lx lz)

/-- In numbers: below 2p, and R times it is the input modulo p. -/
theorem c81_value (f : Fld) (c : Cpu) (lz : z.length = 12) (lx : x.length = 24) (hx : val (x.take (2 * f.words)) < f.p * f.R) :
    ∃ r : List W64, r.length = f.words ∧ val r < 2 * f.p ∧ f.R * val r ≡ val (x.take (2 * f.words)) [MOD f.p] ∧
      Writes (Amd64.rdc f c) [z, x] [0, 1] 0 [1] r := by
  have hn := n_eq f
  have hw : f.words ≤ 12 := by cases f <;> decide
  obtain ⟨q, _, h1, h2, h3⟩ := Lemmas.SidhArith.rdcP_spec (good f) (x.take (2 * f.words)) (by rw [List.length_take]; omega) (by rw [p_eq, R_eq]; exact hx)
  rw [p_eq] at h1 h2
  rw [R_eq] at h1
  refine ⟨_, by omega, h2, ?_, c81_rdc f c lz lx⟩
  unfold Nat.ModEq
  rw [h1, Nat.add_mul_mod_self_right]

/-! ### C82: the frame pointer -/

/-- Every routine except `mulP434` with ADX and `rdcP751` with BMI2 leaves the caller's frame pointer BP as it was. -/
theorem c82_bp_partial (f : Fld) (c : Cpu) (lz : z.length = 12) (lx : x.length = 12) (ly : y.length = 12) {u v w : List W64}
    (lu : u.length = 24) (lv : v.length = 24) (lw : w.length = 24) :
    KeepsBP (Amd64.add f c) [z, x, y] [0, 1, 2] ∧ KeepsBP (Amd64.sub f c) [z, x, y] [0, 1, 2] ∧
    KeepsBP (Amd64.adl f c) [u, v, w] [0, 1, 2] ∧ KeepsBP (Amd64.sul f c) [u, v, w] [0, 1, 2] ∧ KeepsBP (Amd64.mod f c) [x] [0] ∧
    (¬ (f = .p434 ∧ c = .adx) → val (x.take f.words) < 2 ^ (64 * f.words - 1) → val (y.take f.words) < 2 ^ (64 * f.words - 1) →
      KeepsBP (Amd64.mul f c) [u, x, y] [0, 1, 2]) ∧
    (¬ (f = .p751 ∧ c ≠ .base) → KeepsBP (Amd64.rdc f c) [z, u] [0, 1]) := by
  have hw : 0 < f.words ∧ f.words ≤ 12 := by cases f <;> decide
  refine ⟨?_, ?_, ?_, ?_, ?_, fun h hx hy => ?_, fun h => ?_⟩
  · match f, c with
    | .p434, .base => exact keeps_of (add434 lx ly lz)
    | .p434, .bmi2 => exact keeps_of (add434 lx ly lz)
    | .p434, .adx => exact keeps_of (add434 lx ly lz)
    | .p503, .base => exact keeps_of (add503 lx ly lz)
    | .p503, .bmi2 => exact keeps_of (add503 lx ly lz)
    | .p503, .adx => exact keeps_of (add503 lx ly lz)
    | .p751, .base => exact keeps_of (add751 lx ly lz)
    | .p751, .bmi2 => exact keeps_of (add751 lx ly lz)
    | .p751, .adx => exact keeps_of (add751 lx ly lz)
  · match f, c with
    | .p434, .base => exact keeps_of (sub434 lx ly lz)
    | .p434, .bmi2 => exact keeps_of (sub434 lx ly lz)
    | .p434, .adx => exact keeps_of (sub434 lx ly lz)
    | .p503, .base => exact keeps_of (sub503 lx ly lz)
    | .p503, .bmi2 => exact keeps_of (sub503 lx ly lz)
    | .p503, .adx => exact keeps_of (sub503 lx ly lz)
    | .p751, .base => exact keeps_of (sub751 lx ly lz)
    | .p751, .bmi2 => exact keeps_of (sub751 lx ly lz)
    | .p751, .adx => exact keeps_of (sub751 lx ly lz)
  · match f, c with
    | .p434, .base => exact keeps_of (adl434 lv lw lu)
    | .p434, .bmi2 => exact keeps_of (adl434 lv lw lu)
    | .p434, .adx => exact keeps_of (adl434 lv lw lu)
    | .p503, .base => exact keeps_of (adl503 lv lw lu)
    | .p503, .bmi2 => exact keeps_of (adl503 lv lw lu)
    | .p503, .adx => exact keeps_of (adl503 lv lw lu)
    | .p751, .base => exact keeps_of (adl751 lv lw lu)
    | .p751, .bmi2 => exact keeps_of (adl751 lv lw lu)
    | .p751, .adx => exact keeps_of (adl751 lv lw lu)
  · match f, c with
    | .p434, .base => exact keeps_of (sul434 lv lw lu)
    | .p434, .bmi2 => exact keeps_of (sul434 lv lw lu)
    | .p434, .adx => exact keeps_of (sul434 lv lw lu)
    | .p503, .base => exact keeps_of (sul503 lv lw lu)
    | .p503, .bmi2 => exact keeps_of (sul503 lv lw lu)
    | .p503, .adx => exact keeps_of (sul503 lv lw lu)
    | .p751, .base => exact keeps_of (sul751 lv lw lu)
    | .p751, .bmi2 => exact keeps_of (sul751 lv lw lu)
    | .p751, .adx => exact keeps_of (sul751 lv lw lu)
  · match f, c with
    | .p434, .base => exact keeps_of (mod434 lx)
    | .p434, .bmi2 => exact keeps_of (mod434 lx)
    | .p434, .adx => exact keeps_of (mod434 lx)
    | .p503, .base => exact keeps_of (mod503 lx)
    | .p503, .bmi2 => exact keeps_of (mod503 lx)
    | .p503, .adx => exact keeps_of (mod503 lx)
    | .p751, .base => exact keeps_of (mod751 lx)
    | .p751, .bmi2 => exact keeps_of (mod751 lx)
    | .p751, .adx => exact keeps_of (mod751 lx)
  · have tx := top_lt hw.1 (by omega) hx
    have ty := top_lt hw.1 (by omega) hy
    match f, c with
    | .p434, .base => exact keeps_of (mul434 lx ly lu)
    | .p434, .bmi2 => exact keeps_of (mul434 lx ly lu)
    | .p434, .adx => exact absurd ⟨rfl, rfl⟩ h
    | .p503, .base => exact keeps_of (mul503 lx ly lu tx ty)
    | .p503, .bmi2 => exact keeps_of (mul_bmi2503 lx ly lu tx ty)
    | .p503, .adx => exact keeps_of (mul_adx503 lx ly lu tx ty)
    | .p751, .base => exact keeps_of (mul751 lx ly lu tx ty)
    | .p751, .bmi2 => exact keeps_of (mul751 lx ly lu tx ty)
    | .p751, .adx => exact keeps_of (mul751 lx ly lu tx ty)
  · match f, c with
    | .p434, .base => exact keeps_of (rdc434 lu lz)
    | .p434, .bmi2 => exact keeps_of (rdc434 lu lz)
    | .p434, .adx => exact keeps_of (rdc_adx434 lu lz)
    | .p503, .base => exact keeps_of (rdc503 lu lz)
    | .p503, .bmi2 => exact keeps_of (rdc_bmi2503 lu lz)
    | .p503, .adx => exact keeps_of (rdc_adx503 lu lz)
    | .p751, .base => exact keeps_of (rdc751 lu lz)
    | .p751, .bmi2 => exact absurd ⟨rfl, by decide⟩ h
    | .p751, .adx => exact absurd ⟨rfl, by decide⟩ h

theorem observe_bp {R : Routine} {data : List (List W64)} {args : List Nat} (h : KeepsBP R data args) :
    (observe R data args).bind (fun r => r.2) = some 5 := by
  obtain ⟨d', h1⟩ := h (fun _ => .w 0) (List.replicate R.frame (.w 0)) 5 9 (by simp)
  unfold observe
  rw [h1]
  rfl

/-- The other two return with another BP: `mulP434` saves BP one word above its frame, where the assembler had put the caller's
BP, and `rdcP751` uses BP as a scratch register without a frame. -/
theorem c82_false :
    (¬ ∀ z x y : List W64, z.length = 24 → x.length = 12 → y.length = 12 → KeepsBP (Amd64.mul .p434 .adx) [z, x, y] [0, 1, 2]) ∧
    (∀ c, c ≠ .base → ¬ ∀ z x : List W64, z.length = 12 → x.length = 24 → KeepsBP (Amd64.rdc .p751 c) [z, x] [0, 1]) := by
  constructor
  · intro h
    have := observe_bp (h (List.replicate 24 0) (ones 12) (ones 12) rfl rfl rfl)
    revert this
    decide +kernel
  · intro c hc h
    have := observe_bp (h (List.replicate 12 0) (ones 24) rfl rfl)
    revert this
    cases c
    · exact absurd rfl hc
    · decide +kernel
    · decide +kernel

/-! ### C83: a field multiplication -/

/-- A product followed by a reduction is a Montgomery multiplication in the field, on every CPU. -/
theorem c83_mont (f : Fld) (c : Cpu) (lz : z.length = 24) (lx : x.length = 12) (ly : y.length = 12)
    (hx : val (x.take f.words) < 2 * f.p) (hy : val (y.take f.words) < 2 * f.p) :
    ∃ t : List W64, t.length = 24 ∧ Writes (Amd64.mul f c) [z, x, y] [0, 1, 2] 0 [] (t.take (2 * f.words)) ∧
      ∀ w : List W64, w.length = 12 → ∃ r : List W64, r.length = f.words ∧ val r < 2 * f.p ∧
        f.R * val r ≡ val (x.take f.words) * val (y.take f.words) [MOD f.p] ∧ Writes (Amd64.rdc f c) [w, t] [0, 1] 0 [1] r := by
  have hw : f.words ≤ 12 := by cases f <;> decide
  obtain ⟨m, m1, m2, m3⟩ := c79_value f c lz lx ly hx hy
  have ht : (m ++ z.drop (2 * f.words)).take (2 * f.words) = m := by rw [← m1, List.take_left]
  refine ⟨m ++ z.drop (2 * f.words), by rw [List.length_append, List.length_drop]; omega, by rw [ht]; exact m3, fun w lw => ?_⟩
  have h4 : 4 * f.p ≤ f.R := by
    have := room f
    omega
  have hlt : val m < f.p * f.R := by
    rw [m2]
    have h0 : 0 < f.p := by have := p_gt f; omega
    calc val (x.take f.words) * val (y.take f.words) < (2 * f.p) * (2 * f.p) := Nat.mul_lt_mul'' hx hy
      _ = f.p * (4 * f.p) := by ring
      _ ≤ f.p * f.R := Nat.mul_le_mul_left _ h4
  obtain ⟨r, r1, r2, r3, r4⟩ := c81_value f c (z := w) (x := m ++ z.drop (2 * f.words)) lw (by rw [List.length_append, List.length_drop]; omega)
    (by rw [ht]; exact hlt)
  rw [ht, m2] at r3
  exact ⟨r, r1, r2, r3, r4⟩

/-! ### Examples: the hypotheses are met, and the machine runs the routines -/

def small (n k : Nat) : List W64 := BitVec.ofNat 64 k :: List.replicate (n - 1) 0

/-- 3 · 4 = 12 on all CPUs with the p503 routine, and the stack frame and registers do not matter. -/
example : ∀ c, (observe (Amd64.mul .p503 c) [small 24 7, small 12 3, small 12 4] [0, 1, 2]).map (fun r => r.1) = some (12 :: List.replicate 23 0) := by
  intro c; cases c <;> decide +kernel

example : val ((small 12 3).take (Fld.p503).words) < 2 * (Fld.p503).p := by decide +kernel

/-- 3 − 4 = 2p − 1. -/
example : ∀ c, (observe (Amd64.sub .p434 c) [small 12 7, small 12 3, small 12 4] [0, 1, 2]).map (fun r => r.1) =
    some ([0xfffffffffffffffd, 0xffffffffffffffff, 0xffffffffffffffff, 0xfb82ecf5c5ffffff, 0xf78cb8f062b15d47, 0xd9f8bfad038a40ac, 0x4683e4e2ee688] ++ List.replicate 5 0) := by
  intro c; cases c <;> decide +kernel

end Props.AsmArith
