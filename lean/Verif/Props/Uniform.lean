import Verif.Lemmas.Uniform
import Verif.Props.SidhKeys
import Verif.Props.CsidhKeys

/-!
C103: generated private keys are uniformly distributed if the random bytes are.
-/

namespace Props.Uniform
open Model Spec
open Lemmas.Uniform hiding Byte

/-! ### CSIDH -/

section
open Model.Csidh Spec.Csidh Lemmas.CsidhKeys

/-- the position in the key of an accepted byte -/
theorem flip_flip (i : ℕ) : (if (if i % 2 = 0 then i + 1 else i - 1) % 2 = 0 then (if i % 2 = 0 then i + 1 else i - 1) + 1 else (if i % 2 = 0 then i + 1 else i - 1) - 1) = i := by
  split <;> split <;> omega

theorem gen_iff (v : ℕ → ℤ) (rest rng : List Byte) : (∃ k, generatePrivateKey rng = (k, rest, true) ∧ ∀ i < 74, exponent k.e i = v i) ↔
    ∃ b, 64 * b ≤ rng.length ∧ 74 ≤ ((rng.take (64 * b)).filter small).length ∧ (∀ c < b, ((rng.take (64 * c)).filter small).length < 74) ∧ rest = rng.drop (64 * b) ∧
      ∀ i < 74, ∃ x, ((rng.take (64 * b)).filter small)[i]? = some x ∧ x.toInt = v (if i % 2 = 0 then i + 1 else i - 1) := by
  constructor
  · rintro ⟨k, hk, he⟩
    obtain ⟨-, b, b1, b2, b3, b4, b5⟩ := Props.CsidhKeys.c67_generate rng k rest hk
    refine ⟨b, b1, b2, b3, b4, fun i hi => ?_⟩
    obtain ⟨x, x1, x2⟩ := b5 i hi
    refine ⟨x, x1, ?_⟩
    rw [← x2, ← he _ (by split <;> omega), exponent, flip_flip]
  · rintro ⟨b, b1, b2, b3, b4, b5⟩
    have hk := (genLoop_spec [] 0 _ rng [] rfl pack_nil.symm (by simp) _ rest).mpr ⟨b, b1, b2, b3, rfl, b4⟩
    refine ⟨_, hk, fun i hi => ?_⟩
    obtain ⟨-, b', c1, c2, c3, c4, c5⟩ := Props.CsidhKeys.c67_generate rng _ rest hk
    obtain rfl : b' = b := by
      rcases Nat.lt_trichotomy b' b with h | h | h
      · have := b3 _ h; omega
      · exact h
      · have := c3 _ h; omega
    rw [exponent]
    obtain ⟨x, x1, x2⟩ := c5 (if i % 2 = 0 then i + 1 else i - 1) (by split <;> omega)
    obtain ⟨y, y1, y2⟩ := b5 (if i % 2 = 0 then i + 1 else i - 1) (by split <;> omega)
    rw [x2]
    obtain rfl := Option.some.inj (x1.symm.trans y1)
    rw [y2, flip_flip]

theorem ofInt_small {x : ℤ} (h : -5 ≤ x ∧ x ≤ 5) : (BitVec.ofInt 8 x).toInt = x ∧ small (BitVec.ofInt 8 x) = true := by
  obtain ⟨h1, h2⟩ := h
  have e : (BitVec.ofInt 8 x).toInt = x := by
    rw [BitVec.toInt_ofInt]
    exact Int.bmod_eq_of_le (by norm_num; omega) (by norm_num; omega)
  exact ⟨e, by rw [small, e, decide_eq_true_iff]; omega⟩

theorem gen_swap {v w : ℕ → ℤ} (hv : ∀ i < 74, -5 ≤ v i ∧ v i ≤ 5) (hw : ∀ i < 74, -5 ≤ w i ∧ w i ≤ 5) {rest rng : List Byte} {V W : ℕ → Byte}
    (hV : ∀ i, V i = BitVec.ofInt 8 (v (if i % 2 = 0 then i + 1 else i - 1))) (hW : ∀ i, W i = BitVec.ofInt 8 (w (if i % 2 = 0 then i + 1 else i - 1)))
    (σ : ℕ → Byte → Byte) (hs : ∀ i b, small (σ i b) = small b) (hi74 : ∀ i b, 74 ≤ i → σ i b = b) (hσ : ∀ i < 74, σ i (V i) = W i)
    (h : ∃ k, generatePrivateKey rng = (k, rest, true) ∧ ∀ i < 74, exponent k.e i = v i) :
    ∃ k, generatePrivateKey (tr σ 0 rng) = (k, rest, true) ∧ ∀ i < 74, exponent k.e i = w i := by
  rw [gen_iff] at h ⊢
  obtain ⟨b, b1, b2, b3, b4, b5⟩ := h
  have len : ∀ n, (((tr σ 0 rng).take n).filter small).length = ((rng.take n).filter small).length := by
    intro n
    rw [tr_take, tr_filter hs, List.length_mapIdx]
  refine ⟨b, by rwa [tr_length], by rwa [len], fun c hc => by rw [len]; exact b3 c hc, ?_, ?_⟩
  · rw [b4, tr_drop _ _ _ b1, tr_id hi74 _ _ (by omega)]
  · intro i hi
    obtain ⟨x, x1, x2⟩ := b5 i hi
    have hj : (if i % 2 = 0 then i + 1 else i - 1) < 74 := by split <;> omega
    have hx : x = V i := by
      rw [hV, ← BitVec.toInt_inj, (ofInt_small (hv _ hj)).1, x2]
    refine ⟨W i, ?_, by rw [hW, (ofInt_small (hw _ hj)).1]⟩
    rw [tr_take, tr_filter hs, List.getElem?_mapIdx, x1, Option.map_some, Nat.zero_add, hx, hσ i hi]

/-- C103. `GeneratePrivateKey` of CSIDH: any two vectors of 74 exponents in [-5,5] are equally likely, and so they are for each rest of the
random source: what is read afterwards does not depend on the key. -/
theorem c103_csidh (v w : ℕ → ℤ) (hv : ∀ i < 74, -5 ≤ v i ∧ v i ≤ 5) (hw : ∀ i < 74, -5 ≤ w i ∧ w i ≤ 5) (rest : List Byte) :
    AsLikely (fun rng => ∃ k, generatePrivateKey rng = (k, rest, true) ∧ ∀ i < 74, exponent k.e i = v i)
      (fun rng => ∃ k, generatePrivateKey rng = (k, rest, true) ∧ ∀ i < 74, exponent k.e i = w i) := by
  let V : ℕ → Byte := fun i => BitVec.ofInt 8 (v (if i % 2 = 0 then i + 1 else i - 1))
  let W : ℕ → Byte := fun i => BitVec.ofInt 8 (w (if i % 2 = 0 then i + 1 else i - 1))
  have hVs : ∀ i < 74, small (V i) = true := fun i hi => (ofInt_small (hv _ (by split <;> omega))).2
  have hWs : ∀ i < 74, small (W i) = true := fun i hi => (ofInt_small (hw _ (by split <;> omega))).2
  have hs := exch_small hVs hWs
  have h74 : ∀ i b, 74 ≤ i → exch V W i b = b := fun i b hi => by rw [exch, if_neg (by omega)]
  refine of_involution (tr (exch V W) 0) (tr_length _) (tr_tr hs (exch_exch V W) _) ?_ ?_
  · intro l hl
    exact gen_swap hv hw (fun _ => rfl) (fun _ => rfl) _ hs h74 (fun i hi => by rw [exch, if_pos hi, Equiv.swap_apply_left]) hl
  · intro l hl
    exact gen_swap hw hv (fun _ => rfl) (fun _ => rfl) _ hs h74 (fun i hi => by rw [exch, if_pos hi, Equiv.swap_apply_right]) hl

/-- C103. All of them are possible: the key with the exponents `v` is made from a source of 74 blocks. -/
theorem c103_csidh_all (v : ℕ → ℤ) (hv : ∀ i < 74, -5 ≤ v i ∧ v i ≤ 5) (rest : List Byte) :
    ∃ rng k, generatePrivateKey (rng ++ rest) = (k, rest, true) ∧ ∀ i < 74, exponent k.e i = v i := by
  let V : ℕ → Byte := fun i => BitVec.ofInt 8 (v (if i % 2 = 0 then i + 1 else i - 1))
  have hVs : ∀ i < 74, small (V i) = true := fun i hi => (ofInt_small (hv _ (by split <;> omega))).2
  have hf : ∀ n ≤ 74, (((List.range n).map V).filter small) = (List.range n).map V := by
    intro n hn
    rw [List.filter_eq_self]
    intro a ha
    obtain ⟨i, hi, rfl⟩ := List.mem_map.mp ha
    exact hVs i (by rw [List.mem_range] at hi; omega)

  have hlen : ((List.range 74).map V ++ List.replicate 54 (0x7f : Byte)).length = 128 := by simp
  have hall : (((List.range 74).map V ++ List.replicate 54 (0x7f : Byte)).filter small) = (List.range 74).map V := by
    rw [List.filter_append, hf 74 le_rfl, show (List.replicate 54 (0x7f : Byte)).filter small = [] by decide, List.append_nil]
  refine ⟨(List.range 74).map V ++ List.replicate 54 0x7f, ?_⟩
  rw [gen_iff]
  refine ⟨2, by rw [List.length_append, hlen]; omega, ?_, ?_, (List.drop_left' (by rw [hlen])).symm, ?_⟩
  · rw [List.take_left' (by rw [hlen]), hall]; simp
  · intro c hc
    have : c = 0 ∨ c = 1 := by omega
    rcases this with rfl | rfl
    · simp
    · refine lt_of_le_of_lt (List.length_filter_le _ _) ?_
      rw [List.length_take]; omega
  · intro i hi
    refine ⟨V i, ?_, (ofInt_small (hv _ (by split <;> omega))).1⟩
    rw [List.take_left' (by rw [hlen]), hall, List.getElem?_map, List.getElem?_range hi]; rfl

/-- Two vectors of exponents: all 0, and alternately 5 and -5. -/
example : AsLikely (fun rng => ∃ k, generatePrivateKey rng = (k, [], true) ∧ ∀ i < 74, exponent k.e i = 0)
    (fun rng => ∃ k, generatePrivateKey rng = (k, [], true) ∧ ∀ i < 74, exponent k.e i = if i % 2 = 0 then 5 else -5) :=
  c103_csidh (fun _ => 0) (fun i => if i % 2 = 0 then 5 else -5) (fun _ _ => by decide) (fun i _ => by split <;> decide) []

end

/-! ### SIDH and SIKE -/

section
open Model.Sidh Spec.Sidh Props.SidhKeys

theorem sidh_swap {f : Fld} {v : W64} {k : PrivateKey} (hk : PrivOf f v k) {lo n : ℕ} (hn : 2 ^ n ≤ 256 ^ byteLen f v)
    (hlo : ∀ bytes : List Byte, bytes.length = byteLen f v → bval (scalarOf f v bytes) = lo + bval bytes % 2 ^ n) {seed seed' : List Byte} (hs : seed.length = seedLen f v)
    (hs' : seed'.length = seedLen f v) {x y : ℕ} (hx : lo ≤ x ∧ x < lo + 2 ^ n) (hy : lo ≤ y ∧ y < lo + 2 ^ n) {rest rng : List Byte}
    (h : ∃ k', k.generate rng = some (k', rest, true) ∧ k'.S = seed ∧ bval k'.scalar = x) :
    ∃ k', k.generate (msk (pairMask seed seed' ((x - lo) ^^^ (y - lo)) (byteLen f v)) rng) = some (k', rest, true) ∧ k'.S = seed' ∧ bval k'.scalar = y := by
  obtain ⟨k', h1, h2, h3⟩ := h
  have hlen : seedLen f v + byteLen f v ≤ rng.length := by
    by_contra hc
    obtain ⟨k1, r1, e1⟩ := c37_error f v k hk rng (by omega)
    rw [e1] at h1
    cases h1
  obtain ⟨k1, e1, -, e2, e3⟩ := c37_function f v k hk rng hlen
  rw [e1] at h1
  obtain ⟨rfl, hrest⟩ : k1 = k' ∧ rng.drop (seedLen f v + byteLen f v) = rest := by
    have := Option.some.inj h1
    exact ⟨congrArg Prod.fst this, congrArg (fun z => z.2.1) this⟩
  have hxor : (x - lo) ^^^ (y - lo) < 2 ^ n := Nat.xor_lt_two_pow (by omega) (by omega)
  obtain ⟨k2, f1, -, f2, f3⟩ := c37_function f v k hk (msk (pairMask seed seed' ((x - lo) ^^^ (y - lo)) (byteLen f v)) rng) (by rwa [msk_length])
  refine ⟨k2, ?_, ?_, ?_⟩
  · rw [f1]
    congr 3
    rw [← hrest, ← hs, pairMask_drop]
  · rw [f2, ← hs, pairMask_take (by rw [hs, hs'])]
    rw [hs, ← e2, h2]
  · have l1 : ∀ l : List Byte, seedLen f v + byteLen f v ≤ l.length → ((l.drop (seedLen f v)).take (byteLen f v)).length = byteLen f v := by
      intro l hl
      rw [List.length_take, List.length_drop]; omega
    rw [e3, hlo _ (l1 _ hlen)] at h3
    rw [f3, hlo _ (l1 _ (by rwa [msk_length])), ← hs, pairMask_mid (lt_of_lt_of_le hxor hn) (by rw [hs]; exact hlen), hs, bval_low (by omega) (by omega) (by omega)]
    omega

theorem sidh_likely {f : Fld} {v : W64} {k : PrivateKey} (hk : PrivOf f v k) {lo n : ℕ} (hn : 2 ^ n ≤ 256 ^ byteLen f v)
    (hlo : ∀ bytes : List Byte, bytes.length = byteLen f v → bval (scalarOf f v bytes) = lo + bval bytes % 2 ^ n) {seed seed' : List Byte} (hs : seed.length = seedLen f v)
    (hs' : seed'.length = seedLen f v) {x y : ℕ} (hx : lo ≤ x ∧ x < lo + 2 ^ n) (hy : lo ≤ y ∧ y < lo + 2 ^ n) (rest : List Byte) :
    AsLikely (fun rng => ∃ k', k.generate rng = some (k', rest, true) ∧ k'.S = seed ∧ bval k'.scalar = x)
      (fun rng => ∃ k', k.generate rng = some (k', rest, true) ∧ k'.S = seed' ∧ bval k'.scalar = y) := by
  refine of_involution (msk (pairMask seed seed' ((x - lo) ^^^ (y - lo)) (byteLen f v))) (msk_length _) (msk_msk _) ?_ ?_
  · intro l hl
    exact sidh_swap hk hn hlo hs hs' hx hy hl
  · intro l hl
    rw [← pairMask_symm (by rw [hs, hs']), Nat.xor_comm]
    exact sidh_swap hk hn hlo hs' hs hy hx hl

/-- C103. `Generate` of SIDH and SIKE keys: any two pairs of a seed and a scalar in [2^(bits-1), 2^bits) are equally likely, for each rest of the
source, whatever the object held before.  (All variants except 2-torsion keys over p434.) -/
theorem c103_sidh (f : Fld) (v : W64) (hf : ¬ (f = .p434 ∧ v.getLsbD 0 = true)) (k : PrivateKey) (hk : PrivOf f v k) (seed seed' : List Byte) (hs : seed.length = seedLen f v)
    (hs' : seed'.length = seedLen f v) (x y : ℕ) (hx : 2 ^ (bitLen f v - 1) ≤ x ∧ x < 2 ^ bitLen f v) (hy : 2 ^ (bitLen f v - 1) ≤ y ∧ y < 2 ^ bitLen f v) (rest : List Byte) :
    AsLikely (fun rng => ∃ k', k.generate rng = some (k', rest, true) ∧ k'.S = seed ∧ bval k'.scalar = x)
      (fun rng => ∃ k', k.generate rng = some (k', rest, true) ∧ k'.S = seed' ∧ bval k'.scalar = y) := by
  obtain ⟨l1, l2, l3, l4, l5⟩ := lens f v
  have h8 : bitLen f v % 8 ≠ 0 := fun h => hf (l4.mp h)
  have e : 2 ^ bitLen f v = 2 ^ (bitLen f v - 1) + 2 ^ (bitLen f v - 1) := by
    rw [← Nat.two_mul, ← Nat.pow_succ']
    congr 1
    omega
  have hn : 2 ^ (bitLen f v - 1) ≤ 256 ^ byteLen f v := by
    rw [show (256 : ℕ) = 2 ^ 8 by norm_num, ← pow_mul]
    exact Nat.pow_le_pow_right (by decide) (by omega)
  rw [e] at hx hy
  exact sidh_likely hk hn (fun bytes hb => (c37_range f v hf bytes hb).1) hs hs' hx hy rest

/-- C103. For 2-torsion keys over p434 the same holds with the scalars in [0, 2^216) (which is not the documented range, see C37). -/
theorem c103_p434A (v : W64) (hv : v.getLsbD 0 = true) (k : PrivateKey) (hk : PrivOf .p434 v k) (seed seed' : List Byte) (hs : seed.length = seedLen .p434 v)
    (hs' : seed'.length = seedLen .p434 v) (x y : ℕ) (hx : x < 2 ^ 216) (hy : y < 2 ^ 216) (rest : List Byte) :
    AsLikely (fun rng => ∃ k', k.generate rng = some (k', rest, true) ∧ k'.S = seed ∧ bval k'.scalar = x)
      (fun rng => ∃ k', k.generate rng = some (k', rest, true) ∧ k'.S = seed' ∧ bval k'.scalar = y) := by
  have hl : byteLen .p434 v = 28 := by rw [byteLen, hv]; rfl
  refine sidh_likely hk (lo := 0) (n := 216) (by rw [hl]; norm_num) (fun bytes hb => ?_) hs hs' ⟨Nat.zero_le _, by omega⟩ ⟨Nat.zero_le _, by omega⟩ rest
  rw [Nat.zero_add]
  exact (c37_p434A_partial v hv bytes hb).1

/-- C103. All of them are possible. -/
theorem c103_sidh_all (f : Fld) (v : W64) (hf : ¬ (f = .p434 ∧ v.getLsbD 0 = true)) (k : PrivateKey) (hk : PrivOf f v k) (seed : List Byte) (hs : seed.length = seedLen f v)
    (x : ℕ) (hx : 2 ^ (bitLen f v - 1) ≤ x ∧ x < 2 ^ bitLen f v) (rest : List Byte) :
    ∃ rng k', k.generate (rng ++ rest) = some (k', rest, true) ∧ k'.S = seed ∧ bval k'.scalar = x := by
  obtain ⟨l1, l2, l3, l4, l5⟩ := lens f v
  have hlen : (seed ++ leBytes (byteLen f v) x).length = seedLen f v + byteLen f v := by rw [List.length_append, hs, Lemmas.SidhBytes.leBytes_length]
  obtain ⟨k1, e1, -, e2, e3⟩ := c37_function f v k hk ((seed ++ leBytes (byteLen f v) x) ++ rest) (by rw [List.length_append, hlen]; omega)
  refine ⟨seed ++ leBytes (byteLen f v) x, k1, ?_, ?_, ?_⟩
  · rw [e1, List.drop_left' hlen]
  · rw [e2, List.append_assoc, List.take_left' hs]
  · have hb : ((((seed ++ leBytes (byteLen f v) x) ++ rest).drop (seedLen f v)).take (byteLen f v)) = leBytes (byteLen f v) x := by
      rw [List.append_assoc, List.drop_left' hs, List.take_left' (Lemmas.SidhBytes.leBytes_length _ _)]
    rw [e3, hb, (c37_range f v hf _ (Lemmas.SidhBytes.leBytes_length _ _)).1, Lemmas.SidhBytes.bval_leBytes]
    have hp : 2 ^ bitLen f v ≤ 256 ^ byteLen f v := by
      rw [show (256 : ℕ) = 2 ^ 8 by norm_num, ← pow_mul]
      exact Nat.pow_le_pow_right (by decide) l2
    have h8 : bitLen f v % 8 ≠ 0 := fun h => hf (l4.mp h)
    have e : 2 ^ bitLen f v = 2 ^ (bitLen f v - 1) + 2 ^ (bitLen f v - 1) := by
      rw [← Nat.two_mul, ← Nat.pow_succ']
      congr 1
      omega
    rw [Nat.mod_eq_of_lt (lt_of_lt_of_le hx.2 hp), Nat.mod_eq_sub_mod hx.1, Nat.mod_eq_of_lt (by omega)]
    omega

/-- A new SIKE key over p503, two seeds and two scalars. -/
example : ∃ k, newPrivateKey (idOf .p503) 6 = some k ∧
    AsLikely (fun rng => ∃ k', k.generate rng = some (k', [], true) ∧ k'.S = List.replicate 24 0 ∧ bval k'.scalar = 2 ^ 251)
      (fun rng => ∃ k', k.generate rng = some (k', [], true) ∧ k'.S = List.replicate 24 0xff ∧ bval k'.scalar = 2 ^ 252 - 1) := by
  obtain ⟨k, h1, h2⟩ := c34_new .p503 6
  have hb : bitLen .p503 6 = 252 := by decide +kernel
  have hs : seedLen .p503 6 = 24 := by decide +kernel
  exact ⟨k, h1, c103_sidh .p503 6 (by decide) k h2 _ _ (by rw [hs]; rfl) (by rw [hs]; rfl) _ _ (by rw [hb]; norm_num) (by rw [hb]; norm_num) []⟩

end

end Props.Uniform
