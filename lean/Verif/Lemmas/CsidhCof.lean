import Verif.Lemmas.CsidhValidate
import Mathlib.Algebra.BigOperators.Intervals

/-!
The cofactors of the group action: what the numbers k and cofactor of csidh.go are.
-/

namespace Lemmas.CsidhCof

open Model Model.Limb Model.Csidh Spec Spec.Csidh Lemmas.CsidhAction Lemmas.CsidhValidate Finset

local notation "𝕡" => Spec.Csidh.p

/-- prime number i -/
def el (i : ℕ) : ℕ := (word primes i).toNat

/-- the factor of prime number i, in the product of those still to do -/
def fac (e : List Byte) (i : ℕ) : ℕ := if e.getD i 0 ≠ 0 then el i else 1

/-- the product of the primes from number i on with exponent not 0 -/
def todo (e : List Byte) (i : ℕ) : ℕ := ∏ j ∈ Ico i 74, fac e j

theorem mem_primes {i : ℕ} (h : i < 74) : word primes i ∈ primes := by
  rw [word_primes h]; exact List.getElem_mem _

theorem el_prime {i : ℕ} (h : i < 74) : (el i).Prime := primes_prime _ (mem_primes h)

theorem el_odd {i : ℕ} (h : i < 74) : el i % 2 = 1 := primes_odd _ (mem_primes h)

theorem el_inj {i j : ℕ} (hi : i < 74) (hj : j < 74) (h : el i = el j) : i = j := primes_inj hi hj (BitVec.eq_of_toNat_eq h)

theorem fac_odd (e : List Byte) {i : ℕ} (h : i < 74) : fac e i % 2 = 1 := by
  rw [fac]; split
  · exact el_odd h
  · rfl

theorem fac_pos (e : List Byte) {i : ℕ} (h : i < 74) : 0 < fac e i := by
  have := fac_odd e h
  omega

theorem todo_end (e : List Byte) : todo e 74 = 1 := by rw [todo, Ico_self, prod_empty]

theorem todo_succ (e : List Byte) {i : ℕ} (h : i < 74) : todo e i = fac e i * todo e (i + 1) := prod_eq_prod_Ico_succ_bot h _

theorem prod_odd' {s : Finset ℕ} {f : ℕ → ℕ} (h : ∀ i ∈ s, f i % 2 = 1) : (∏ i ∈ s, f i) % 2 = 1 := by
  induction s using Finset.cons_induction with
  | empty => rw [prod_empty]; rfl
  | cons a s ha ih =>
    rw [prod_cons, Nat.mul_mod, h a (mem_cons_self a s), ih fun i hi => h i (mem_cons_of_mem hi)]

theorem todo_odd (e : List Byte) (i : ℕ) : todo e i % 2 = 1 := prod_odd' fun j hj => fac_odd e (mem_Ico.mp hj).2

theorem todo_pos (e : List Byte) (i : ℕ) : 0 < todo e i := by
  have := todo_odd e i
  omega

theorem prodL_eq : ∀ n i, i + n = 74 → prodL i n = ∏ j ∈ Ico i 74, el j
  | 0, i, h => by
    have : i = 74 := by omega
    subst this
    rw [Ico_self, prod_empty]; rfl
  | n + 1, i, h => by
    rw [add_comm n 1, prodL_split, prodL_one (by omega), prodL_eq n (i + 1) (by omega), prod_eq_prod_Ico_succ_bot (by omega : i < 74)]; rfl

theorem all_el : 4 * ∏ j ∈ Ico 0 74, el j = 𝕡 + 1 := by rw [← prodL_eq 74 0 rfl]; exact prodL_all

theorem todo_le_all (e : List Byte) (i : ℕ) : todo e i ≤ ∏ j ∈ Ico 0 74, el j := by
  rw [todo]
  calc ∏ j ∈ Ico i 74, fac e j ≤ ∏ j ∈ Ico i 74, el j := by
        refine prod_le_prod' fun j hj => ?_
        rw [fac]; split
        · exact le_rfl
        · exact (el_prime (mem_Ico.mp hj).2).one_lt.le
    _ ≤ _ := by
        refine prod_le_prod_of_subset_of_one_le' (fun j hj => ?_) fun j hj _ => (el_prime (mem_Ico.mp hj).2).one_lt.le
        rw [mem_Ico] at hj ⊢
        omega

theorem p_lt : 𝕡 + 1 < 2 ^ 512 := by decide +kernel

theorem todo_lt (e : List Byte) (i : ℕ) : todo e i < 2 ^ 512 := by
  have h1 := todo_le_all e i
  have h2 := all_el
  have h3 := p_lt
  omega

theorem mul512_val {x : Fp} {v : W64} (hx : x.length = 8) (h : val x * v.toNat < 2 ^ 512) : (mul512 x v).length = 8 ∧ val (mul512 x v) = val x * v.toNat := by
  have := Lemmas.CsidhArith.mul512_spec x v hx
  rwa [Nat.mod_eq_of_lt h] at this

theorem cof_fold (e : List Byte) : ∀ (n i : ℕ) (m : Fp), i + n = 74 → m.length = 8 → val m * todo e i < 2 ^ 512 →
    ((List.range' i n).foldl (fun cof j => if e.getD j 0 ≠ 0 then mul512 cof (word primes j) else cof) m).length = 8 ∧
    val ((List.range' i n).foldl (fun cof j => if e.getD j 0 ≠ 0 then mul512 cof (word primes j) else cof) m) = val m * todo e i
  | 0, i, m, hi, hm, _ => by
    have : i = 74 := by omega
    subst this
    rw [todo_end, mul_one]
    exact ⟨hm, rfl⟩
  | n + 1, i, m, hi, hm, hlt => by
    have hi' : i < 74 := by omega
    rw [List.range'_succ, List.foldl_cons]
    rw [todo_succ e hi', ← mul_assoc] at hlt ⊢
    rw [fac] at hlt ⊢
    split
    · rename_i h0
      rw [if_pos h0] at hlt
      have h1 := mul512_val (x := m) (v := word primes i) hm (lt_of_le_of_lt (Nat.le_mul_of_pos_right _ (todo_pos e (i + 1))) hlt)
      have := cof_fold e n (i + 1) (mul512 m (word primes i)) (by omega) h1.1 (by rw [h1.2]; exact hlt)
      rw [h1.2] at this
      exact this
    · rename_i h0
      rw [if_neg h0, mul_one] at hlt
      rw [mul_one]
      exact cof_fold e n (i + 1) m (by omega) hm hlt

/-- the cofactor is the product of the primes still to do -/
theorem cofactor_val (e : List Byte) {i : ℕ} (h : i < 74) : (cofactor e i).length = 8 ∧ val (cofactor e i) = todo e (i + 1) := by
  have h1 := fpw_val 1
  have := cof_fold e (74 - (i + 1)) (i + 1) (fpw 1) (by omega) h1.1 (by rw [h1.2]; exact (by rw [show (1 : W64).toNat = 1 from rfl, one_mul]; exact todo_lt e _))
  rw [h1.2, show (1 : W64).toNat = 1 from rfl, one_mul] at this
  exact this

/-- the cofactor of one half of the variables and the primes still to do make p + 1 -/
structure KI (k : Fp) (e : List Byte) : Prop where
  len : k.length = 8
  val : val k * todo e 0 = 𝕡 + 1

theorem KI.even {k : Fp} {e : List Byte} (h : KI k e) : 2 ∣ Spec.val k := by
  have h1 : 2 ∣ Spec.val k * todo e 0 := by
    rw [h.val, ← all_el]; exact ⟨2 * ∏ j ∈ Ico 0 74, el j, by ring⟩
  rcases (Nat.Prime.dvd_mul Nat.prime_two).mp h1 with h2 | h2
  · exact h2
  · have := todo_odd e 0; omega

theorem KI.pos {k : Fp} {e : List Byte} (h : KI k e) : 0 < Spec.val k := by
  rcases Nat.eq_zero_or_pos (Spec.val k) with h0 | h0
  · have := h.val
    rw [h0, zero_mul] at this
    omega
  · exact h0

/-- todo depends on the zero exponents only -/
theorem todo_congr {e e' : List Byte} {i : ℕ} (h : ∀ j, i ≤ j → j < 74 → (e.getD j 0 = 0 ↔ e'.getD j 0 = 0)) : todo e i = todo e' i := by
  refine prod_congr rfl fun j hj => ?_
  rw [mem_Ico] at hj
  have := h j hj.1 hj.2
  rw [fac, fac]
  by_cases h0 : e.getD j 0 = 0
  · rw [if_neg (by simpa using h0), if_neg (by simpa using this.mp h0)]
  · rw [if_pos h0, if_pos (fun h1 => h0 (this.mpr h1))]

/-- an exponent counted down -/
theorem KI.step {k : Fp} {e : List Byte} (h : KI k e) (he : e.length = 74) {i : ℕ} (hi : i < 74) (h0 : e.getD i 0 ≠ 0) :
    KI (if (e.set i (e.getD i 0 - 1)).getD i 0 = 0 then mul512 k (word primes i) else k) (e.set i (e.getD i 0 - 1)) := by
  have hg : ∀ j, (e.set i (e.getD i 0 - 1)).getD j 0 = if i = j then e.getD i 0 - 1 else e.getD j 0 := fun j => getD_set _ _ _ _ (by omega)
  by_cases hz : (e.set i (e.getD i 0 - 1)).getD i 0 = 0
  · rw [if_pos hz]
    have e1 : todo e 0 = el i * todo (e.set i (e.getD i 0 - 1)) 0 := by
      rw [todo, todo, ← mul_prod_erase _ _ (mem_Ico.mpr ⟨Nat.zero_le i, hi⟩), ← mul_prod_erase (Ico 0 74) (fac (e.set i (e.getD i 0 - 1))) (mem_Ico.mpr ⟨Nat.zero_le i, hi⟩)]
      rw [fac, if_pos h0, fac, if_neg (by simpa using hz), one_mul]
      congr 1
      refine prod_congr rfl fun j hj => ?_
      rw [fac, fac, hg, if_neg (Ne.symm (mem_erase.mp hj).1)]
    have hv := h.val
    rw [e1, ← mul_assoc] at hv
    have hlt : Spec.val k * (word primes i).toNat < 2 ^ 512 := by
      refine lt_of_le_of_lt (Nat.le_mul_of_pos_right _ (todo_pos (e.set i (e.getD i 0 - 1)) 0)) ?_
      show Spec.val k * el i * _ < _
      rw [hv]; exact p_lt
    have := mul512_val h.len hlt
    exact ⟨this.1, by rw [this.2]; exact hv⟩
  · rw [if_neg hz]
    refine ⟨h.len, ?_⟩
    have ht : todo (e.set i (e.getD i 0 - 1)) 0 = todo e 0 := ?_
    · rw [ht]; exact h.val
    refine todo_congr fun j _ _ => ?_
    by_cases hij : i = j
    · subst hij
      exact ⟨fun h' => absurd h' hz, fun h' => absurd h' h0⟩
    · rw [hg, if_neg hij]

/-- the cofactor after the loop over the private key -/
theorem splitKey_cof (prv : List Byte) (sg : Bool) : ∀ (n i : ℕ), i + n = 74 → ∀ h : Half, h.e.length = 74 → h.k.length = 8 →
    val h.k * (∏ j ∈ range i, fac h.e j) * (∏ j ∈ Ico i 74, el j) = 𝕡 + 1 → KI (splitKey prv sg (primes.drop i) i h).k (splitKey prv sg (primes.drop i) i h).e
  | 0, i, hi, h, _, hk, hv => by
    have : i = 74 := by omega
    subst this
    rw [List.drop_eq_nil_of_le (by rw [primes_len]), splitKey]
    rw [Ico_self, prod_empty, mul_one, range_eq_Ico] at hv
    exact ⟨hk, hv⟩
  | n + 1, i, hi, h, he, hk, hv => by
    have hi' : i < 74 := by omega
    rw [primes_drop hi', splitKey]
    rw [prod_eq_prod_Ico_succ_bot hi'] at hv
    obtain ⟨t, ht⟩ : ∃ t, (if sg then -expAt prv i else expAt prv i) = t := ⟨_, rfl⟩
    simp only [ht]
    have hf : ∀ b, ∏ j ∈ range i, fac (h.e.set i b) j = ∏ j ∈ range i, fac h.e j := by
      intro b
      refine prod_congr rfl fun j hj => ?_
      have := mem_range.mp hj
      have e1 : (h.e.set i b).getD j 0 = h.e.getD j 0 := by rw [getD_set _ _ _ _ (by omega), if_neg (by omega : ¬ i = j)]
      rw [fac, fac, e1]
    split
    · rename_i h0
      refine splitKey_cof prv sg n (i + 1) (by omega) _ (by simp [he]) hk ?_
      show val h.k * (∏ j ∈ range (i + 1), fac (h.e.set i t) j) * _ = _
      rw [prod_range_succ, hf, fac, getD_set _ _ _ _ (by omega), if_pos rfl, if_pos (by rintro rfl; exact absurd h0 (by decide)), ← hv]
      ring
    · have hlt : val h.k * (word primes i).toNat < 2 ^ 512 := by
        have h1 : val h.k * el i * ((∏ j ∈ range i, fac h.e j) * ∏ j ∈ Ico (i + 1) 74, el j) = 𝕡 + 1 := by rw [← hv]; ring
        have h2 : 0 < (∏ j ∈ range i, fac h.e j) * ∏ j ∈ Ico (i + 1) 74, el j := by
          rcases Nat.eq_zero_or_pos ((∏ j ∈ range i, fac h.e j) * ∏ j ∈ Ico (i + 1) 74, el j) with h3 | h3
          · rw [h3, mul_zero] at h1; omega
          · exact h3
        have h3 := Nat.le_mul_of_pos_right (val h.k * el i) h2
        rw [h1] at h3
        exact lt_of_le_of_lt h3 p_lt
      have h5 := mul512_val hk hlt
      refine splitKey_cof prv sg n (i + 1) (by omega) _ (by simp [he]) h5.1 ?_
      show val (mul512 h.k (word primes i)) * (∏ j ∈ range (i + 1), fac (h.e.set i 0) j) * _ = _
      rw [prod_range_succ, hf, fac, getD_set _ _ _ _ (by omega), if_pos rfl, if_neg (by simp), h5.2, ← hv]
      show val h.k * el i * _ * _ = _
      ring

theorem start_cof (prv : List Byte) (sg : Bool) : KI (splitKey prv sg primes 0 ⟨fpw 4, List.replicate 74 0, false⟩).k (splitKey prv sg primes 0 ⟨fpw 4, List.replicate 74 0, false⟩).e := by
  have := splitKey_cof prv sg 74 0 rfl ⟨fpw 4, List.replicate 74 0, false⟩ (by simp) (fpw_val 4).1 (by
    rw [range_zero, prod_empty, mul_one, (fpw_val 4).2, ← all_el]; rfl)
  rwa [List.drop_zero] at this

theorem splitKey_len (prv : List Byte) (sg : Bool) : (splitKey prv sg primes 0 ⟨fpw 4, List.replicate 74 0, false⟩).e.length = 74 :=
  (splitKey_spec prv sg 74 0 rfl ⟨fpw 4, List.replicate 74 0, false⟩ (by simp) _ (by rw [List.drop_zero])).2.1

/-- p + 1 has each of the primes exactly once -/
theorem el_once {i : ℕ} (hi : i < 74) : ∃ m, m ≠ 0 ∧ ¬ el i ∣ m ∧ 𝕡 + 1 = el i * m := by
  refine ⟨4 * ∏ j ∈ (Ico 0 74).erase i, el j, ?_, ?_, ?_⟩
  · refine mul_ne_zero (by decide) (prod_ne_zero_iff.mpr fun j hj => (el_prime (mem_Ico.mp (mem_erase.mp hj).2).2).ne_zero)
  · intro h
    have hp := el_prime hi
    rcases (Nat.Prime.dvd_mul hp).mp h with h | h
    · have h1 : el i ∣ 2 ^ 2 := h
      have := (Nat.prime_dvd_prime_iff_eq hp Nat.prime_two).mp (hp.dvd_of_dvd_pow h1)
      have := el_odd hi
      omega
    · obtain ⟨j, hj, hd⟩ := (Prime.dvd_finset_prod_iff hp.prime _).mp h
      have hj' := mem_erase.mp hj
      have hj2 := (mem_Ico.mp hj'.2).2
      exact hj'.1 (el_inj hj2 hi ((Nat.prime_dvd_prime_iff_eq hp (el_prime hj2)).mp hd).symm)
  · rw [← all_el, ← mul_prod_erase _ _ (mem_Ico.mpr ⟨Nat.zero_le i, hi⟩)]
    ring

end Lemmas.CsidhCof
