import Verif.Spec.Expect
import Mathlib.Algebra.BigOperators.Ring.Finset
import Mathlib.Algebra.Order.BigOperators.Group.Finset
import Mathlib.Algebra.Order.Field.Rat
import Mathlib.Data.Set.Finite.List
import Mathlib.Data.Fintype.Vector
import Mathlib.Data.Fintype.BigOperators
import Mathlib.Data.BitVec
import Mathlib.Algebra.BigOperators.Field
import Mathlib.Tactic.Linarith
import Mathlib.Tactic.Positivity
import Mathlib.Algebra.Order.Archimedean.Basic
import Mathlib.Algebra.Order.Field.Basic
import Mathlib.Tactic.FieldSimp
import Mathlib.Tactic.Ring

/-!
Machines that read blocks of 64 bytes, and a bound on the mean number of blocks by a potential.
-/

namespace Lemmas.BlockExpect
open Finset

abbrev Byte := BitVec 8
instance : Fintype Byte := Fintype.ofEquiv (Fin (2 ^ 8)) ⟨BitVec.ofFin, BitVec.toFin, fun _ => rfl, fun _ => rfl⟩

abbrev Block := List.Vector Byte 64

/-- a machine that reads blocks; `stuck s l`: it has not finished when the source l is used up -/
structure Mach (S : Type) where
  stuck : S → List Byte → Prop
  step : S → List Byte → Option S
  cons : ∀ s b l, b.length = 64 → (stuck s (b ++ l) ↔ ∃ s', step s b = some s' ∧ stuck s' l)

/-- the fraction of the sources of n blocks -/
noncomputable def frac (p : List Byte → Prop) (k : ℕ) : ℚ := Nat.card {l : List Byte // l.length = 64 * k ∧ p l} / 256 ^ (64 * k)

theorem finite_len (n : ℕ) (p : List Byte → Prop) : Finite {l : List Byte // l.length = n ∧ p l} :=
  Set.Finite.subset (List.finite_length_eq Byte n) fun _ h => h.1

theorem card_len (n : ℕ) : Nat.card {l : List Byte // l.length = n} = 256 ^ n := by
  show Nat.card (List.Vector Byte n) = _
  rw [Nat.card_eq_fintype_card, card_vector, show Fintype.card Byte = 256 from Fintype.ofEquiv_card _ |>.trans (Fintype.card_fin _)]


theorem frac_nonneg (p : List Byte → Prop) (k : ℕ) : 0 ≤ frac p k := by rw [frac]; positivity

theorem frac_le_one (p : List Byte → Prop) (k : ℕ) : frac p k ≤ 1 := by
  rw [frac, div_le_one (by positivity)]
  have hcl := card_len (64 * k)
  haveI : Finite {l : List Byte // l.length = 64 * k} := List.finite_length_eq Byte _
  have h := Nat.card_le_card_of_injective (fun x : {l : List Byte // l.length = 64 * k ∧ p l} => (⟨x.1, x.2.1⟩ : {l : List Byte // l.length = 64 * k}))
    (fun x y e => Subtype.ext (congrArg (fun z => z.1) e))
  rw [hcl] at h
  exact_mod_cast h

theorem frac_all {p : List Byte → Prop} (h : ∀ l, p l) (k : ℕ) : frac p k = 1 := by
  have e : Nat.card {l : List Byte // l.length = 64 * k ∧ p l} = 256 ^ (64 * k) := by
    rw [← card_len]
    exact Nat.card_congr ⟨fun x => ⟨x.1, x.2.1⟩, fun x => ⟨x.1, x.2, h _⟩, fun _ => rfl, fun _ => rfl⟩
  rw [frac, e]
  push_cast
  exact div_self (by positivity)

variable {S : Type} (M : Mach S)

theorem card_succ (s : S) (k : ℕ) : Nat.card {l : List Byte // l.length = 64 * (k + 1) ∧ M.stuck s l} =
    ∑ b : Block, Nat.card {l : List Byte // l.length = 64 * k ∧ M.stuck s (b.1 ++ l)} := by
  haveI : ∀ b : Block, Finite {l : List Byte // l.length = 64 * k ∧ M.stuck s (b.1 ++ l)} := fun b => finite_len _ _
  rw [← Nat.card_sigma]
  refine Nat.card_congr ⟨fun x => ⟨⟨x.1.take 64, ?_⟩, ⟨x.1.drop 64, ?_, ?_⟩⟩, fun x => ⟨x.1.1 ++ x.2.1, ?_, x.2.2.2⟩, ?_, ?_⟩
  · rw [List.length_take, x.2.1]; omega
  · rw [List.length_drop, x.2.1]; omega
  · show M.stuck s (x.1.take 64 ++ x.1.drop 64)
    rw [List.take_append_drop]; exact x.2.2
  · rw [List.length_append, x.1.2, x.2.2.1]; omega
  · intro x
    apply Subtype.ext
    exact List.take_append_drop 64 x.1
  · rintro ⟨⟨b, hb⟩, ⟨l, h1, h2⟩⟩
    have e1 : (b ++ l).take 64 = b := by rw [← hb, List.take_left]
    have e2 : (b ++ l).drop 64 = l := by rw [← hb, List.drop_left]
    refine Sigma.ext (Subtype.ext e1) ?_
    simp only
    congr 1
    · funext z
      congr 1
      rw [e1]
    · exact proof_irrel_heq _ _

theorem frac_succ (s : S) (k : ℕ) : frac (M.stuck s) (k + 1) = (∑ b : Block, (M.step s b.1).elim 0 fun s' => frac (M.stuck s') k) / 256 ^ 64 := by
  have hb : ∀ b : Block, (M.step s b.1).elim 0 (fun s' => frac (M.stuck s') k) = (Nat.card {l : List Byte // l.length = 64 * k ∧ M.stuck s (b.1 ++ l)} : ℚ) / 256 ^ (64 * k) := by
    intro b
    have hc : ∀ l, M.stuck s (b.1 ++ l) ↔ ∃ s', M.step s b.1 = some s' ∧ M.stuck s' l := fun l => M.cons s b.1 l b.2
    cases h : M.step s b.1 with
    | none =>
      haveI : IsEmpty {l : List Byte // l.length = 64 * k ∧ M.stuck s (b.1 ++ l)} := by
        constructor
        rintro ⟨l, -, hl⟩
        obtain ⟨s', h', -⟩ := (hc l).mp hl
        rw [h] at h'; cases h'
      rw [Nat.card_of_isEmpty]
      simp
    | some s' =>
      have : ∀ l, M.stuck s (b.1 ++ l) ↔ M.stuck s' l := by
        intro l
        rw [hc, h]
        constructor
        · rintro ⟨s'', e, h'⟩
          cases e; exact h'
        · exact fun h' => ⟨s', rfl, h'⟩
      simp only [this]
      rfl
  rw [sum_congr rfl fun b _ => hb b, frac, card_succ, ← Finset.sum_div, div_div, ← pow_add]
  push_cast
  rfl

/-- a potential bounds the mean number of blocks -/
theorem mean (φ : S → ℚ) (Inv : S → Prop) (h0 : ∀ s, Inv s → 0 ≤ φ s) (h1 : ∀ s b s', b.length = 64 → Inv s → M.step s b = some s' → Inv s')
    (h2 : ∀ s, Inv s → 1 + (∑ b : Block, (M.step s b.1).elim 0 φ) / 256 ^ 64 ≤ φ s) : ∀ (n : ℕ) (s : S), Inv s → ∑ k ∈ range n, frac (M.stuck s) k ≤ φ s
  | 0, s, hs => by rw [range_zero, sum_empty]; exact h0 s hs
  | n + 1, s, hs => by
    rw [sum_range_succ', add_comm]
    refine le_trans (add_le_add (frac_le_one _ 0) ?_) (h2 s hs)
    rw [sum_congr rfl fun k _ => frac_succ M s k, ← Finset.sum_div, sum_comm]
    refine div_le_div_of_nonneg_right (sum_le_sum fun b _ => ?_) (by positivity)
    cases h : M.step s b.1 with
    | none => simp
    | some s' => exact mean φ Inv h0 h1 h2 n s' (h1 s b.1 s' b.2 hs h)

/-- blocks that lower the potential by δ, when no block raises it -/
theorem drop (φ : S → ℚ) {s : S} (δ : ℚ) (G : Finset Block) (hle : ∀ b : Block, (M.step s b.1).elim 0 φ ≤ φ s) (hG : ∀ b ∈ G, (M.step s b.1).elim 0 φ + δ ≤ φ s)
    (hc : 256 ^ 64 ≤ δ * G.card) : 1 + (∑ b : Block, (M.step s b.1).elim 0 φ) / 256 ^ 64 ≤ φ s := by
  classical
  have h1 : ∑ b : Block, ((M.step s b.1).elim 0 φ + if b ∈ G then δ else 0) ≤ ∑ b : Block, φ s := by
    refine sum_le_sum fun b _ => ?_
    split
    · rename_i h; exact hG b h
    · rw [add_zero]; exact hle b
  have hcard : (Fintype.card Block : ℚ) = 256 ^ 64 := by
    rw [card_vector, show Fintype.card Byte = 256 from Fintype.ofEquiv_card _ |>.trans (Fintype.card_fin _)]
    push_cast
    rfl
  rw [sum_add_distrib, sum_const, card_univ, nsmul_eq_mul, hcard, ← sum_filter, sum_const, nsmul_eq_mul, filter_univ_mem, mul_comm (G.card : ℚ)] at h1
  have hp : (0 : ℚ) < 256 ^ 64 := by positivity
  generalize (256 : ℚ) ^ 64 = Q at h1 hp hc ⊢
  have e : 1 + (∑ b : Block, (M.step s b.1).elim 0 φ) / Q = (Q + ∑ b : Block, (M.step s b.1).elim 0 φ) / Q := by rw [add_div, div_self hp.ne']
  rw [e, div_le_iff₀ hp, mul_comm]
  linarith

/-- whatever has been read, the machine can still finish -/
theorem live (φ : S → ℚ) (Inv : S → Prop) (h0 : ∀ s, Inv s → 0 ≤ φ s) (h1 : ∀ s b s', b.length = 64 → Inv s → M.step s b = some s' → Inv s')
    (h2 : ∀ s, Inv s → 1 + (∑ b : Block, (M.step s b.1).elim 0 φ) / 256 ^ 64 ≤ φ s) : ∀ (n : ℕ) (s : S) (pre : List Byte), pre.length ≤ n → Inv s → ∃ ext, ¬ M.stuck s (pre ++ ext) := by
  have start : ∀ s, Inv s → ∃ l, ¬ M.stuck s l := by
    intro s hs
    by_contra hc
    push Not at hc
    obtain ⟨n, hn⟩ := exists_nat_gt (φ s)
    have := mean M φ Inv h0 h1 h2 n s hs
    rw [sum_congr rfl fun k _ => frac_all hc k, sum_const, card_range, nsmul_eq_mul, mul_one] at this
    linarith
  have block : ∀ s b, b.length = 64 → Inv s → ∃ ext, ¬ M.stuck s (b ++ ext) := by
    intro s b hb hs
    cases h : M.step s b with
    | none =>
      refine ⟨[], fun hc => ?_⟩
      obtain ⟨s', h', -⟩ := (M.cons s b [] hb).mp hc
      rw [h] at h'; cases h'
    | some s' =>
      obtain ⟨l, hl⟩ := start s' (h1 s b s' hb hs h)
      refine ⟨l, fun hc => hl ?_⟩
      obtain ⟨s'', h', h3⟩ := (M.cons s b l hb).mp hc
      rw [h] at h'; cases h'; exact h3
  intro n
  induction n with
  | zero =>
    intro s pre hp hs
    obtain ⟨l, hl⟩ := start s hs
    exact ⟨l, by rw [List.eq_nil_of_length_eq_zero (Nat.le_zero.mp hp)]; exact hl⟩
  | succ n ih =>
    intro s pre hp hs
    by_cases h : pre.length < 64
    · obtain ⟨ext, he⟩ := block s (pre ++ List.replicate (64 - pre.length) 0) (by rw [List.length_append, List.length_replicate]; omega) hs
      exact ⟨List.replicate (64 - pre.length) 0 ++ ext, by rw [← List.append_assoc]; exact he⟩
    · have hb : (pre.take 64).length = 64 := by rw [List.length_take]; omega
      cases hst : M.step s (pre.take 64) with
      | none =>
        refine ⟨[], fun hc => ?_⟩
        rw [← List.take_append_drop 64 pre, List.append_assoc] at hc
        obtain ⟨s', h', -⟩ := (M.cons s _ _ hb).mp hc
        rw [hst] at h'; cases h'
      | some s' =>
        obtain ⟨ext, he⟩ := ih s' (pre.drop 64) (by rw [List.length_drop]; omega) (h1 s _ s' hb hs hst)
        refine ⟨ext, fun hc => he ?_⟩
        rw [← List.take_append_drop 64 pre, List.append_assoc] at hc
        obtain ⟨s'', h', h3⟩ := (M.cons s _ _ hb).mp hc
        rw [hst] at h'; cases h'; exact h3

end Lemmas.BlockExpect
