import Verif.Lemmas.BlockExpect

/-!
Functions that read blocks of 64 bytes, one after the other.
-/

namespace Lemmas.BlockSeq
open Finset Lemmas.BlockExpect

variable {α β S : Type}

/-- f reads whole blocks and does not look at what follows them -/
def Reader (f : List Byte → Option (α × List Byte)) : Prop :=
  ∀ l a r, f l = some (a, r) → ∃ b, b.length % 64 = 0 ∧ l = b ++ r ∧ ∀ r', f (b ++ r') = some (a, r')

def seq (f : List Byte → Option (α × List Byte)) (g : α → List Byte → Option β) (l : List Byte) : Option β := (f l).bind fun x => g x.1 x.2

/-- every predicate, as a machine whose state is the predicate -/
def all : Mach (List Byte → Prop) where
  stuck p l := p l
  step p b := some fun l => p (b ++ l)
  cons p b l _ := ⟨fun h => ⟨_, rfl, h⟩, fun ⟨_, e, h⟩ => by cases e; exact h⟩

theorem avg (p : List Byte → Prop) (k : ℕ) : frac p (k + 1) = (∑ b : Block, frac (fun l => p (b.1 ++ l)) k) / 256 ^ 64 := frac_succ all p k

theorem avg_sum (p : List Byte → Prop) (n : ℕ) : ∑ k ∈ range (n + 1), frac p k = frac p 0 + (∑ b : Block, ∑ k ∈ range n, frac (fun l => p (b.1 ++ l)) k) / 256 ^ 64 := by
  rw [sum_range_succ', add_comm, sum_congr rfl fun k _ => avg p k, ← Finset.sum_div, sum_comm]

theorem card_block : (Fintype.card Block : ℚ) = 256 ^ 64 := by
  rw [card_vector, show Fintype.card Byte = 256 from Fintype.ofEquiv_card _ |>.trans (Fintype.card_fin _)]
  push_cast
  rfl

theorem seq_sum {g : α → List Byte → Option β} {c : ℚ} (hc : 0 ≤ c) : ∀ (n : ℕ) (f : List Byte → Option (α × List Byte)), Reader f →
    (∀ l a r, f l = some (a, r) → ∀ m, ∑ k ∈ range m, frac (fun l => g a l = none) k ≤ c) →
    ∑ k ∈ range n, frac (fun l => seq f g l = none) k ≤ ∑ k ∈ range n, frac (fun l => f l = none) k + c
  | 0, f, hf, hg => by simpa using hc
  | n + 1, f, hf, hg => by
    cases h0 : f [] with
    | some x =>
      obtain ⟨a, r⟩ := x
      obtain ⟨b, -, e, h⟩ := hf _ _ _ h0
      obtain ⟨rfl, rfl⟩ := List.append_eq_nil_iff.mp e.symm
      have e1 : ∀ l, seq f g l = g a l := fun l => by rw [seq, show f l = some (a, l) from h l]; rfl
      simp only [e1]
      refine le_trans (hg _ _ _ h0 (n + 1)) (le_add_of_nonneg_left (sum_nonneg fun k _ => frac_nonneg _ _))
    | none =>
      have key : ∀ b : Block, ∑ k ∈ range n, frac (fun l => seq f g (b.1 ++ l) = none) k ≤ ∑ k ∈ range n, frac (fun l => f (b.1 ++ l) = none) k + c := by
        intro b
        refine seq_sum hc n (fun l => f (b.1 ++ l)) ?_ (fun l a r h => hg _ _ _ h)
        intro l a r h
        obtain ⟨b', h1, h2, h3⟩ := hf _ _ _ h
        have hne : b' ≠ [] := by
          rintro rfl
          have := h3 []
          rw [List.append_nil, h0] at this
          cases this
        have hlen : 64 ≤ b'.length := by
          have : 0 < b'.length := List.length_pos_iff.mpr hne
          omega
        have hbl : b.1.length = 64 := b.2
        have hb : b' = b.1 ++ b'.drop 64 := by
          conv_lhs => rw [← List.take_append_drop 64 b']
          congr 1
          have := congrArg (List.take 64) h2
          rw [List.take_left' hbl, List.take_append_of_le_length hlen] at this
          exact this.symm
        refine ⟨b'.drop 64, by rw [List.length_drop]; omega, ?_, ?_⟩
        · have := congrArg (List.drop 64) h2
          rwa [List.drop_left' hbl, List.drop_append_of_le_length hlen] at this
        · intro r'
          have e2 : b.1 ++ (b'.drop 64 ++ r') = b' ++ r' := by
            conv_rhs => rw [hb]
            exact (List.append_assoc _ _ _).symm
          show f (b.1 ++ (b'.drop 64 ++ r')) = _
          exact (congrArg f e2).trans (h3 r')
      have z : ∀ p : List Byte → Prop, p [] → frac p 0 = 1 := by
        intro p hp
        have e : Nat.card {l : List Byte // l.length = 64 * 0 ∧ p l} = 1 := by
          rw [Nat.card_eq_one_iff_unique]
          refine ⟨⟨fun x y => Subtype.ext ?_⟩, ⟨⟨[], rfl, hp⟩⟩⟩
          rw [List.length_eq_zero_iff.mp x.2.1, List.length_eq_zero_iff.mp y.2.1]
        rw [frac, e]
        norm_num
      rw [avg_sum, avg_sum, z _ (by rw [seq, h0]; rfl), z _ h0, add_assoc]
      refine add_le_add le_rfl ?_
      have hp : (0 : ℚ) < 256 ^ 64 := by positivity
      have hs := sum_le_sum fun (b : Block) (_ : b ∈ univ) => key b
      rw [sum_add_distrib, sum_const, card_univ, nsmul_eq_mul, card_block] at hs
      generalize (256 : ℚ) ^ 64 = Q at hp hs ⊢
      rw [div_le_iff₀ hp, add_mul, div_mul_cancel₀ _ hp.ne', mul_comm c]
      exact hs

theorem seq_live {f : List Byte → Option (α × List Byte)} {g : α → List Byte → Option β} (hf : Reader f) (h1 : ∀ pre, ∃ ext, f (pre ++ ext) ≠ none)
    (h2 : ∀ l a r, f l = some (a, r) → ∀ pre, ∃ ext, g a (pre ++ ext) ≠ none) (pre : List Byte) : ∃ ext, seq f g (pre ++ ext) ≠ none := by
  obtain ⟨e1, h⟩ := h1 pre
  obtain ⟨⟨a, r⟩, h⟩ := Option.ne_none_iff_exists'.mp h
  obtain ⟨b, -, hb, h3⟩ := hf _ _ _ h
  obtain ⟨e2, h4⟩ := h2 _ _ _ h r
  refine ⟨e1 ++ e2, ?_⟩
  rw [seq, ← List.append_assoc, hb, List.append_assoc, h3]
  exact h4

theorem Reader.seq {f : List Byte → Option (α × List Byte)} {g : α → List Byte → Option (β × List Byte)} (hf : Reader f) (hg : ∀ a, Reader (g a)) : Reader (seq f g) := by
  intro l b r h
  rw [BlockSeq.seq] at h
  obtain ⟨⟨a, r1⟩, h1, h2⟩ := Option.bind_eq_some_iff.mp h
  obtain ⟨b1, l1, rfl, f1⟩ := hf _ _ _ h1
  obtain ⟨b2, l2, rfl, f2⟩ := hg a _ _ _ h2
  refine ⟨b1 ++ b2, by rw [List.length_append]; omega, by rw [List.append_assoc], fun r' => ?_⟩
  rw [BlockSeq.seq, List.append_assoc, f1]
  exact f2 r'

theorem Reader.map {f : List Byte → Option (α × List Byte)} (hf : Reader f) (u : α → β) : Reader fun l => (f l).map fun x => (u x.1, x.2) := by
  intro l b r h
  obtain ⟨⟨a, r1⟩, h1, h2⟩ := Option.map_eq_some_iff.mp h
  obtain ⟨b1, l1, rfl, f1⟩ := hf _ _ _ h1
  cases h2
  exact ⟨b1, l1, rfl, fun r' => by simp only [f1, Option.map_some]⟩

/-- a loop that reads a block at a time -/
theorem reader_loop {f : S → List Byte → Option (α × List Byte)} (h0 : ∀ s l, l.length < 64 → f s l = none)
    (h1 : ∀ s b, b.length = 64 → (∃ a, ∀ l, f s (b ++ l) = some (a, l)) ∨ ∃ s', ∀ l, f s (b ++ l) = f s' l) (s : S) : Reader (f s) := by
  intro l
  induction hn : l.length using Nat.strong_induction_on generalizing s l with
  | _ n ih =>
    intro a r h
    by_cases hl : l.length < 64
    · rw [h0 s l hl] at h; cases h
    · have hb : (l.take 64).length = 64 := by rw [List.length_take]; omega
      obtain ⟨b, d, hbd⟩ : ∃ b d, b = l.take 64 ∧ d = l.drop 64 := ⟨_, _, rfl, rfl⟩
      have e : l = b ++ d := by rw [hbd.1, hbd.2, List.take_append_drop]
      rw [← hbd.1] at hb
      have hd : d.length < n := by rw [hbd.2, List.length_drop]; omega
      rcases h1 s b hb with ⟨a', h2⟩ | ⟨s', h2⟩
      · rw [e, h2] at h
        cases h
        exact ⟨b, by omega, e, h2⟩
      · rw [e, h2] at h
        obtain ⟨b', g1, g2, g3⟩ := ih _ hd s' d rfl _ _ h
        refine ⟨b ++ b', by rw [List.length_append]; omega, by rw [e, g2, List.append_assoc], fun r' => ?_⟩
        rw [List.append_assoc, h2, g3]

theorem frac_mono {p q : List Byte → Prop} (h : ∀ l, p l → q l) (k : ℕ) : frac p k ≤ frac q k := by
  rw [frac, frac]
  refine div_le_div_of_nonneg_right ?_ (by positivity)
  haveI := finite_len (64 * k) q
  have := Nat.card_le_card_of_injective (fun x : {l : List Byte // l.length = 64 * k ∧ p l} => (⟨x.1, x.2.1, h _ x.2.2⟩ : {l : List Byte // l.length = 64 * k ∧ q l}))
    (fun x y e => Subtype.ext (congrArg (fun z => z.1) e))
  exact_mod_cast this

end Lemmas.BlockSeq
