import Verif.Lemmas.CsidhBlocks
import Verif.Lemmas.BlockSeq

/-!
The CSIDH calls as readers of blocks, and the mean number of blocks for a private key.
-/

namespace Lemmas.CsidhReader

open Model Model.Csidh Lemmas.CsidhKeys Lemmas.CsidhBlocks Lemmas.BlockSeq Spec Spec.Csidh Finset Lemmas.BlockExpect

theorem val_reader (a : Fp) : Reader (validateLoop a) :=
  reader_loop (S := Unit) (f := fun _ => validateLoop a) (fun _ l hl => loop_none (randFp_short hl))
    (fun _ b hb => by
      by_cases h : (isLess (Model.Csidh.candidate b) Model.Csidh.p && (decided a (Model.Csidh.candidate b)).1) = true
      · exact Or.inl ⟨_, fun l => by rw [loop_block hb, if_pos h]⟩
      · exact Or.inr ⟨(), fun l => by rw [loop_block hb, if_neg h]⟩) ()

theorem rounds_reader (round : RoundSt → Fp → Option RoundSt) (s : RoundSt) : Reader (actRounds round s) :=
  reader_loop (f := actRounds round) (fun _ l hl => rounds_none (randFp_short hl))
    (fun s b hb => by
      have hr := randFp_block hb
      by_cases h : isLess (Model.Csidh.candidate b) Model.Csidh.p = true
      · simp only [if_pos h] at hr
        have key : ∀ l, actRounds round s (b ++ l) = match round s (Model.Csidh.candidate b) with
            | none => actRounds round s l
            | some s' => if s'.h0.done && s'.h1.done then some (s', l) else actRounds round s' l := fun l => rounds_some (hr l)
        revert key
        generalize round s (Model.Csidh.candidate b) = o
        intro key
        cases o with
        | none => exact Or.inr ⟨s, key⟩
        | some s' =>
          by_cases hd : (s'.h0.done && s'.h1.done) = true
          · exact Or.inl ⟨s', fun l => by rw [key]; simp only [if_pos hd]⟩
          · exact Or.inr ⟨s', fun l => by rw [key]; simp only [if_neg hd]⟩
      · simp only [if_neg h] at hr
        exact Or.inr ⟨s, fun l => rounds_rand (hr l)⟩) s

theorem act_reader (s : RoundSt) : Reader (actRounds actRound s) := rounds_reader actRound s

theorem action_reader (a : Fp) (sk : PrivateKey) : Reader (groupAction a sk) := (act_reader (start a sk)).map fun s => s.A

theorem public_reader (sk : PrivateKey) : Reader (generatePublicKey sk) := (action_reader fp0 sk).map fun a => (⟨a⟩ : PublicKey)

theorem const_reader {α : Type} (a : α) : Reader fun l => some (a, l) := fun l a' r h => by
  cases h
  exact ⟨[], rfl, rfl, fun _ => rfl⟩

theorem validate_reader (pub : PublicKey) : Reader (validate pub) := by
  unfold validate
  split
  · exact const_reader false
  · split
    · exact const_reader false
    · exact val_reader pub.a

theorem derive_reader (out : List Model.Byte) (pub : PublicKey) (sk : PrivateKey) : Reader fun l => (deriveSecret out pub sk l).map fun x => ((x.1, x.2.1), x.2.2) := by
  have := (validate_reader pub).seq (g := fun ok => if ok then fun l => (groupAction pub.a sk l).map fun x => ((((⟨x.1⟩ : PublicKey).exportKey out).1, true), x.2) else fun l => some ((out, false), l)) (by
    intro a
    cases a
    · exact const_reader _
    · exact (action_reader pub.a sk).map fun a => (((⟨a⟩ : PublicKey).exportKey out).1, true))
  refine Eq.mp ?_ this
  congr 1
  funext l
  rw [deriveSecret, seq]
  cases validate pub l with
  | none => rfl
  | some v =>
    obtain ⟨ok, r⟩ := v
    cases ok
    · rfl
    · simp only [Option.bind_some, if_pos]
      cases groupAction pub.a sk r with
      | none => rfl
      | some v => rfl

/-! ### Private keys -/

/-- the call, with an error as a call that has not returned a key -/
def genOpt (l : List Model.Byte) : Option (PrivateKey × List Model.Byte) := if (generatePrivateKey l).2.2 then some ((generatePrivateKey l).1, (generatePrivateKey l).2.1) else none

def loopOpt (s : ℕ × List Model.Byte) (l : List Model.Byte) : Option (PrivateKey × List Model.Byte) :=
  if (genLoop s.1 s.2 l).2.2 then some ((genLoop s.1 s.2 l).1, (genLoop s.1 s.2 l).2.1) else none

theorem loop_short {i : ℕ} (hi : i < 74) (e : List Model.Byte) {l : List Model.Byte} (h : l.length < 64) : genLoop i e l = (⟨e⟩, [], false) := by
  rw [genLoop, if_pos hi, if_pos h]

theorem genLoop_block {i : ℕ} (hi : i < 74) (e : List Model.Byte) {b : List Model.Byte} (hb : b.length = 64) (l : List Model.Byte) :
    genLoop i e (b ++ l) = genLoop (fillKey b i e).1 (fillKey b i e).2 l := by
  rw [genLoop, if_pos hi, if_neg (by rw [List.length_append]; omega), List.take_left' hb, List.drop_left' hb]

theorem genLoop_done {i : ℕ} (hi : ¬ i < 74) (e l : List Model.Byte) : genLoop i e l = (⟨e⟩, l, true) := by
  rw [genLoop, if_neg hi]

/-- the state while exponents are missing -/
abbrev GenSt := {s : ℕ × List Model.Byte // s.1 < 74}

def genMach : Mach GenSt where
  stuck s l := loopOpt s.1 l = none
  step s b := if h : (fillKey b s.1.1 s.1.2).1 < 74 then some ⟨fillKey b s.1.1 s.1.2, h⟩ else none
  cons s b l hb := by
    have e : loopOpt s.1 (b ++ l) = loopOpt (fillKey b s.1.1 s.1.2) l := by rw [loopOpt, loopOpt, genLoop_block s.2 _ hb]
    rw [e]
    by_cases h : (fillKey b s.1.1 s.1.2).1 < 74
    · rw [dif_pos h]
      simp
    · rw [dif_neg h, loopOpt, genLoop_done h]
      simp

theorem gen_reader : Reader genOpt :=
  reader_loop (S := GenSt) (f := fun s l => loopOpt s.1 l) (fun s l hl => by rw [loopOpt, loop_short s.2 _ hl]; rfl)
    (fun s b hb => by
      by_cases h : (fillKey b s.1.1 s.1.2).1 < 74
      · exact Or.inr ⟨⟨_, h⟩, fun l => by rw [loopOpt, loopOpt, genLoop_block s.2 _ hb]⟩
      · exact Or.inl ⟨⟨(fillKey b s.1.1 s.1.2).2⟩, fun l => by rw [loopOpt, genLoop_block s.2 _ hb, genLoop_done h]; rfl⟩) ⟨(0, List.replicate 37 0), by decide⟩

theorem fill_ge : ∀ (b : List Model.Byte) (i : ℕ) (e : List Model.Byte), i ≤ (fillKey b i e).1
  | [], i, e => le_rfl
  | x :: b, i, e => by
    rw [fillKey]
    split
    · simp only
      split
      · simp
      · exact le_trans (Nat.le_succ i) (fill_ge b _ _)
    · exact fill_ge b i e

theorem fill_gt : ∀ (b : List Model.Byte) (i : ℕ) (e : List Model.Byte), (∃ x ∈ b, small x = true) → i < (fillKey b i e).1
  | [], i, e, h => by simp at h
  | x :: b, i, e, h => by
    rw [fillKey]
    split
    · simp only
      split
      · simp
      · exact lt_of_lt_of_le (Nat.lt_succ_self i) (fill_ge b _ _)
    · rename_i hx
      refine fill_gt b i e ?_
      obtain ⟨y, hy, hs⟩ := h
      rcases List.mem_cons.mp hy with rfl | hy
      · rw [small, decide_eq_true_iff] at hs
        exact absurd ⟨hs.2, hs.1⟩ hx
      · exact ⟨y, hy, hs⟩

theorem large_card : Fintype.card {x : Model.Byte // ¬ small x = true} = 245 := by
  have e : Fintype.card {x : Model.Byte // ¬ small x = true} = Fintype.card {x : Fin 256 // ¬ small (BitVec.ofFin x) = true} :=
    Fintype.card_congr ⟨fun x => ⟨x.1.toFin, x.2⟩, fun x => ⟨BitVec.ofFin x.1, x.2⟩, fun _ => rfl, fun _ => rfl⟩
  rw [e]
  decide +kernel

theorem bad_card (n : ℕ) [DecidablePred fun b : List.Vector Model.Byte n => ∃ x ∈ b.1, small x = true] : (univ.filter fun b : List.Vector Model.Byte n => ¬ ∃ x ∈ b.1, small x = true).card ≤ 245 ^ n := by
  have e : Fintype.card (List.Vector {x : Model.Byte // ¬ small x = true} n) = 245 ^ n := by rw [card_vector, large_card]
  rw [← e, ← Fintype.card_subtype]
  have hx : ∀ b : {b : List.Vector Model.Byte n // ¬ ∃ x ∈ b.1, small x = true}, ∀ x ∈ b.1.1, ¬ small x = true := fun b x hx hs => b.2 ⟨x, hx, hs⟩
  refine Fintype.card_le_of_injective (fun b => ⟨b.1.1.attach.map fun x => ⟨x.1, hx b x.1 x.2⟩, by rw [List.length_map, List.length_attach]; exact b.1.2⟩) ?_
  intro b b' h
  have h := congrArg (fun v : List.Vector {x : Model.Byte // ¬ small x = true} n => v.1.map Subtype.val) h
  simp only [List.map_map] at h
  apply Subtype.ext
  apply Subtype.ext
  have g : ∀ l : List Model.Byte, ∀ u : (x : {x // x ∈ l}) → {x : Model.Byte // ¬ small x = true}, (∀ x, (u x).1 = x.1) → l.attach.map (Subtype.val ∘ u) = l := by
    intro l u hu
    rw [show Subtype.val ∘ u = Subtype.val from funext hu, List.attach_map_subtype_val]
  rw [g _ _ fun _ => rfl, g _ _ fun _ => rfl] at h
  exact h

theorem vec_card (n : ℕ) : Fintype.card (List.Vector Model.Byte n) = 256 ^ n := by
  rw [card_vector, show Fintype.card Model.Byte = 256 from Fintype.ofEquiv_card _ |>.trans (Fintype.card_fin _)]

theorem most (n : ℕ) (h4 : 16 * 245 ^ n ≤ 256 ^ n) : ∃ G : Finset (List.Vector Model.Byte n), (∀ b ∈ G, ∃ x ∈ b.1, small x = true) ∧ 15 * 256 ^ n ≤ 16 * G.card := by
  classical
  refine ⟨univ.filter fun b : List.Vector Model.Byte n => ∃ x ∈ b.1, small x = true, fun b hb => (mem_filter.mp hb).2, ?_⟩
  have h1 := card_filter_add_card_filter_not (s := (univ : Finset (List.Vector Model.Byte n))) (fun b : List.Vector Model.Byte n => ∃ x ∈ b.1, small x = true)
  have h2 := bad_card n
  rw [card_univ, vec_card] at h1
  omega

/-- most blocks have an acceptable byte -/
theorem blocks_small : ∃ G : Finset Block, (∀ b ∈ G, ∃ x ∈ b.1, small x = true) ∧ 15 * 256 ^ 64 ≤ 16 * G.card := most 64 (by decide +kernel)

def genPot (s : GenSt) : ℚ := 16 / 15 * ((74 - s.1.1 : ℕ) : ℚ)

theorem gen_step (s : GenSt) : 1 + (∑ b : Block, (genMach.step s b.1).elim 0 genPot) / 256 ^ 64 ≤ genPot s := by
  obtain ⟨G, hG, hc⟩ := blocks_small
  have hst : ∀ b : List Model.Byte, ((genMach.step s b).elim 0 genPot) ≤ 16 / 15 * ((74 - (fillKey b s.1.1 s.1.2).1 : ℕ) : ℚ) := by
    intro b
    show (dite _ _ _ : Option GenSt).elim 0 genPot ≤ _
    by_cases h : (fillKey b s.1.1 s.1.2).1 < 74
    · rw [dif_pos h]; exact le_rfl
    · rw [dif_neg h]; simp
  refine drop genMach genPot (16 / 15) G (fun b => le_trans (hst b.1) ?_) (fun b hb => le_trans (add_le_add (hst b.1) le_rfl) ?_) ?_
  · have := fill_ge b.1 s.1.1 s.1.2
    rw [genPot]
    gcongr
  · have := fill_gt b.1 s.1.1 s.1.2 (hG b hb)
    have h2 := s.2
    have : (74 - (fillKey b.1 s.1.1 s.1.2).1) + 1 ≤ 74 - s.1.1 := by omega
    have h3 : (((74 - (fillKey b.1 s.1.1 s.1.2).1 : ℕ) : ℚ)) + 1 ≤ ((74 - s.1.1 : ℕ) : ℚ) := by exact_mod_cast this
    rw [genPot]
    linarith
  · have : (15 : ℚ) * 256 ^ 64 ≤ 16 * G.card := by exact_mod_cast hc
    generalize (256 : ℚ) ^ 64 = q at *
    linarith

theorem gen_mean : (∀ n, ∑ k ∈ range n, frac (fun l => genOpt l = none) k ≤ 79) ∧ ∀ pre, ∃ ext, genOpt (pre ++ ext) ≠ none := by
  constructor
  · intro n
    have := mean genMach genPot (fun _ => True) (fun s _ => by rw [genPot]; positivity) (fun _ _ _ _ _ _ => trivial) (fun s _ => gen_step s) n ⟨(0, List.replicate 37 0), by decide⟩ trivial
    refine le_trans this ?_
    rw [genPot]
    norm_num
  · intro pre
    exact live genMach genPot (fun _ => True) (fun s _ => by rw [genPot]; positivity) (fun _ _ _ _ _ _ => trivial) (fun s _ => gen_step s) _ ⟨(0, List.replicate 37 0), by decide⟩ pre le_rfl trivial

end Lemmas.CsidhReader
