import Verif.Lemmas.CsidhReader
import Verif.Props.CsidhAgree

/-!
C102: the calls of the CSIDH package can always finish, and on average they do so after few random bytes.
-/

namespace Props.CsidhLive
open Model Model.Csidh Spec Spec.Csidh Lemmas.CsidhField Lemmas.CsidhBlocks Lemmas.CsidhMade Lemmas.CsidhAgree Props.CsidhAgree Finset Lemmas.CsidhRunKeys Lemmas.CsidhReader Lemmas.BlockSeq Model.CsidhPke Lemmas.CsidhPke Model.Sha3 Lemmas.Sha3 Model.Limb

/-- the number of isogenies that a private key asks for -/
def isogenies (sk : PrivateKey) : ℕ := ∑ i ∈ range 74, (exponent sk.e i).natAbs

theorem orbit_good {l : List PrivateKey} {pk : PublicKey} (h : Orbit l pk) : ∃ (Γ : Type) (_ : AddCommGroup Γ) (π : Γ →+ Γ) (T τ : Γ) (g0 : Γ → F) (a : ZMod Spec.Csidh.p) (L : List (ℕ × Bool)),
    (∀ s, Nat.card (Verif.Colon.eig π s).ker = Spec.Csidh.p + 1) ∧ IsElt pk.a a ∧ Lemmas.CsidhOrbit.Good π T τ g0 (algebraMap (ZMod Spec.Csidh.p) F a) L := by
  obtain ⟨α, ha, L, hL, H⟩ := h
  obtain ⟨Γ, i, π, T, τ, g0, hc, hb⟩ := base
  exact ⟨Γ, i, π, T, τ, g0, α, L, hc, ha, H Γ _ π T τ g0 hc hb⟩

theorem good_coef {l : List PrivateKey} {pk : PublicKey} (h : Orbit l pk) (rng : List Byte) : validate pk rng = validateLoop pk.a rng := by
  obtain ⟨Γ, i, π, T, τ, g0, α, L, hc, ha, hg⟩ := orbit_good h
  have hA : (algebraMap (ZMod Spec.Csidh.p) F α) ^ 2 ≠ 4 := by
    obtain ⟨N, g, y, I, hN, can⟩ := hg
    exact Lemmas.CsidhIso.A_sq I.x I.t
  refine Props.CsidhValidate.validate_eq ha ?_ ?_ rng
  · rintro rfl
    apply hA
    rw [← map_pow, ← map_ofNat (algebraMap (ZMod Spec.Csidh.p) F) 4]
    congr 1
  · rintro rfl
    apply hA
    rw [← map_pow, ← map_ofNat (algebraMap (ZMod Spec.Csidh.p) F) 4]
    congr 1

theorem gen_fail {rng r : List Byte} {k : PrivateKey} (h : generatePrivateKey rng = (k, r, false)) : r = [] := by
  rw [generatePrivateKey] at h
  have : ∀ (i : ℕ) (e l : List Byte), (genLoop i e l).2.2 = false → (genLoop i e l).2.1 = [] := by
    intro i e l
    induction i, e, l using genLoop.induct with
    | case1 i e l h1 h2 => intro _; rw [genLoop, if_pos h1, if_pos h2]
    | case2 i e l h1 h2 i' e' hf ih => intro hh; rw [genLoop, if_pos h1, if_neg h2, hf] at hh ⊢; exact ih hh
    | case3 i e l h1 => intro hh; rw [genLoop, if_neg h1] at hh; cases hh
  have := this 0 (List.replicate 37 0) rng (by rw [h])
  rw [h] at this
  exact this

theorem action_none (a : Fp) (sk : PrivateKey) (rng : List Byte) : groupAction a sk rng = none ↔ actRounds actRound (start a sk) rng = none := by
  rw [groupAction, Option.map_eq_none_iff]
  rfl

/-- C102. `GeneratePublicKey` reads on average at most 4 (n + 2) blocks of 64 random bytes, where n is the number of isogenies that the
private key asks for, and whatever it has read there are bytes with which it returns: for every private key. -/
theorem c102_public (sk : PrivateKey) : MeanBlocks (generatePublicKey sk) (4 * (isogenies sk + 2)) ∧
    ∀ pre, ∃ ext pk rest, generatePublicKey sk (pre ++ ext) = some (pk, rest) := by
  obtain ⟨Γ, i, π, T, τ, g0, α, L, hc, ha, hg⟩ := orbit_good orbit_start
  obtain ⟨h1, h2⟩ := act_mean hc (start_going ha hg sk)
  have e : ∀ l, generatePublicKey sk l = none ↔ actRounds actRound (start fp0 sk) l = none := by
    intro l
    rw [generatePublicKey, Option.map_eq_none_iff, action_none]
  constructor
  · intro n
    have := h1 n
    rw [start_mu] at this
    refine le_trans (le_of_eq ?_) (le_trans this (le_of_eq (by rw [isogenies]; push_cast; ring)))
    refine sum_congr rfl fun k _ => ?_
    rw [unfinished, Lemmas.BlockExpect.frac]
    simp only [e]
  · intro pre
    obtain ⟨ext, h⟩ := h2 pre
    have h := mt (e _).mp h
    obtain ⟨⟨pk, rest⟩, h⟩ := Option.ne_none_iff_exists'.mp h
    exact ⟨ext, pk, rest, h⟩

/-- C102. `Validate` reads on average at most 3/2 blocks, and whatever it has read there are bytes with which it accepts: for every
public key that can be made. -/
theorem c102_validate {l : List PrivateKey} {pk : PublicKey} (m : Made l pk) : MeanBlocks (validate pk) (3 / 2) ∧
    ∀ pre, ∃ ext rest, validate pk (pre ++ ext) = some (true, rest) := by
  obtain ⟨Γ, i, π, T, τ, g0, α, L, hc, ha, hg⟩ := orbit_good (made_orbit m)
  obtain ⟨h1, h2⟩ := val_mean hc ha hg
  have e := good_coef (made_orbit m)
  constructor
  · intro n
    refine le_trans (le_of_eq ?_) (h1 n)
    refine sum_congr rfl fun k _ => ?_
    rw [unfinished, Lemmas.BlockExpect.frac]
    simp only [e]
  · intro pre
    obtain ⟨ext, h⟩ := h2 pre
    rw [← e] at h
    obtain ⟨⟨ok, rest⟩, h⟩ := Option.ne_none_iff_exists'.mp h
    obtain rfl := c76_valid m _ _ _ h
    exact ⟨ext, rest, h⟩

/-- C102. `DeriveSecret` reads on average at most 3/2 + 4 (n + 2) blocks, and whatever it has read there are bytes with which it succeeds: for
every private key and every public key that can be made. -/
theorem c102_derive {l : List PrivateKey} {pk : PublicKey} (m : Made l pk) (sk : PrivateKey) (out : List Byte) :
    MeanBlocks (deriveSecret out pk sk) (3 / 2 + 4 * (isogenies sk + 2)) ∧ ∀ pre, ∃ ext ss rest, deriveSecret out pk sk (pre ++ ext) = some (ss, true, rest) := by
  obtain ⟨Γ, i, π, T, τ, g0, α, L, hc, ha, hg⟩ := orbit_good (made_orbit m)
  obtain ⟨h1, h2⟩ := der_mean hc ha hg (start_going ha hg sk)
  have e : ∀ r, deriveSecret out pk sk r = none ↔ (derMach pk.a (start pk.a sk)).stuck none r := by
    intro r
    rw [deriveSecret, good_coef (made_orbit m)]
    show _ ↔ match validateLoop pk.a r with
      | none => True
      | some (false, _) => False
      | some (true, l') => actRounds actRound (start pk.a sk) l' = none
    match validateLoop pk.a r with
    | none => simp
    | some (false, l') => simp
    | some (true, l') =>
      simp only
      rw [← action_none]
      cases groupAction pk.a sk l' <;> simp
  constructor
  · intro n
    have := h1 n
    rw [start_mu] at this
    refine le_trans (le_of_eq ?_) (le_trans this (le_of_eq (by rw [isogenies]; push_cast; ring)))
    refine sum_congr rfl fun k _ => ?_
    rw [unfinished, Lemmas.BlockExpect.frac]
    simp only [e]
  · intro pre
    obtain ⟨ext, h⟩ := h2 pre
    have h := mt (e _).mp h
    obtain ⟨⟨ss, ok, rest⟩, h⟩ := Option.ne_none_iff_exists'.mp h
    obtain rfl := c76_derive m sk _ _ _ _ _ h
    exact ⟨ext, ss, rest, h⟩

/-- C102. So any two private keys can be used for a key exchange: there are a public key for each, and one secret that both calls of
`DeriveSecret` can write. -/
theorem c102_exchange (skA skB : PrivateKey) : ∃ rA rB r1 r2 rA' rB' r1' r2' pkA pkB ss, generatePublicKey skA rA = some (pkA, rA') ∧ generatePublicKey skB rB = some (pkB, rB') ∧
    deriveSecret (List.replicate 64 0) pkB skA r1 = some (ss, true, r1') ∧ deriveSecret (List.replicate 64 0) pkA skB r2 = some (ss, true, r2') := by
  obtain ⟨rA, pkA, rA', hA⟩ := (c102_public skA).2 []
  obtain ⟨rB, pkB, rB', hB⟩ := (c102_public skB).2 []
  obtain ⟨r1, ss, r1', h1⟩ := (c102_derive (.gen hB) skA (List.replicate 64 0)).2 []
  obtain ⟨r2, ss', r2', h2⟩ := (c102_derive (.gen hA) skB (List.replicate 64 0)).2 []
  have := (c75_agree _ _ _ _ _ _ _ _ _ _ _ _ _ _ _ _ _ _ hA hB (by simp) (by simp) h1 h2).2.2
  subst this
  exact ⟨_, _, _, _, _, _, _, _, _, _, _, hA, hB, h1, h2⟩

/-- C102. `GeneratePrivateKey` reads on average at most 79 blocks, and whatever it has read there are bytes with which it returns a key. -/
theorem c102_private : MeanBlocks (fun rng => if (generatePrivateKey rng).2.2 then some (generatePrivateKey rng).1 else none) 79 ∧
    ∀ pre, ∃ ext k rest, generatePrivateKey (pre ++ ext) = (k, rest, true) := by
  have e : ∀ l, (if (generatePrivateKey l).2.2 then some (generatePrivateKey l).1 else none) = none ↔ genOpt l = none := by
    intro l
    rw [genOpt]
    split <;> simp
  constructor
  · intro n
    refine le_trans (le_of_eq ?_) (gen_mean.1 n)
    refine sum_congr rfl fun k _ => ?_
    rw [unfinished, Lemmas.BlockExpect.frac]
    simp only [e]
  · intro pre
    obtain ⟨ext, h⟩ := gen_mean.2 pre
    rw [genOpt] at h
    by_cases hc : (generatePrivateKey (pre ++ ext)).2.2 = true
    · exact ⟨ext, _, _, Prod.ext rfl (Prod.ext rfl hc)⟩
    · rw [if_neg hc] at h
      exact absurd rfl h

theorem gen_isogenies {l r : List Byte} {sk : PrivateKey} (h : genOpt l = some (sk, r)) : isogenies sk ≤ 370 := by
  rw [genOpt] at h
  by_cases hc : (generatePrivateKey l).2.2 = true
  · rw [if_pos hc] at h
    obtain ⟨rfl, rfl⟩ := Prod.mk.injEq _ _ _ _ ▸ Option.some.inj h
    have hr := Props.CsidhKeys.c67_range l (generatePrivateKey l).1 (generatePrivateKey l).2.1 (Prod.ext rfl (Prod.ext rfl hc))
    refine le_trans (sum_le_sum (g := fun _ => 5) fun i hi => ?_) (by simp)
    have := hr i (mem_range.mp hi)
    omega
  · rw [if_neg hc] at h
    cases h

/-- what `Enc` does with the random source -/
theorem enc_none {P : Plat} (hP : Supported P) {h : State} (hh : SameParams newShake128 h) {l : List PrivateKey} {pk : PublicKey} (m : Made l pk) {pt : List Byte} (hpt : pt.length = 16)
    (rng : List Byte) : PKE.enc P ⟨some rng, some h⟩ pk pt = none ↔
    seq genOpt (fun sk => seq (fun l => (deriveSecret (List.replicate 64 0) pk sk l).map fun x => ((x.1, x.2.1), x.2.2)) fun _ => generatePublicKey sk) rng = none := by
  rw [← not_iff_not, ← Ne, ← Ne, Option.ne_none_iff_exists', Option.ne_none_iff_exists']
  constructor
  · rintro ⟨⟨c', ct⟩, he⟩
    obtain ⟨skA, r0, b, ss, b', r1, pkA, r2, h', e1, e2, e3, -⟩ := (enc_iff hP hh pk hpt c' ct).mp he
    have hb : b = true := by
      by_contra hb
      have hr0 : r0 = [] := by
        have hb : b = false := by simpa using hb
        subst hb
        exact gen_fail e1
      subst hr0
      have : deriveSecret (List.replicate 64 0) pk skA [] = none := by
        rw [deriveSecret, good_coef (made_orbit m), loop_none (randFp_short (by decide))]
      rw [this] at e2
      cases e2
    subst hb
    exact ⟨(pkA, r2), by simp only [seq, genOpt, e1, e2, e3, if_true, Option.bind_some, Option.map_some]⟩
  · rintro ⟨⟨pkA, r2⟩, he⟩
    simp only [seq] at he
    obtain ⟨⟨sk, r0⟩, e1, he⟩ := Option.bind_eq_some_iff.mp he
    obtain ⟨⟨x, r1⟩, e2, e3⟩ := Option.bind_eq_some_iff.mp he
    obtain ⟨⟨ss, ok, r⟩, e4, e5⟩ := Option.map_eq_some_iff.mp e2
    cases e5
    obtain ⟨h', e6, -⟩ := hash_new hP ss (derive_len (by simp) e4)
    rw [genOpt] at e1
    by_cases hc : (generatePrivateKey rng).2.2 = true
    · rw [if_pos hc] at e1
      obtain ⟨rfl, rfl⟩ := Prod.mk.injEq _ _ _ _ ▸ Option.some.inj e1
      exact ⟨_, (enc_iff hP hh pk hpt _ _).mpr ⟨_, _, _, ss, ok, _, pkA, r2, h', rfl, e4, e3, e6, rfl, rfl⟩⟩
    · rw [if_neg hc] at e1
      cases e1

/-- C102. `Enc` reads on average at most 79 + 3/2 + 2 · 4 · (370 + 2) blocks, and whatever it has read there are bytes with which it returns
a ciphertext: for every message and every public key that can be made. -/
theorem c102_enc {P : Plat} (hP : Supported P) {h : State} (hh : SameParams newShake128 h) {l : List PrivateKey} {pk : PublicKey} (m : Made l pk) {pt : List Byte} (hpt : pt.length = 16) :
    MeanBlocks (fun rng => PKE.enc P ⟨some rng, some h⟩ pk pt) (79 + (3 / 2 + 4 * (370 + 2)) + 4 * (370 + 2)) ∧
      ∀ pre, ∃ ext c ct, PKE.enc P ⟨some (pre ++ ext), some h⟩ pk pt = some (c, ct) := by
  have e := enc_none hP hh m hpt
  have hd : ∀ (out : List Byte) (sk : PrivateKey) (l : List Byte), (deriveSecret out pk sk l).map (fun x => ((x.1, x.2.1), x.2.2)) = none ↔ deriveSecret out pk sk l = none := fun _ _ _ => Option.map_eq_none_iff
  have live : ∀ {sk : PrivateKey}, (∀ pre, ∃ ext, seq (fun l => (deriveSecret (List.replicate 64 0) pk sk l).map fun x => ((x.1, x.2.1), x.2.2)) (fun _ => generatePublicKey sk) (pre ++ ext) ≠ none) := by
    intro sk
    refine seq_live (derive_reader _ _ _) ?_ ?_
    · intro pre
      obtain ⟨ext, ss, rest, h⟩ := (c102_derive m sk (List.replicate 64 0)).2 pre
      exact ⟨ext, by rw [h]; simp⟩
    · intro _ _ _ _ pre
      obtain ⟨ext, pk', rest, h⟩ := (c102_public sk).2 pre
      exact ⟨ext, by rw [h]; simp⟩
  constructor
  · intro n
    have key := seq_sum (g := fun sk => seq (fun l => (deriveSecret (List.replicate 64 0) pk sk l).map fun x => ((x.1, x.2.1), x.2.2)) fun _ => generatePublicKey sk)
      (c := (3 / 2 + 4 * (370 + 2)) + 4 * (370 + 2)) (by norm_num) n genOpt gen_reader (by
        intro l' sk r hsk k
        have hi : (isogenies sk : ℚ) ≤ 370 := by exact_mod_cast gen_isogenies hsk
        refine le_trans (seq_sum (g := fun _ => generatePublicKey sk) (c := 4 * (370 + 2)) (by norm_num) k _ (derive_reader _ _ _) ?_) ?_
        · intro _ _ _ _ k
          exact le_trans ((c102_public sk).1 k) (by linarith)
        · refine add_le_add ?_ le_rfl
          simp only [hd]
          exact le_trans ((c102_derive m sk _).1 k) (by linarith))
    have h1 := gen_mean.1 n
    refine le_trans (le_of_eq ?_) (le_trans key (by linarith))
    refine sum_congr rfl fun k _ => ?_
    rw [unfinished, Lemmas.BlockExpect.frac]
    simp only [e]
  · intro pre
    obtain ⟨ext, h⟩ := seq_live gen_reader gen_mean.2 (fun _ sk _ _ => live (sk := sk)) pre
    have h := mt (e _).mp h
    obtain ⟨⟨c, ct⟩, h⟩ := Option.ne_none_iff_exists'.mp h
    exact ⟨ext, c, ct, h⟩

/-- C102. `Dec` reads on average at most 3/2 + 4 (n + 2) blocks on a ciphertext made by `Enc`, and whatever it has read there are bytes with
which it returns a message. -/
theorem c102_dec {P : Plat} (hP : Supported P) {hE h : State} (hhE : SameParams newShake128 hE) (hh : SameParams newShake128 h) (pk : PublicKey) {pt rngE : List Byte} (hpt : pt.length = 16)
    (c : PKE) (ct : Ciphertext) (he : PKE.enc P ⟨some rngE, some hE⟩ pk pt = some (c, ct)) (sk : PrivateKey) :
    MeanBlocks (fun rng => PKE.dec P ⟨some rng, some h⟩ sk ct) (3 / 2 + 4 * (isogenies sk + 2)) ∧ ∀ pre, ∃ ext c' pt', PKE.dec P ⟨some (pre ++ ext), some h⟩ sk ct = some (c', pt') := by
  obtain ⟨skA, r0, b, ss, b', r1, pkA, r2, h', e1, e2, e3, e4, -, rfl⟩ := (enc_iff hP hhE pk hpt c ct).mp he
  have hz : (List.zipWith (· ^^^ ·) pt (H ss 0)).length = 16 := by rw [List.length_zipWith, H_length, hpt]; rfl
  have hd := fun rng => dec_iff (P := P) hP (rng := rng) (h := h) hh sk (ct := ⟨leBytes 64 (val pkA.a), List.zipWith (· ^^^ ·) pt (H ss 0) ++ List.replicate 48 0⟩) (pk := pkA) (orbit_len (orbit_gen e3)) rfl (by simp [hz])
  have m : Made [skA] pkA := .gen e3
  have e : ∀ l, PKE.dec P ⟨some l, some h⟩ sk ⟨leBytes 64 (val pkA.a), List.zipWith (· ^^^ ·) pt (H ss 0) ++ List.replicate 48 0⟩ = none ↔ deriveSecret (List.replicate 64 0) pkA sk l = none := by
    intro l
    rw [← not_iff_not, ← Ne, ← Ne, Option.ne_none_iff_exists', Option.ne_none_iff_exists']
    constructor
    · rintro ⟨⟨c', pt'⟩, h1⟩
      obtain ⟨ss', b'', r3, h'', f1, -⟩ := (hd _ c' pt').mp h1
      exact ⟨_, f1⟩
    · rintro ⟨⟨ss', ok, r⟩, h1⟩
      obtain ⟨h'', e6, -⟩ := hash_new hP ss' (derive_len (by simp) h1)
      exact ⟨_, (hd _ _ _).mpr ⟨ss', ok, r, h'', h1, e6, rfl, rfl⟩⟩
  constructor
  · intro n
    refine le_trans (le_of_eq ?_) ((c102_derive m sk (List.replicate 64 0)).1 n)
    refine sum_congr rfl fun k _ => ?_
    rw [unfinished, unfinished]
    simp only [e]
  · intro pre
    obtain ⟨ext, ss', rest, h1⟩ := (c102_derive m sk (List.replicate 64 0)).2 pre
    have : PKE.dec P ⟨some (pre ++ ext), some h⟩ sk ⟨leBytes 64 (val pkA.a), List.zipWith (· ^^^ ·) pt (H ss 0) ++ List.replicate 48 0⟩ ≠ none := by
      rw [Ne, e, h1]; simp
    obtain ⟨⟨c', pt'⟩, h2⟩ := Option.ne_none_iff_exists'.mp this
    exact ⟨ext, c', pt', h2⟩

/-- the secrets for a list of keys, as far as the random source is concerned -/
def readAll (sk : PrivateKey) : List PublicKey → List Byte → Option (Unit × List Byte)
  | [], l => some ((), l)
  | pk :: pks, l => seq (fun l => (deriveSecret (List.replicate 64 0) pk sk l).map fun x => ((x.1, x.2.1), x.2.2)) (fun _ => readAll sk pks) l

theorem readAll_reader (sk : PrivateKey) : ∀ pks : List PublicKey, Reader (readAll sk pks)
  | [] => const_reader ()
  | pk :: pks => by
    have := (derive_reader (List.replicate 64 0) pk sk).seq fun _ => readAll_reader sk pks
    exact this

theorem readAll_runs (sk : PrivateKey) : ∀ (pks : List PublicKey) (_ : ∀ pk ∈ pks, ∃ l, Made l pk) (l r : List Byte), readAll sk pks l = some ((), r) → ∃ ss, Runs sk pks l ss r
  | [], _, l, r, h => by cases h; exact ⟨[], .nil _⟩
  | pk :: pks, hm, l, r, h => by
    rw [readAll, seq] at h
    obtain ⟨⟨x, r1⟩, e2, e3⟩ := Option.bind_eq_some_iff.mp h
    obtain ⟨⟨ss, ok, r'⟩, e4, e5⟩ := Option.map_eq_some_iff.mp e2
    cases e5
    obtain ⟨l', m⟩ := hm pk List.mem_cons_self
    obtain rfl := c76_derive m sk _ _ _ _ _ e4
    obtain ⟨ss', h'⟩ := readAll_runs sk pks (fun pk h => hm pk (List.mem_cons_of_mem _ h)) _ _ e3
    exact ⟨_, .cons e4 h'⟩

theorem readAll_mean (sk : PrivateKey) : ∀ (pks : List PublicKey) (_ : ∀ pk ∈ pks, ∃ l, Made l pk),
    MeanBlocks (readAll sk pks) (pks.length * (3 / 2 + 4 * (isogenies sk + 2))) ∧ ∀ pre, ∃ ext, readAll sk pks (pre ++ ext) ≠ none
  | [], _ => ⟨fun n => by
      refine le_trans (le_of_eq (sum_eq_zero fun k _ => ?_)) (by rw [List.length_nil, Nat.cast_zero, zero_mul])
      rw [unfinished]
      haveI : IsEmpty {l : List Byte // l.length = 64 * k ∧ readAll sk [] l = none} := ⟨fun x => by have := x.2.2; cases this⟩
      rw [Nat.card_of_isEmpty, Nat.cast_zero, zero_div], fun pre => ⟨[], by rw [readAll]; exact Option.some_ne_none _⟩⟩
  | pk :: pks, hm => by
    obtain ⟨ih1, ih2⟩ := readAll_mean sk pks fun pk h => hm pk (List.mem_cons_of_mem _ h)
    obtain ⟨l', m⟩ := hm pk List.mem_cons_self
    have hd : ∀ (out : List Byte) (l : List Byte), (deriveSecret out pk sk l).map (fun x => ((x.1, x.2.1), x.2.2)) = none ↔ deriveSecret out pk sk l = none := fun _ _ => Option.map_eq_none_iff
    constructor
    · intro n
      have := seq_sum (g := fun _ => readAll sk pks) (c := pks.length * (3 / 2 + 4 * (isogenies sk + 2))) (by positivity) n _ (derive_reader (List.replicate 64 0) pk sk) (fun _ _ _ _ k => ih1 k)
      simp only [hd] at this
      refine le_trans this (le_trans (add_le_add ((c102_derive m sk _).1 n) le_rfl) (le_of_eq ?_))
      rw [List.length_cons]
      push_cast
      ring
    · refine seq_live (derive_reader _ _ _) ?_ (fun _ _ _ _ => ih2)
      intro pre
      obtain ⟨ext, ss, rest, h⟩ := (c102_derive m sk (List.replicate 64 0)).2 pre
      exact ⟨ext, by rw [h]; simp⟩

/-- C102. Multi-recipient `Encrypt` for n keys that can be made, on an object whose hash object is fresh, reads on average at most
79 + n (3/2 + 4 · 372) + 4 · 372 blocks, and whatever it has read there are bytes with which it returns. -/
theorem c102_multi {P : Plat} (hP : Supported P) (c : MultiPKE) (hh : c.pke.h = some newShake128) (h0 : c.ct0.length = 64) (keys : List PublicKey) (hk : keys.length ≤ c.cts.length)
    (hm : ∀ pk ∈ keys, ∃ l, Made l pk) {pt : List Byte} (hpt : pt.length = 16) :
    MeanBlocks (fun rng => MultiPKE.encrypt P {c with pke := {c.pke with rng := some rng}} keys pt) (79 + keys.length * (3 / 2 + 4 * (370 + 2)) + 4 * (370 + 2)) ∧
      ∀ pre, ∃ ext c', MultiPKE.encrypt P {c with pke := {c.pke with rng := some (pre ++ ext)}} keys pt = some c' := by
  have e : ∀ rng, seq genOpt (fun sk => seq (readAll sk keys) fun _ => generatePublicKey sk) rng ≠ none →
      ∃ c', MultiPKE.encrypt P {c with pke := {c.pke with rng := some rng}} keys pt = some c' := by
    intro rng hne
    obtain ⟨⟨pkA, r2⟩, he⟩ := Option.ne_none_iff_exists'.mp hne
    simp only [seq] at he
    obtain ⟨⟨sk, r0⟩, e1, he⟩ := Option.bind_eq_some_iff.mp he
    obtain ⟨⟨⟨⟩, r1⟩, e2, e3⟩ := Option.bind_eq_some_iff.mp he
    obtain ⟨ss, hs⟩ := readAll_runs sk keys hm _ _ e2
    rw [genOpt] at e1
    by_cases hc : (generatePrivateKey rng).2.2 = true
    · rw [if_pos hc] at e1
      obtain ⟨rfl, rfl⟩ := Prod.mk.injEq _ _ _ _ ▸ Option.some.inj e1
      obtain ⟨c', h1, -⟩ := Props.CsidhPke.c63_encrypt_partial hP {c with pke := {c.pke with rng := some rng}} rng rfl hh h0 keys hk pt hpt _ _ _ rfl ss r1 hs pkA r2 e3
      exact ⟨c', h1⟩
    · rw [if_neg hc] at e1
      cases e1
  constructor
  · intro n
    have key := seq_sum (g := fun sk => seq (readAll sk keys) fun _ => generatePublicKey sk)
      (c := keys.length * (3 / 2 + 4 * (370 + 2)) + 4 * (370 + 2)) (by positivity) n genOpt gen_reader (by
        intro l' sk r hsk k
        have hi : (isogenies sk : ℚ) ≤ 370 := by exact_mod_cast gen_isogenies hsk
        refine le_trans (seq_sum (g := fun _ => generatePublicKey sk) (c := 4 * (370 + 2)) (by norm_num) k _ (readAll_reader sk keys) ?_) ?_
        · intro _ _ _ _ k
          exact le_trans ((c102_public sk).1 k) (by linarith)
        · refine add_le_add (le_trans ((readAll_mean sk keys hm).1 k) ?_) le_rfl
          refine mul_le_mul_of_nonneg_left (by linarith) (by positivity))
    have h1 := gen_mean.1 n
    refine le_trans (sum_le_sum fun k _ => ?_) (le_trans key (by linarith))
    refine frac_mono (fun l hl => ?_) k
    by_contra hne
    obtain ⟨c', h⟩ := e l hne
    exact Option.some_ne_none _ (h.symm.trans hl)
  · intro pre
    obtain ⟨ext, h⟩ := seq_live gen_reader gen_mean.2 (g := fun sk => seq (readAll sk keys) fun _ => generatePublicKey sk) (fun _ sk _ _ => seq_live (readAll_reader sk keys) (readAll_mean sk keys hm).2 (by
      intro _ _ _ _ pre
      obtain ⟨ext, pk', rest, h⟩ := (c102_public sk).2 pre
      exact ⟨ext, by rw [h]; simp⟩)) pre
    exact ⟨ext, e _ h⟩

/-- The public keys of c102_validate and c102_derive: every private key has one. -/
theorem made_exists (sk : PrivateKey) : ∃ pk, Made [sk] pk := by
  obtain ⟨r, pk, r', h⟩ := (c102_public sk).2 []
  exact ⟨pk, .gen h⟩

/-- With the key `keyA` of one isogeny of degree 3: at most 12 blocks, or 768 bytes, on average. -/
example : isogenies keyA = 1 ∧ MeanBlocks (generatePublicKey keyA) 12 := by
  have h : isogenies keyA = 1 := by decide +kernel
  have := (c102_public keyA).1
  rw [h] at this
  refine ⟨h, ?_⟩
  have e : (4 * (((1 : ℕ) : ℚ) + 2)) = 12 := by norm_num
  rwa [e] at this

/-- A message for the second key of `case_agree`: 3056.5 blocks on average at most. -/
example {P : Plat} (hP : Supported P) : MeanBlocks (fun rng => PKE.enc P (PKE.allocate rng) ⟨Lemmas.CsidhRunAct.lit eB⟩ (List.replicate 16 1)) (6113 / 2) := by
  have := (c102_enc hP (h := newShake128) ⟨rfl, rfl, rfl⟩ (.gen (case_agree (List.replicate 64 0) (by simp) []).2.2.1) (pt := List.replicate 16 1) (by simp)).1
  have e : (79 + (3 / 2 + 4 * (370 + 2)) + 4 * (370 + 2) : ℚ) = 6113 / 2 := by norm_num
  rw [e] at this
  exact this

/-- The bound of the mean is not met by a call that never returns, nor by one that needs 13 blocks. -/
example : ¬ MeanBlocks (fun _ : List Byte => (none : Option Unit)) 12 := by
  intro h
  have := h 13
  rw [sum_congr rfl fun k _ => show unfinished (fun _ : List Byte => (none : Option Unit)) k = 1 from Lemmas.BlockExpect.frac_all (fun _ => rfl) k, sum_const, card_range] at this
  norm_num at this

end Props.CsidhLive
