import Verif.Props.SidhKeys
import Verif.Props.CsidhZero
import Verif.Props.Sike
import Verif.Props.DRBG
/-!
C122: what a call that reports failure leaves behind.
-/
namespace Props.Failures
open Model Spec Spec.Sidh Props.SidhFp2 Props.SidhKeys

/-! ### Calls that leave everything as it was -/

/-- C122. SIDH and SIKE keys: a refused `Import` leaves the key as it was. -/
theorem c122_sidh_import_partial (f : Fld) (v : W64) (k k' : Sidh.PrivateKey) (hk : PrivOf f v k) (p : Sidh.PublicKey) (input : List Byte) :
    (k.importKey input = some (k', false) → k' = k) ∧ (∀ p', p.importKey input = some (p', false) → p' = p) := by
  constructor
  · intro h
    obtain ⟨k2, ok, e1, -, -, e2⟩ := c34_accepts f v k hk input
    rw [e1] at h
    cases h
    exact e2 rfl
  · intro p' h
    rw [Sidh.PublicKey.importKey] at h
    split at h
    · cases h; rfl
    · simp only [Option.bind_eq_bind, Option.bind_eq_some_iff] at h
      obtain ⟨_, _, _, _, _, _, _, _, h⟩ := h
      simp at h

/-- C122. CSIDH keys: a refused `Import` leaves the key, and a refused `Export` the buffer, as it was. -/
theorem c122_csidh_import_partial (c c' : Csidh.PrivateKey) (k k' : Csidh.PublicKey) (b b' : List Byte) :
    (c.importKey b = some (c', false) → c' = c) ∧ (k.importKey b = (k', false) → k' = k) ∧
    (c.exportKey b = (b', false) → b' = b) ∧ (k.exportKey b = (b', false) → b' = b) := by
  refine ⟨fun h => ?_, fun h => ?_, fun h => ?_, fun h => ?_⟩
  · rw [Csidh.PrivateKey.importKey] at h
    split at h
    · cases h; rfl
    · split at h <;> simp at h
  · rw [Csidh.PublicKey.importKey] at h
    split at h
    · cases h; rfl
    · simp at h
  · rw [Csidh.PrivateKey.exportKey] at h
    split at h
    · cases h; rfl
    · simp at h
  · rw [Csidh.PublicKey.exportKey] at h
    split at h
    · cases h; rfl
    · simp at h

/-- C122. `Init` of a generator that is refused leaves the generator as it was. -/
theorem c122_drbg_partial (c c' : DRBG.CtrDrbg) (e p : List Byte) (h : DRBG.init c e p = some (c', false)) : c' = c := by
  rw [DRBG.init] at h
  split at h
  · cases h; rfl
  · simp only [Option.bind_eq_bind, Option.bind_eq_some_iff] at h
    obtain ⟨_, _, _, _, h⟩ := h
    simp at h

/-- C122. `Encapsulate` that returns an error has written neither to the ciphertext nor to the secret. -/
theorem c122_encaps_partial (P : Sha3.Plat) (hP : Sha3.Supported P) (f : Fld) (c c' : Sike.KEM) (hc : Props.Sike.KemOf f c) (pub : Sidh.PublicKey) (X Y Z : Fq f)
    (hpub : PubOf f Sidh.variantSike pub X Y Z) (ct s ct' s' : List Byte) (h : c.encapsulate P ct s pub = some (c', ct', s', false)) :
    ct' = ct ∧ s' = s := by
  have hn : ¬ (Sidh.variantSike ≠ Sidh.variantSike ∨ s.length < Props.Sike.msgLen f ∨ ct.length < Props.Sike.ctLen f) := by
    rw [← Props.Sike.c55_encaps_iff hP f c hc _ pub X Y Z hpub ct s, h]
    simp
  obtain ⟨h1, h2⟩ := Props.Sike.c55_encaps_returns hP f c hc pub X Y Z hpub ct s (by omega) (by omega)
  by_cases hr : c.rng.length < Props.Sike.msgLen f
  · obtain ⟨c2, e⟩ := h1 hr
    rw [e] at h
    cases h
    exact ⟨rfl, rfl⟩
  · obtain ⟨c2, a, b, e, -⟩ := h2 (by omega)
    rw [e] at h
    simp at h

/-! ### Calls that do not -/

/-- C122. `Generate` with a random source that fails after `rng`: those bytes have replaced the first bytes of the key, seed first and then
scalar; the others are those of the old key. -/
theorem c122_sidh_generate (f : Fld) (v : W64) (k : Sidh.PrivateKey) (hk : PrivOf f v k) (rng : List Byte)
    (h : rng.length < seedLen f v + byteLen f v) :
    ∃ k' rest, k.generate rng = some (k', rest, false) ∧ PrivOf f v k' ∧
      k'.S ++ k'.scalar = rng ++ (k.S ++ k.scalar).drop rng.length := by
  have hS : k.S.length = seedLen f v := hk.S
  have hs : k.scalar.length = byteLen f v := hk.scalar
  by_cases hv : v = 6
  · by_cases hr : seedLen f v ≤ rng.length
    · have e1 : goCopy k.S rng = rng.take (seedLen f v) := by
        rw [goCopy, hS, List.drop_eq_nil_of_le (by omega), List.append_nil]
      have e2 : goCopy k.scalar (rng.drop (seedLen f v)) = rng.drop (seedLen f v) ++ k.scalar.drop (rng.length - seedLen f v) := by
        rw [goCopy, List.take_of_length_le (by rw [List.length_drop]; omega), List.length_drop]
      refine ⟨⟨k.params, v, goCopy k.scalar (rng.drop (seedLen f v)), goCopy k.S rng⟩, (rng.drop (seedLen f v)).drop (byteLen f v), ?_, ⟨hk.params, rfl, ?_, ?_⟩, ?_⟩
      · rw [Sidh.PrivateKey.generate, hk.variant, if_pos (show v = Sidh.variantSike from hv)]
        simp only [Sidh.readFull, hS, hs]
        rw [if_neg (by simp; omega), if_pos (by simp; omega)]
      · change (goCopy k.scalar (rng.drop (seedLen f v))).length = byteLen f v
        rw [e2, List.length_append, List.length_drop, List.length_drop, hs]; omega
      · change (goCopy k.S rng).length = seedLen f v
        rw [e1, List.length_take]; omega
      · simp only
        rw [e1, e2, ← List.append_assoc, List.take_append_drop, List.drop_append, List.drop_eq_nil_of_le (as := k.S) (by omega), List.nil_append, hS]
    · have e1 : goCopy k.S rng = rng ++ k.S.drop rng.length := by
        rw [goCopy, List.take_of_length_le (by omega)]
      refine ⟨⟨k.params, v, k.scalar, goCopy k.S rng⟩, rng.drop (seedLen f v), ?_, ⟨hk.params, rfl, hk.scalar, ?_⟩, ?_⟩
      · rw [Sidh.PrivateKey.generate, hk.variant, if_pos (show v = Sidh.variantSike from hv)]
        simp only [Sidh.readFull, hS, hs]
        rw [if_pos (by simp; omega)]
      · change (goCopy k.S rng).length = seedLen f v
        rw [e1, List.length_append, List.length_drop, hS]; omega
      · simp only
        rw [e1, List.append_assoc, List.drop_append_of_le_length (by omega)]
  · have h0 : seedLen f v = 0 := if_neg hv
    have hn : k.S = [] := List.length_eq_zero_iff.mp (by omega)
    have e2 : goCopy k.scalar rng = rng ++ k.scalar.drop rng.length := by
      rw [goCopy, List.take_of_length_le (by omega)]
    refine ⟨⟨k.params, v, goCopy k.scalar rng, k.S⟩, rng.drop (byteLen f v), ?_, ⟨hk.params, rfl, ?_, hk.S⟩, ?_⟩
    · rw [Sidh.PrivateKey.generate, hk.variant, if_neg (show ¬ v = Sidh.variantSike from hv)]
      simp only [Sidh.readFull, hS, hs, Bool.not_true, Bool.false_eq_true, if_false]
      rw [if_pos (by simp; omega)]
    · change (goCopy k.scalar rng).length = byteLen f v
      rw [e2, List.length_append, List.length_drop, hs]; omega
    · simp only
      rw [e2, hn]; rfl

/-- C122 is false for `Generate`: for every field and variant there are a key and a failing source such that the key is another one
afterwards. -/
theorem c122_sidh_false (f : Fld) (v : W64) : ∃ (k k' : Sidh.PrivateKey) (rng rest : List Byte), Sidh.newPrivateKey (idOf f) v = some k ∧
    k.generate rng = some (k', rest, false) ∧ k' ≠ k := by
  obtain ⟨k, e, hk⟩ := c34_new f v
  have hb := (lens f v).1
  have hb2 : 1 < byteLen f v := by unfold byteLen; cases f <;> cases v.getLsbD 0 <;> decide +kernel
  obtain ⟨k', rest, e1, -, e2⟩ := c122_sidh_generate f v k hk [1] (by simp; omega)
  refine ⟨k, k', [1], rest, e, e1, fun h => ?_⟩
  rw [h] at e2
  rw [Sidh.newPrivateKey, (c33_std 0).2.1] at e
  cases e
  have h3 : (1 : Byte) ∈ (if v = Sidh.variantSike then List.replicate (paramsOf f).msgLen (0 : Byte) else []) ++
      List.replicate (if Sidh.isA v then (paramsOf f).A.secretByteLen else (paramsOf f).B.secretByteLen) (0 : Byte) := by
    simp only at e2
    rw [e2]
    simp
  rw [List.mem_append] at h3
  rcases h3 with h3 | h3
  · split at h3
    · exact absurd (List.mem_replicate.mp h3).2 (by decide)
    · simp at h3
  · exact absurd (List.mem_replicate.mp h3).2 (by decide)

/-- C122 is false for `GeneratePrivateKey` of CSIDH: if the random source fails within the first 64 bytes, whatever key was there is replaced by
the zero key. -/
theorem c122_csidh_false (rng : List Byte) (h : rng.length < 64) : Csidh.generatePrivateKey rng = (Csidh.PrivateKey.zero, [], false) := by
  rw [Csidh.generatePrivateKey, Csidh.genLoop, if_pos (by decide), if_pos h]
  rfl

/-- C122. With the key left by such a failure `DeriveSecret` returns the other party's public key. -/
theorem c122_csidh_public (rng : List Byte) (h : rng.length < 64) (out : List Byte) (ho : out.length = 64) (pub : Csidh.PublicKey) (hl : pub.a.length = 8)
    (r out' rest : List Byte) (hd : Csidh.deriveSecret out pub (Csidh.generatePrivateKey rng).1 r = some (out', true, rest)) :
    out' = leBytes 64 (val pub.a) := by
  rw [c122_csidh_false rng h] at hd
  exact Props.CsidhZero.c74_derive out ho pub hl _ rfl r out' rest hd

/-- Hypotheses met: a key with a seed; a source of 20 bytes, of which 16 go to the seed. -/
example : ∃ k' rest, (⟨paramsOf .p434, 6, List.replicate 28 7, List.replicate 16 9⟩ : Sidh.PrivateKey).generate (List.replicate 20 1) = some (k', rest, false) ∧
    k'.S = List.replicate 16 1 ∧ k'.scalar = List.replicate 4 1 ++ List.replicate 24 7 := by
  obtain ⟨k', rest, e1, e2, e3⟩ := c122_sidh_generate .p434 6 ⟨paramsOf .p434, 6, List.replicate 28 7, List.replicate 16 9⟩ ⟨rfl, rfl, by decide, by decide⟩
    (List.replicate 20 1) (by decide)
  have hS : k'.S.length = 16 := e2.S
  have h1 := congrArg (List.take 16) e3
  have h2 := congrArg (List.drop 16) e3
  rw [List.take_left' hS] at h1
  rw [List.drop_left' hS] at h2
  exact ⟨k', rest, e1, h1, h2⟩
example : ∃ c c' : DRBG.CtrDrbg, DRBG.init c [1] [] = some (c', false) :=
  ⟨{ DRBG.new true with strength := 256 }, _, Lemmas.DRBG.init_refused _ _ _ (by decide)⟩
example : ∃ (c c' : Csidh.PrivateKey), c.importKey [1, 2, 3] = some (c', false) := ⟨Csidh.PrivateKey.zero, Csidh.PrivateKey.zero, rfl⟩

end Props.Failures
