import Verif.Lemmas.CsidhTwist
import Verif.Props.CsidhLive
/-
C104 and C105: only the sums of the exponents count in the CSIDH key exchange, so that a private key can be undone by the opposite
one; and the opposite private key has the opposite public key.
-/
namespace Props.CsidhCancel
open Model Model.Limb Model.Csidh Spec Spec.Csidh Lemmas.CsidhField Lemmas.CsidhNat Lemmas.CsidhKeys Lemmas.CsidhMade Props.CsidhAgree Props.CsidhLive Lemmas.CsidhRunKeys Lemmas.CsidhRunAct
open Lemmas.CsidhPke (derive_len)

/-- The sum of the exponents of the i-th prime in some private keys. -/
def exponents (l : List PrivateKey) (i : Nat) : Int := (l.map fun sk => exponent sk.e i).sum

/-- The exponents of the second key are those of the first with the opposite sign. -/
def Opposite (sk sk' : PrivateKey) : Prop := ∀ i < 74, exponent sk'.e i = -exponent sk.e i

/-- C104. A public key made by any number of parties depends only on the sum of the exponents of each prime: positive and negative
exponents cancel. -/
theorem c104_exponents {l l' : List PrivateKey} {pk pk' : PublicKey} (m : Made l pk) (m' : Made l' pk') (h : ∀ i < 74, exponents l i = exponents l' i) : pk = pk' :=
  Lemmas.CsidhCancel.orbit_net (made_orbit m) (made_orbit m') h

/-- C104. In particular private keys that encode the same differences in two ways are interchangeable, and the keys whose exponents are
all 0 on balance lead to the starting curve, the public key with the number 0. -/
theorem c104_start {l : List PrivateKey} {pk : PublicKey} (m : Made l pk) (h : ∀ i < 74, exponents l i = 0) : pk = ⟨fp0⟩ :=
  Lemmas.CsidhCancel.orbit_net (made_orbit m) orbit_start h

theorem export_eq (pk : PublicKey) {buf : List Byte} (hb : buf.length = 64) : (pk.exportKey buf).1 = leBytes 64 (val pk.a) := by
  rw [PublicKey.exportKey, if_neg (by omega), fpBytes_eq]

/-- C104. The opposite private key undoes a private key: when `DeriveSecret` is called with a private key, and again with the opposite
one on the result, imported as a public key, it returns the public key that one began with. -/
theorem c104_undo {l : List PrivateKey} {pk : PublicKey} (m : Made l pk) {sk sk' : PrivateKey} (ho : Opposite sk sk') (out out1 out' out1' buf rng rng' rest rest' : List Byte) (ok ok' : Bool)
    (hl : out.length = 64) (hl' : out'.length = 64) (hb : buf.length = 64) (h : deriveSecret out pk sk rng = some (out1, ok, rest))
    (h' : deriveSecret out' (PublicKey.zero.importKey out1).1 sk' rng' = some (out1', ok', rest')) : out1' = (pk.exportKey buf).1 := by
  have m1 : Made (sk :: l) (PublicKey.zero.importKey out1).1 := .derive m hl h
  have m2 : Made (sk' :: sk :: l) (PublicKey.zero.importKey out1').1 := .derive m1 hl' h'
  have e := c104_exponents m2 m fun i hi => by
    simp only [exponents, List.map_cons, List.sum_cons]
    rw [ho i hi]; omega
  have hlen := orbit_len (made_orbit m)
  refine import_inj (derive_len hl' h') ?_ ?_
  · rw [PublicKey.exportKey, if_neg (by omega), fpBytes_eq, Lemmas.SidhBytes.leBytes_length]
  · rw [e, import_export hlen hb]

/-- the two halves of a byte with the opposite sign -/
def negByte (b : Byte) : Byte := BitVec.ofNat 8 ((16 - b.toNat % 16) % 16 + 16 * ((16 - b.toNat / 16) % 16))

theorem negByte_nibble : ∀ (b : Byte) (r : Fin 2), let n := b.toNat / 16 ^ (r : ℕ) % 16
    n ≠ 8 → (let n' := (negByte b).toNat / 16 ^ (r : ℕ) % 16; (if n' < 8 then (n' : ℤ) else n' - 16) = -(if n < 8 then (n : ℤ) else n - 16)) := by
  decide +kernel

theorem neg_nibble (e : List Byte) (k : ℕ) (h : nibble e k ≠ -8) : nibble (e.map negByte) k = -nibble e k := by
  have hg : (e.map negByte).getD (k / 2) 0 = negByte (e.getD (k / 2) 0) := by
    rw [List.getD_eq_getElem?_getD, List.getD_eq_getElem?_getD, List.getElem?_map]
    cases e[k / 2]? <;> rfl
  have := negByte_nibble (e.getD (k / 2) 0) ⟨k % 2, Nat.mod_lt _ (by decide)⟩
  simp only at this
  rw [nibble] at h ⊢
  rw [nibble, hg]
  refine this fun h8 => h ?_
  rw [h8]
  rfl

/-- C104. There is an opposite for every private key that `GeneratePrivateKey` returns, and for every other in which no exponent is
-8, the only 4-bit number without an opposite. -/
theorem c104_opposite (sk : PrivateKey) (h : ∀ i < 74, exponent sk.e i ≠ -8) : ∃ sk' : PrivateKey, sk'.e.length = sk.e.length ∧ Opposite sk sk' :=
  ⟨⟨sk.e.map negByte⟩, List.length_map .., fun i hi => neg_nibble _ _ (h i hi)⟩

/-- C104. So every generated private key has one. -/
theorem c104_generated (rng rest : List Byte) (sk : PrivateKey) (h : generatePrivateKey rng = (sk, rest, true)) : ∃ sk' : PrivateKey, sk'.e.length = 37 ∧ Opposite sk sk' := by
  obtain ⟨sk', h1, h2⟩ := c104_opposite sk fun i hi => by have := Props.CsidhKeys.c67_range rng sk rest h i hi; omega
  exact ⟨sk', by rw [h1, (Props.CsidhKeys.c67_generate rng sk rest h).1], h2⟩

/-- C105. When the exponents of each prime have opposite sums, the exported public keys are opposite numbers modulo p. -/
theorem c105_twist {l l' : List PrivateKey} {pk pk' : PublicKey} (m : Made l pk) (m' : Made l' pk') (h : ∀ i < 74, exponents l i = -exponents l' i) (buf buf' : List Byte)
    (hb : buf.length = 64) (hb' : buf'.length = 64) :
    bval (pk.exportKey buf).1 < Spec.Csidh.p ∧ bval (pk'.exportKey buf').1 = (Spec.Csidh.p - bval (pk.exportKey buf).1) % Spec.Csidh.p := by
  obtain ⟨a, h1, h2⟩ := Lemmas.CsidhTwist.orbit_neg (made_orbit m) (made_orbit m') h
  have e : ∀ {pk : PublicKey} {a : ZMod Spec.Csidh.p} {buf : List Byte}, IsElt pk.a a → buf.length = 64 → bval (pk.exportKey buf).1 = val pk.a := by
    intro pk a buf ha hb
    rw [PublicKey.exportKey, if_neg (by omega), fpBytes_eq, Lemmas.SidhBytes.bval_leBytes]
    refine Nat.mod_eq_of_lt (lt_trans ha.lt ?_)
    decide +kernel
  rw [e h1 hb, e h2 hb']
  refine ⟨h1.lt, ?_⟩
  have h3 : ((val pk.a + val pk'.a : ℕ) : ZMod Spec.Csidh.p) = 0 := by
    rw [Nat.cast_add, h1.val, h2.val]; ring
  have hd := (ZMod.natCast_eq_zero_iff _ _).mp h3
  have l1 := h1.lt
  have l2 := h2.lt
  generalize Spec.Csidh.p = q at hd l1 l2
  obtain ⟨c, hc⟩ := hd
  rcases Nat.eq_zero_or_pos (val pk.a) with h0 | h0
  · rw [h0] at hc ⊢
    rw [Nat.sub_zero, Nat.mod_self]
    rcases c with _ | c
    · omega
    · rw [Nat.mul_succ] at hc; omega
  · rw [Nat.mod_eq_of_lt (by omega)]
    rcases c with _ | _ | c
    · omega
    · omega
    · rw [Nat.mul_succ, Nat.mul_succ] at hc; omega

/-- C105. So everybody can compute the public key of the opposite of a private key that they do not know, and `Validate` never refuses
it. -/
theorem c105_public {sk sk' : PrivateKey} (ho : Opposite sk sk') (rng rng' rest rest' : List Byte) (pk pk' : PublicKey) (h : generatePublicKey sk rng = some (pk, rest))
    (h' : generatePublicKey sk' rng' = some (pk', rest')) (buf buf' : List Byte) (hb : buf.length = 64) (hb' : buf'.length = 64) :
    bval (pk'.exportKey buf').1 = (Spec.Csidh.p - bval (pk.exportKey buf).1) % Spec.Csidh.p :=
  (c105_twist (.gen h) (.gen h') (fun i hi => by simp only [exponents, List.map_cons, List.map_nil, List.sum_cons, List.sum_nil]; rw [ho i hi]; omega) buf buf' hb hb').2

/-! ### Cases -/

/-- The private key with the opposite of the exponent 1 of `keyA`. -/
example : Opposite keyA ⟨0xf0 :: List.replicate 36 0⟩ ∧ ¬ Opposite keyA keyA ∧ ¬ Opposite keyA keyB := by
  refine ⟨?_, ?_, ?_⟩
  · have : ∀ i < 74, exponent (0xf0 :: List.replicate 36 0) i = -exponent keyA.e i := by decide +kernel
    exact this
  · intro h; exact absurd (h 0 (by decide)) (by decide +kernel)
  · intro h; exact absurd (h 0 (by decide)) (by decide +kernel)

/-- The hypotheses of c104_undo are met, with a key that is not the starting curve, and the result is that key again. -/
example : ∃ out1 rng rng' rest rest', deriveSecret (List.replicate 64 0) ⟨lit eB⟩ keyA rng = some (out1, true, rest) ∧
    deriveSecret (List.replicate 64 0) (PublicKey.zero.importKey out1).1 ⟨0xf0 :: List.replicate 36 0⟩ rng' = some (leBytes 64 (val (lit eB)), true, rest') ∧ lit eB ≠ fp0 := by
  have hB : Made [keyB] ⟨lit eB⟩ := .gen (case_agree (List.replicate 64 0) (by simp) []).2.2.1
  obtain ⟨r1, ss, r1', h1⟩ := (c102_derive hB keyA (List.replicate 64 0)).2 []
  obtain ⟨r2, ss', r2', h2⟩ := (c102_derive (.derive hB (by simp) h1) ⟨0xf0 :: List.replicate 36 0⟩ (List.replicate 64 0)).2 []
  have hop : Opposite keyA ⟨0xf0 :: List.replicate 36 0⟩ := by
    have : ∀ i < 74, exponent (0xf0 :: List.replicate 36 0) i = -exponent keyA.e i := by decide +kernel
    exact this
  have := c104_undo hB hop _ _ _ _ (List.replicate 64 0) _ _ _ _ _ _ (by simp) (by simp) (by simp) h1 h2
  rw [export_eq _ (by simp)] at this
  subst this
  exact ⟨_, _, _, _, _, h1, h2, by decide +kernel⟩

/-- The hypotheses of c105_public are met by keys whose public keys are not the number 0, which is its own opposite. -/
example : ∃ rng rest rng' rest' pk', generatePublicKey keyA rng = some (⟨lit eA⟩, rest) ∧ generatePublicKey ⟨0xf0 :: List.replicate 36 0⟩ rng' = some (pk', rest') ∧
    bval (pk'.exportKey (List.replicate 64 0)).1 = Spec.Csidh.p - val (lit eA) ∧ val (lit eA) ≠ 0 := by
  have hA := (case_agree (List.replicate 64 0) (by simp) []).2.1
  obtain ⟨r, pk', r', h⟩ := (c102_public ⟨0xf0 :: List.replicate 36 0⟩).2 []
  have hop : Opposite keyA ⟨0xf0 :: List.replicate 36 0⟩ := by
    have : ∀ i < 74, exponent (0xf0 :: List.replicate 36 0) i = -exponent keyA.e i := by decide +kernel
    exact this
  have := c105_public hop _ _ _ _ _ _ hA h (List.replicate 64 0) (List.replicate 64 0) (by simp) (by simp)
  have e : ∀ (a : Fp) (x : ℕ), val a < 256 ^ 64 → x = (Spec.Csidh.p - bval ((PublicKey.mk a).exportKey (List.replicate 64 0)).1) % Spec.Csidh.p →
      (Spec.Csidh.p - val a) % Spec.Csidh.p = Spec.Csidh.p - val a → x = Spec.Csidh.p - val a := by
    intro a x hv hx hm
    rw [export_eq ⟨a⟩ (buf := List.replicate 64 0) List.length_replicate, Lemmas.SidhBytes.bval_leBytes, Nat.mod_eq_of_lt hv] at hx
    rw [hx, hm]
  have h1 : val (lit eA) < 256 ^ 64 := by decide +kernel
  have h2 : (Spec.Csidh.p - val (lit eA)) % Spec.Csidh.p = Spec.Csidh.p - val (lit eA) := by decide +kernel
  have h3 : val (lit eA) ≠ 0 := by decide +kernel
  have h4 := e (lit eA) _ h1 this h2
  exact ⟨_, _, _, _, _, hA, h, h4, h3⟩

end Props.CsidhCancel
