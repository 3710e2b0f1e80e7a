import Verif.Lemmas.CsidhPke
import Verif.Props.CsidhZero
/-
C62, C63: the public-key encryption of kem/mkem/csidh.go.
-/
namespace Props.CsidhPke
open Model Model.Csidh Model.Sha3 Model.CsidhPke Spec Spec.Csidh Lemmas.Sha3 Lemmas.CsidhPke Lemmas.CsidhField Lemmas.CsidhRun Lemmas.CsidhKeys

/-- bitwise exclusive or of two strings -/
def xor (a b : List Byte) : List Byte := List.zipWith (· ^^^ ·) a b

/-- A key that `Validate` refuses, whatever is drawn: not a number below p, or 2, or -2 -/
def Refused (pk : PublicKey) : Prop := pk.a.length = 8 ∧ (Spec.Csidh.p ≤ val pk.a ∨ IsElt pk.a 2 ∨ IsElt pk.a (-2))

/-! ### The zero key, from zero random bytes -/

theorem gen_zero (rest : List Byte) : generatePrivateKey (List.replicate 64 0 ++ (List.replicate 64 0 ++ rest)) = (⟨List.replicate 37 0⟩, rest, true) := by
  have f1 : fillKey (List.replicate 64 0) 0 (List.replicate 37 0) = (64, List.replicate 37 0) := by decide +kernel
  have f2 : fillKey (List.replicate 64 0) 64 (List.replicate 37 0) = (74, List.replicate 37 0) := by decide +kernel
  rw [generatePrivateKey, genLoop, if_pos (by omega), if_neg (by simp), List.take_left' (by simp), f1]
  simp only
  rw [List.drop_left' (by simp), genLoop, if_pos (by omega), if_neg (by simp), List.take_left' (by simp), f2]
  simp only
  rw [List.drop_left' (by simp), genLoop, if_neg (by omega)]

theorem public_zero (rest : List Byte) : generatePublicKey ⟨List.replicate 37 0⟩ (fpBytes one ++ (fpBytes four ++ rest)) = some (⟨List.replicate 8 0⟩, rest) := by
  rw [generatePublicKey, show fp0 = (PublicKey.mk (List.replicate 8 0)).a from rfl, Props.CsidhZero.action_zero]
  rfl

/-! ### C62 -/

/-- The constant keystream: 16 bytes of SHAKE128 of 64 zero bytes -/
def constant : List Byte := Spec.Keccak.shake128 (List.replicate 64 0) 16

/-- C62 is false. The ciphertext for a refused key is the message masked with a constant, and so gives the message away: for
every object, key, message and random source for which `Enc` does not panic. -/
theorem c62_false {P : Plat} (hP : Supported P) (rng : List Byte) (h : State) (hh : SameParams newShake128 h) (pk : PublicKey) (hpk : Refused pk) (pt : List Byte)
    (hpt : pt.length = 16) (c : PKE) (ct : Ciphertext) (he : PKE.enc P ⟨some rng, some h⟩ pk pt = some (c, ct)) : pt = xor (ct.V.take 16) constant := by
  obtain ⟨skA, r0, b, ss, b', r1, pkA, r2, h', e1, e2, e3, e4, -, rfl⟩ := (enc_iff hP hh pk hpt c ct).mp he
  rw [(Props.CsidhKeys.c68_rejects pk hpk.1 hpk.2 skA _ r0).2] at e2
  cases e2
  have hl : (List.zipWith (· ^^^ ·) pt (H (List.replicate 64 0) 0)).length = 16 := by rw [List.length_zipWith, H_length, hpt]; rfl
  simp only
  rw [List.take_left' hl]
  exact (xor_cancel pt _ (by rw [H_length, hpt])).symm

/-- It does not panic: the key 2. -/
theorem c62_runs {P : Plat} (hP : Supported P) (pt : List Byte) (hpt : pt.length = 16) : Refused ⟨two⟩ ∧ ∃ c ct,
    PKE.enc P (PKE.allocate (List.replicate 64 0 ++ (List.replicate 64 0 ++ (fpBytes one ++ (fpBytes four ++ []))))) ⟨two⟩ pt = some (c, ct) := by
  have hr : Refused ⟨two⟩ := ⟨rfl, Or.inr (Or.inl two_elt)⟩
  obtain ⟨h', e1, -⟩ := hash_new hP (List.replicate 64 0) (by simp)
  exact ⟨hr, _, _, (enc_iff hP ⟨rfl, rfl, rfl⟩ _ hpt _ _).mpr ⟨_, _, _, _, _, _, _, _, _, gen_zero _,
    (Props.CsidhKeys.c68_rejects _ hr.1 hr.2 _ _ _).2, public_zero _, e1, rfl, rfl⟩⟩

/-- The same holds for the first recipient of `Encrypt`. -/
theorem c62_multi_false {P : Plat} (hP : Supported P) (c c' : MultiPKE) (hh : c.pke.h = some newShake128) (pk : PublicKey) (hpk : Refused pk)
    (keys : List PublicKey) (pt : List Byte) (hpt : pt.length = 16) (he : c.encrypt P (pk :: keys) pt = some c') :
    pt = xor ((c'.cts.getD 0 []).take 16) constant := by
  rw [MultiPKE.encrypt, hh] at he
  simp only [Option.bind_eq_bind, Option.bind_eq_some_iff, Prod.exists] at he
  obtain ⟨rng, -, r1, h1, cts, hl, pkA, r2, -, e⟩ := he
  rw [encryptLoop, (Props.CsidhKeys.c68_rejects pk hpk.1 hpk.2 _ _ _).2] at hl
  obtain ⟨h', e1, e2, -⟩ := hash_new hP (List.replicate 64 0) (by simp)
  simp only [Option.bind_eq_bind, Option.bind_some, e1] at hl
  split at hl
  · simp at hl
  · next hlen =>
    have := loop_keeps _ _ _ _ _ _ _ _ _ _ _ hl 0 (by omega)
    cases e
    simp only
    rw [this, List.getD_eq_getElem?_getD, List.getElem?_set_self (by omega), Option.getD_some,
      mask_eq _ pt _ hpt (H (List.replicate 64 0) 0) _ (H_length _ _) rfl,
      List.take_left' (by rw [List.length_zipWith, H_length, hpt]; rfl)]
    exact (xor_cancel pt _ (by rw [H_length, hpt])).symm

/-- C62 (partial). If the key is accepted, the mask is SHAKE128 of the shared secret.

Missing: keys that are refused, see c62_false. -/
theorem c62_mask_partial {P : Plat} (hP : Supported P) (rng : List Byte) (h : State) (hh : SameParams newShake128 h) (pk : PublicKey) (pt : List Byte)
    (hpt : pt.length = 16) (c : PKE) (ct : Ciphertext) (he : PKE.enc P ⟨some rng, some h⟩ pk pt = some (c, ct)) :
    ∃ skA r0 b ss b' r1, generatePrivateKey rng = (skA, r0, b) ∧ deriveSecret (List.replicate 64 0) pk skA r0 = some (ss, b', r1) ∧
      ct.V = xor pt (Spec.Keccak.shake128 ss 16) ++ List.replicate 48 0 := by
  obtain ⟨skA, r0, b, ss, b', r1, pkA, r2, h', e1, e2, e3, e4, -, rfl⟩ := (enc_iff hP hh pk hpt c ct).mp he
  exact ⟨skA, r0, b, ss, b', r1, e1, e2, rfl⟩

/-! ### C63 -/

/-- C63 (partial). `Encrypt` on an object whose hash object is fresh, all keys being accepted: each recipient's message is
masked with SHAKE128 of that recipient's shared secret, the ephemeral public key is stored, and the hash object is fresh again.

Missing: objects that have been used by `PKE.Enc` or `PKE.Dec`, for which it fails: see c63_false. -/
theorem c63_encrypt_partial {P : Plat} (hP : Supported P) (c : MultiPKE) (rng : List Byte) (hr : c.pke.rng = some rng) (hh : c.pke.h = some newShake128)
    (h0 : c.ct0.length = 64) (keys : List PublicKey) (hk : keys.length ≤ c.cts.length) (pt : List Byte) (hpt : pt.length = 16) (skA : PrivateKey) (r0 : List Byte)
    (b : Bool) (hg : generatePrivateKey rng = (skA, r0, b)) (ss : List (List Byte)) (r1 : List Byte) (hs : Runs skA keys r0 ss r1) (pkA : PublicKey) (r2 : List Byte)
    (hp : generatePublicKey skA r1 = some (pkA, r2)) :
    ∃ c', c.encrypt P keys pt = some c' ∧ c'.pke = ⟨some r2, some newShake128⟩ ∧ c'.ct0 = leBytes 64 (val pkA.a) ∧ c'.cts.length = c.cts.length ∧
      (∀ j s, ss[j]? = some s → c'.cts.getD j [] = xor pt (Spec.Keccak.shake128 s 16) ++ (c.cts.getD j []).drop 16) ∧
      ∀ j, keys.length ≤ j → c'.cts.getD j [] = c.cts.getD j [] := by
  obtain ⟨cts', f1, f2, f3, f4⟩ := loop_runs hP skA hpt hs 0 (List.replicate 64 0) c.cts (by simp) (by omega)
  have hl : ss.length = keys.length := by
    clear f1 f2 f3 f4 hk hp hg
    induction hs with
    | nil => rfl
    | cons _ _ ih => simp [ih]
  refine ⟨⟨⟨some r2, some newShake128⟩, leBytes 64 (val pkA.a), cts'⟩, ?_, rfl, rfl, f2, ?_, ?_⟩
  · rw [MultiPKE.encrypt, hr, hh]
    simp only [Option.bind_eq_bind, Option.bind_some, hg, f1, hp]
    rw [PublicKey.exportKey, if_neg (by omega), fpBytes_eq]
  · intro j s hj
    have := f4 j s hj
    rw [Nat.zero_add] at this
    exact this
  · intro j hj
    exact f3 j (Or.inl (by omega))

/-- the random bytes of one encryption with the zero key -/
def draws (rest : List Byte) : List Byte :=
  List.replicate 64 0 ++ (List.replicate 64 0 ++ (fpBytes four ++ (fpBytes one ++ (fpBytes four ++ (fpBytes one ++ (fpBytes four ++ rest))))))

/-- A new object meets the hypotheses, and still does after `Encrypt`. -/
theorem c63_example {P : Plat} (hP : Supported P) (pt : List Byte) (hpt : pt.length = 16) (rest : List Byte) :
    ∃ c', (MultiPKE.zero.allocate 1 (draws rest)).encrypt P [⟨List.replicate 8 0⟩] pt = some c' ∧ c'.pke = ⟨some rest, some newShake128⟩ ∧
      c'.cts.getD 0 [] = xor pt constant ++ List.replicate 48 0 := by
  obtain ⟨c', e1, e2, e3, e4, e5, e6⟩ := c63_encrypt_partial hP (MultiPKE.zero.allocate 1 (draws rest)) _ rfl rfl rfl [⟨List.replicate 8 0⟩] (Nat.le_refl 1) pt hpt _ _ _
    (gen_zero _) _ _ (.cons (Props.CsidhZero.derive_zero _ _ (by simp)) (.nil _)) _ _ (public_zero rest)
  exact ⟨c', e1, e2, e5 0 _ rfl⟩

theorem split32 (x : List Byte) : Spec.Keccak.shake128 x 32 = H x 0 ++ H x 16 := spongeBytes_append _ _ _ _ 0 16 16

theorem keystream : H (List.replicate 64 0) 16 ≠ H (List.replicate 64 0) 0 := by
  intro h
  have h2 := split32 (List.replicate 64 0)
  have h1 : H (List.replicate 64 0) 0 = Spec.Keccak.spongeBytes Spec.Keccak.keccakF 168 0x1f (List.replicate 64 0) 0 16 := rfl
  rw [h, h1, Spec.Keccak.shake128, sponge_eval (by simp [IsRate]) _ _ _ (by decide), sponge_eval (by simp [IsRate]) _ _ _ (by decide)] at h2
  exact absurd h2 (by decide +kernel)

/-- C63 is false. After `PKE.Enc` on the same object `Encrypt` masks the first message with other bytes than SHAKE128 of the shared
secret: what is written into the hash object is refused, and its output goes on where it had stopped. -/
theorem c63_false {P : Plat} (hP : Supported P) (pt : List Byte) (hpt : pt.length = 16) (rest : List Byte) :
    ∃ (c : PKE) (ct : Ciphertext) (c' : MultiPKE), PKE.enc P (MultiPKE.zero.allocate 1 (draws (draws rest))).pke ⟨List.replicate 8 0⟩ pt = some (c, ct) ∧
      c.rng = some (draws rest) ∧
      MultiPKE.encrypt P {MultiPKE.zero.allocate 1 (draws (draws rest)) with pke := c} [⟨List.replicate 8 0⟩] pt = some c' ∧
      c'.cts.getD 0 [] = xor pt ((Spec.Keccak.shake128 (List.replicate 64 0) 32).drop 16) ++ List.replicate 48 0 ∧
      c'.cts.getD 0 [] ≠ xor pt constant ++ List.replicate 48 0 := by
  obtain ⟨h', e1, e2, e3⟩ := hash_new hP (List.replicate 64 0) (by simp)
  obtain ⟨h2, g1, g2⟩ := hash_used hP e3 e2 (List.replicate 64 0) (by simp)
  have he := (enc_iff hP (rng := draws (draws rest)) (h := newShake128) ⟨rfl, rfl, rfl⟩ ⟨List.replicate 8 0⟩ hpt _ _).mpr ⟨_, _, _, _, _, _, _, _, _, gen_zero _,
    Props.CsidhZero.derive_zero _ _ (by simp), public_zero _, e1, rfl, rfl⟩
  have hm := mask_eq (List.replicate 64 0) pt _ hpt (H (List.replicate 64 0) 16) ((List.replicate 64 0).drop 16) (H_length _ _) rfl
  have h32 : (Spec.Keccak.shake128 (List.replicate 64 0) 32).drop 16 = H (List.replicate 64 0) 16 := by
    rw [split32, List.drop_left' (H_length _ _)]
  have hne : xor pt (H (List.replicate 64 0) 16) ≠ xor pt (H (List.replicate 64 0) 0) := by
    intro h
    have x1 := xor_cancel (H (List.replicate 64 0) 16) pt (by rw [H_length, hpt])
    have x2 := xor_cancel (H (List.replicate 64 0) 0) pt (by rw [H_length, hpt])
    have comm : ∀ a b : List Byte, List.zipWith (· ^^^ ·) a b = List.zipWith (· ^^^ ·) b a := fun a b => List.zipWith_comm_of_comm (fun x y => BitVec.xor_comm x y)
    rw [comm (H _ _) pt] at x1 x2
    exact keystream (x1.symm.trans ((congrArg (fun l => List.zipWith (· ^^^ ·) l pt) h).trans x2))
  refine ⟨_, _, ⟨⟨some rest, some newShake128⟩, fpBytes (List.replicate 8 0), [xor pt (H (List.replicate 64 0) 16) ++ List.replicate 48 0]⟩, he, rfl, ?_, ?_, ?_⟩
  · rw [MultiPKE.encrypt]
    simp only [Option.bind_eq_bind, Option.bind_some, draws, gen_zero]
    rw [encryptLoop, Props.CsidhZero.derive_zero _ _ (by simp)]
    simp only [Option.bind_eq_bind, Option.bind_some, g1, shake_new g2]
    rw [if_neg (by simp [MultiPKE.allocate])]
    simp only [encryptLoop, Option.bind_some, public_zero]
    have : (MultiPKE.zero.allocate 1 (draws (draws rest))).cts = [List.replicate 64 0] := rfl
    simp only [MultiPKE.allocate, List.replicate_one, List.set_cons_zero, List.getD_cons_zero]
    rw [hm]
    rfl
  · rw [h32]; rfl
  · show xor pt _ ++ _ ≠ _
    intro h
    exact hne (List.append_cancel_right h)

end Props.CsidhPke
