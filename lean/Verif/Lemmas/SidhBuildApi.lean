import Verif.Lemmas.SidhBuild
/-
From the field operations to the functions of sidh.go, sike.go and mkem/sike.go.
-/
namespace Lemmas.SidhBuild
open Model Model.Limb Model.Sidh Spec Spec.Sidh Lemmas.SidhArith Lemmas.SidhGood Lemmas.SidhFp2 Lemmas.SidhNat Lemmas.SidhBytes
open Props.SidhKeys Props.SidhFp2

variable {B : Build} {f : Fld}

/-- A public key object of a field as the package makes it: of the registered parameters, with field elements in it. -/
structure Pub (f : Fld) (k : PublicKey) : Prop where
  params : k.params = paramsOf f
  p : V2 f k.pts.p
  q : V2 f k.pts.q
  r : V2 f k.pts.r

theorem v2_of {x : Fp2} {a : Fq f} (h : IsElt f x a) : V2 f x := ⟨⟨h.lenA, h.ltA⟩, ⟨h.lenB, h.ltB⟩⟩

/-- The constants of the parameters are field elements. -/
theorem params_rel (f : Fld) : RCParams (Same f) (paramsOf f).curve (paramsOf f).curve := by
  have h := Lemmas.SidhLimb.rcparams f
  exact ⟨⟨rfl, v2_of h.one⟩, ⟨rfl, v2_of h.half⟩, ⟨rfl, v2_of h.initA⟩, ⟨rfl, v2_of h.initC⟩, ⟨rfl, v2_of h.pA⟩, ⟨rfl, v2_of h.qA⟩, ⟨rfl, v2_of h.rA⟩,
    ⟨rfl, v2_of h.pB⟩, ⟨rfl, v2_of h.qB⟩, ⟨rfl, v2_of h.rB⟩, rfl, rfl, rfl, rfl⟩

theorem ropt_eq {α : Type} {r : α → α → Prop} (hr : ∀ a b, r a b → a = b) {x y : Option α} (h : ROpt r x y) : x = y := by
  cases h with
  | none => rfl
  | some h => rw [hr _ _ h]

theorem rtri_eq {s t : Tri Fp2} (h : RTri (Same f) s t) : s = t := by
  cases s; cases t
  obtain ⟨⟨h1, _⟩, ⟨h2, _⟩, ⟨h3, _⟩⟩ := h
  simp only at h1 h2 h3
  rw [h1, h2, h3]

theorem prime_of (f : Fld) : (paramsOf f).prime = primeOf f := (sizes f).2.2.2.1

theorem bind_congr' {α β : Type} {x : Option α} {g h : α → Option β} (hh : ∀ a, x = some a → g a = h a) : (x >>= g) = (x >>= h) := by
  cases x with
  | none => rfl
  | some a => exact hh a rfl

theorem zero_V2 (f : Fld) : V2 f (zeroFp2 f.words) := by
  have := (zero_V f).1
  rw [n_eq] at this
  exact ⟨this, this⟩

theorem pub_new {id : Byte} {v : W64} {k : PublicKey} (h : newPublicKey id v = some k) : ∃ f, id = idOf f ∧ Pub f k := by
  by_cases hid : ∃ f, id = idOf f
  · obtain ⟨f, rfl⟩ := hid
    refine ⟨f, rfl, ?_⟩
    rw [newPublicKey_eq, Option.some.injEq] at h
    subst h
    exact ⟨rfl, zero_V2 f, zero_V2 f, zero_V2 f⟩
  · exfalso
    rw [newPublicKey, (c33_std id).2.2 (fun f hf => hid ⟨f, hf⟩)] at h
    cases h

/-- A byte string read into a coordinate leaves the top bit clear. -/
theorem orBytes_top {w : List W64} {bs : List Byte} (lw : w.length = f.words) (vw : val w < 2 ^ (64 * f.words - 1)) (hb : bs.length ≤ fieldBytes f) :
    (orBytes w 0 bs).length = f.words ∧ val (orBytes w 0 bs) < 2 ^ (64 * f.words - 1) := by
  have h8 : fieldBytes f ≤ 8 * f.words ∧ 8 * fieldBytes f ≤ 64 * f.words - 1 := by cases f <;> decide
  refine ⟨by rw [orBytes_length, lw], ?_⟩
  rw [val_orBytes _ _ _ (by rw [lw]; omega), Nat.mul_zero, Nat.shiftLeft_zero]
  apply Nat.or_lt_two_pow vw
  refine lt_of_lt_of_le (bval_lt bs) ?_
  rw [show 256 = 2 ^ 8 by rfl, ← Nat.pow_mul]
  exact Nat.pow_le_pow_right (by decide) (by omega)

section
variable (h : Agrees (B (paramsOf f)) f)
include h

theorem import1_eq {x y : Fp2} (hx : V2 f x) {bs : List Byte} (hy : bytesToFp2 x bs (fieldBytes f) = some y) :
    (B (paramsOf f)).toMontgomery (primeOf f) y = toMontgomery (primeOf f) y ∧ V2 f (toMontgomery (primeOf f) y) := by
  rw [bytesToFp2] at hy
  split at hy
  · cases hy
  · rw [Option.some.injEq] at hy
    subst hy
    have t := top f
    obtain ⟨a, b⟩ := orBytes_top (bs := bs.take (fieldBytes f)) hx.A.len (lt_trans hx.A.lt t) (by rw [List.length_take]; omega)
    obtain ⟨c, d⟩ := orBytes_top (bs := (bs.drop (fieldBytes f)).take (fieldBytes f)) hx.B.len (lt_trans hx.B.lt t) (by rw [List.length_take]; omega)
    exact toMontgomery_eq h a c b d

theorem import_eq {k : PublicKey} (hk : Pub f k) (input : List Byte) : k.importKeyOn B input = k.importKey input := by
  obtain ⟨s1, s2, s3, s4, s5, s6⟩ := sizes f
  rw [PublicKey.importKeyOn, PublicKey.importKey]
  split
  · rfl
  · simp only [hk.params, s2]
    refine bind_congr' fun p hp => ?_
    refine bind_congr' fun q hq => ?_
    refine bind_congr' fun r hr => ?_
    rw [pkg_of]
    simp only [Option.bind_eq_bind, Option.bind_some, s4]
    rw [(import1_eq h hk.p hp).1, (import1_eq h hk.q hq).1, (import1_eq h hk.r hr).1]

theorem import_pub {k k' : PublicKey} (hk : Pub f k) {input : List Byte} {ok : Bool} (hi : k.importKey input = some (k', ok)) : Pub f k' := by
  obtain ⟨s1, s2, s3, s4, s5, s6⟩ := sizes f
  rw [PublicKey.importKey] at hi
  split at hi
  · rw [Option.some.injEq, Prod.mk.injEq] at hi
    rw [← hi.1]; exact hk
  · simp only [hk.params, s2, pkg_of, Option.bind_eq_bind, Option.bind_some, s4] at hi
    simp only [Option.bind_eq_some_iff, Option.some.injEq, Prod.mk.injEq] at hi
    obtain ⟨p, hp, q, hq, r, hr, he, _⟩ := hi
    rw [← he]
    exact ⟨rfl, (import1_eq h hk.p hp).2, (import1_eq h hk.q hq).2, (import1_eq h hk.r hr).2⟩

theorem export_eq {k : PublicKey} (hk : Pub f k) (out : List Byte) : k.exportKeyOn B out = k.exportKey out := by
  rw [PublicKey.exportKeyOn, PublicKey.exportKey, hk.params, pkg_of]
  simp only [Option.bind_eq_bind, Option.bind_some, prime_of, fromMontgomery_eq h hk.p.A.len hk.p.B.len, fromMontgomery_eq h hk.q.A.len hk.q.B.len,
    fromMontgomery_eq h hk.r.A.len hk.r.B.len]

theorem gen_eq {k : PublicKey} (hk : Pub f k) (prv : PrivateKey) : prv.generatePublicKeyOn B k = prv.generatePublicKey k := by
  rw [PrivateKey.generatePublicKeyOn, PrivateKey.generatePublicKey]
  split
  · rfl
  · rename_i hc
    have hid : prv.params.id = (paramsOf f).id := by rw [← hk.params]; by_contra h; exact hc (Or.inr fun h' => h h'.symm)
    rw [hid, pkg_of]
    simp only [Option.bind_eq_bind, Option.bind_some, prime_of]
    have hA := ropt_eq (fun _ _ => rtri_eq) (publicKeyGenA_rel (ops_rel h) (params_rel f) prv.scalar)
    have hB := ropt_eq (fun _ _ => rtri_eq) (publicKeyGenB_rel (ops_rel h) (params_rel f) prv.scalar)
    rw [hA, hB]

theorem gen_pub {k k' : PublicKey} (hk : Pub f k) {prv : PrivateKey} (hg : prv.generatePublicKey k = some k') : Pub f k' := by
  rw [PrivateKey.generatePublicKey] at hg
  split at hg
  · cases hg
  · rename_i hc
    have hid : prv.params.id = (paramsOf f).id := by rw [← hk.params]; by_contra h; exact hc (Or.inr fun h' => h h'.symm)
    rw [hid, pkg_of] at hg
    simp only [Option.bind_eq_bind, Option.bind_some, prime_of] at hg
    have hA := publicKeyGenA_rel (ops_rel h) (params_rel f) prv.scalar
    have hB := publicKeyGenB_rel (ops_rel h) (params_rel f) prv.scalar
    have fin : ∀ {x y : Option (Tri Fp2)}, ROpt (RTri (Same f)) x y → (y.bind fun t => some {k with pts := t}) = some k' → Pub f k' := by
      intro x y hr he
      cases hr with
      | none => cases he
      | some hr =>
        rw [Option.bind_some, Option.some.injEq] at he
        subst he
        exact ⟨hk.params, hr.hp.2, hr.hq.2, hr.hr.2⟩
    split at hg
    · exact fin hA hg
    · exact fin hB hg

theorem derive_eq {k : PublicKey} (hk : Pub f k) (prv : PrivateKey) (ss : List Byte) : prv.deriveSecretOn B ss k = prv.deriveSecret ss k := by
  rw [PrivateKey.deriveSecretOn, PrivateKey.deriveSecret]
  split
  · rfl
  · rename_i hc
    have hid : prv.params.id = (paramsOf f).id := by rw [← hk.params]; by_contra h; exact hc (Or.inr fun h' => h h'.symm)
    rw [hid, pkg_of]
    simp only [Option.bind_eq_bind, Option.bind_some, deriveSecretPkgOn, deriveSecretPkg, prime_of]
    have ht : RTri (Same f) k.pts k.pts := ⟨⟨rfl, hk.p⟩, ⟨rfl, hk.q⟩, ⟨rfl, hk.r⟩⟩
    have fin : ∀ {x y : Option Fp2}, ROpt (Same f) x y →
        (x.bind fun j => fp2ToBytes ss ((B (paramsOf f)).fromMontgomery (primeOf f) j) (paramsOf f).bytelen) =
        (y.bind fun j => fp2ToBytes ss (fromMontgomery (primeOf f) j) (paramsOf f).bytelen) := by
      intro x y hr
      cases hr with
      | none => rfl
      | some hr =>
        obtain ⟨rfl, hv⟩ := hr
        simp only [Option.bind_some, fromMontgomery_eq h hv.A.len hv.B.len]
    split
    · exact fin (deriveA_rel (ops_rel h) (params_rel f) prv.scalar ht)
    · exact fin (deriveB_rel (ops_rel h) (params_rel f) prv.scalar ht)

end

/-! ### sike.go -/
section kem
open Model.Sike Model.Sha3 Model.Mkem

/-- The routines agree for the fields in `S`. -/
def AgreesOn (B : Build) (S : Fld → Prop) : Prop := ∀ f, S f → Agrees (B (paramsOf f)) f

/-- A public key object of one of the fields. -/
def PubIn (S : Fld → Prop) (k : PublicKey) : Prop := ∃ f, S f ∧ Pub f k

/-- The parameters are not those of a field outside `S`. -/
def ParIn (S : Fld → Prop) (g : SidhParams) : Prop := ∀ f, BitVec.ofNat 8 g.id = idOf f → S f

variable {S : Fld → Prop} (h : AgreesOn B S) (P : Plat)
include h

theorem new_in {g : SidhParams} (hg : ParIn S g) {v : W64} {k : PublicKey} (hn : newPublicKey (BitVec.ofNat 8 g.id) v = some k) : PubIn S k := by
  obtain ⟨f, hf, hk⟩ := pub_new hn
  exact ⟨f, hg f hf, hk⟩

theorem export_in {k : PublicKey} (hk : PubIn S k) (out : List Byte) : k.exportKeyOn B out = k.exportKey out := by
  obtain ⟨f, hf, hk⟩ := hk
  exact export_eq (h f hf) hk out

theorem import_in {k : PublicKey} (hk : PubIn S k) (b : List Byte) : k.importKeyOn B b = k.importKey b ∧
    ∀ k' ok, k.importKey b = some (k', ok) → PubIn S k' := by
  obtain ⟨f, hf, hk⟩ := hk
  exact ⟨import_eq (h f hf) hk b, fun k' ok hi => ⟨f, hf, import_pub (h f hf) hk hi⟩⟩

theorem gen_in {k : PublicKey} (hk : PubIn S k) (prv : PrivateKey) : prv.generatePublicKeyOn B k = prv.generatePublicKey k ∧
    ∀ k', prv.generatePublicKey k = some k' → PubIn S k' := by
  obtain ⟨f, hf, hk⟩ := hk
  exact ⟨gen_eq (h f hf) hk prv, fun k' hg => ⟨f, hf, gen_pub (h f hf) hk hg⟩⟩

theorem derive_in {k : PublicKey} (hk : PubIn S k) (prv : PrivateKey) (ss : List Byte) : prv.deriveSecretOn B ss k = prv.deriveSecret ss k := by
  obtain ⟨f, hf, hk⟩ := hk
  exact derive_eq (h f hf) hk prv ss

theorem generateCiphertext_eq (c : KEM) (ctext : List Byte) (skA : PrivateKey) {pkA pkB : PublicKey} (hA : PubIn S pkA) (hB : PubIn S pkB) (ptext : List Byte) :
    c.generateCiphertextOn B P ctext skA pkA pkB ptext = c.generateCiphertext P ctext skA pkA pkB ptext := by
  simp only [KEM.generateCiphertextOn, KEM.generateCiphertext, derive_in h hB, export_in h hA]

theorem encapsulate_eq (c : KEM) (hc : ParIn S c.params) (ciphertext secret : List Byte) {pub : PublicKey} (hp : PubIn S pub) :
    c.encapsulateOn B P ciphertext secret pub = c.encapsulate P ciphertext secret pub := by
  simp only [KEM.encapsulateOn, KEM.encapsulate, export_in h hp]
  repeat' (split; · rfl)
  refine bind_congr' fun pkA hA => ?_
  have hA := new_in h hc hA
  refine bind_congr' fun buf _ => ?_
  refine bind_congr' fun buf _ => ?_
  refine bind_congr' fun x _ => ?_
  refine bind_congr' fun scalar _ => ?_
  obtain ⟨g1, g2⟩ := gen_in h hA ⟨x.1.params, variantA, scalar, []⟩
  rw [g1]
  refine bind_congr' fun pk' hpk => ?_
  rw [generateCiphertext_eq h P _ _ _ (g2 _ hpk) hp]

theorem decrypt_eq (c : KEM) (n : List Byte) (prv : PrivateKey) (hv : ParIn S prv.params) (ctext : List Byte) :
    c.decryptOn B P n prv ctext = c.decrypt P n prv ctext := by
  simp only [KEM.decryptOn, KEM.decrypt]
  refine bind_congr' fun c0 h0 => ?_
  have h0 := new_in h hv h0
  refine bind_congr' fun hd _ => ?_
  obtain ⟨g1, g2⟩ := import_in h h0 hd
  rw [g1]
  refine bind_congr' fun x hx => ?_
  rw [derive_in h (g2 x.1 x.2 hx)]

theorem decapsulate_eq (c : KEM) (hc : ParIn S c.params) (secret : List Byte) (prv : PrivateKey) (hv : ParIn S prv.params) {pub : PublicKey} (hp : PubIn S pub)
    (ciphertext : List Byte) : c.decapsulateOn B P secret prv pub ciphertext = c.decapsulate P secret prv pub ciphertext := by
  simp only [KEM.decapsulateOn, KEM.decapsulate, decrypt_eq h P _ _ _ hv, export_in h hp]
  repeat' (split; · rfl)
  refine bind_congr' fun pkA hA => ?_
  have hA := new_in h hc hA
  refine bind_congr' fun x _ => ?_
  split
  · rfl
  refine bind_congr' fun pk _ => ?_
  refine bind_congr' fun m1 _ => ?_
  refine bind_congr' fun pk1 _ => ?_
  refine bind_congr' fun r1 _ => ?_
  refine bind_congr' fun y _ => ?_
  refine bind_congr' fun r1 _ => ?_
  refine bind_congr' fun sk _ => ?_
  split
  · rfl
  obtain ⟨g1, g2⟩ := gen_in h hA sk.1
  rw [g1]
  refine bind_congr' fun pk' hpk => ?_
  rw [export_in h (g2 _ hpk)]

theorem encryptOne_eq (c : MultiKEM) (skA : PrivateKey) (i : Nat) {pkB : PublicKey} (hB : PubIn S pkB) :
    c.encryptOneOn B P skA i pkB = c.encryptOne P skA i pkB := by
  simp only [MultiKEM.encryptOneOn, MultiKEM.encryptOne, derive_in h hB]

theorem encryptAll_eq (skA : PrivateKey) : ∀ (pubs : List PublicKey) (c : MultiKEM) (i : Nat), (∀ p ∈ pubs, PubIn S p) →
    c.encryptAllOn B P skA i pubs = c.encryptAll P skA i pubs
  | [], _, _, _ => rfl
  | p :: pubs, c, i, hp => by
    rw [MultiKEM.encryptAllOn, MultiKEM.encryptAll, encryptOne_eq h P c skA i (hp p (by simp))]
    exact bind_congr' fun c' _ => encryptAll_eq skA pubs c' (i + 1) fun q hq => hp q (by simp [hq])

theorem mkem_encapsulate_eq (c : MultiKEM) (hc : ParIn S c.kem.params) (secret : List Byte) {pubs : List PublicKey} (hp : ∀ p ∈ pubs, PubIn S p) :
    c.encapsulateOn B P secret pubs = c.encapsulate P secret pubs := by
  simp only [MultiKEM.encapsulateOn, MultiKEM.encapsulate]
  repeat' (split; · rfl)
  refine bind_congr' fun pkA hA => ?_
  have hA := new_in h hc hA
  refine bind_congr' fun m1 _ => ?_
  refine bind_congr' fun x _ => ?_
  refine bind_congr' fun scalar _ => ?_
  obtain ⟨g1, g2⟩ := gen_in h hA ⟨x.1.params, variantA, scalar, []⟩
  rw [g1]
  refine bind_congr' fun pk' hpk => ?_
  rw [export_in h (g2 _ hpk)]
  refine bind_congr' fun ct0 _ => ?_
  rw [encryptAll_eq h P _ _ _ _ hp]

theorem mkem_decapsulate_eq (c : MultiKEM) (hc : ParIn S c.kem.params) (secret : List Byte) (prv : PrivateKey) {pub : PublicKey} (hp : PubIn S pub)
    (ctext : List Byte) : c.decapsulateOn B P secret prv pub ctext = c.decapsulate P secret prv pub ctext := by
  simp only [MultiKEM.decapsulateOn, MultiKEM.decapsulate, derive_in h hp]
  repeat' (split; · rfl)
  refine bind_congr' fun pkA hA => ?_
  have hA := new_in h hc hA
  refine bind_congr' fun ct0 _ => ?_
  obtain ⟨i1, i2⟩ := import_in h hA ct0
  rw [i1]
  refine bind_congr' fun x hx => ?_
  have hx := i2 x.1 x.2 hx
  split
  · rfl
  rw [derive_in h hx]
  refine bind_congr' fun j _ => ?_
  refine bind_congr' fun j1 _ => ?_
  refine bind_congr' fun m1 _ => ?_
  refine bind_congr' fun y _ => ?_
  refine bind_congr' fun ct _ => ?_
  refine bind_congr' fun m _ => ?_
  refine bind_congr' fun m1 _ => ?_
  refine bind_congr' fun z _ => ?_
  refine bind_congr' fun scalar _ => ?_
  obtain ⟨g1, g2⟩ := gen_in h hx ⟨z.1.params, variantA, scalar, []⟩
  rw [g1]
  refine bind_congr' fun pk' hpk => ?_
  refine bind_congr' fun r1 _ => ?_
  rw [export_in h (g2 _ hpk)]

end kem
end Lemmas.SidhBuild
