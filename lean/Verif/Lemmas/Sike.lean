import Verif.Props.SidhCurve
import Verif.Model.Sike
import Verif.Lemmas.Sha3More
import Verif.Spec.Sike
/-! Helper lemmas for SIKE: hashing, key objects as functions of field elements. -/
namespace Lemmas.Sike
open Model Model.Sidh Model.Sha3 Model.Sike Spec Spec.Sidh Spec.Sha3 Lemmas.Sha3 Lemmas.SidhBytes Lemmas.SidhGood Lemmas.SidhNat Lemmas.SidhLimb
open Props.SidhFp2 Props.SidhKeys Props.SidhCurve Lemmas.SidhTrace

variable {P : Plat}

theorem writes_spec (hP : Good P) : ∀ (ins : List (List Byte)) {st : State} {m : List Byte}, Absorbed st m →
    ∃ st', writes P st ins = some st' ∧ Absorbed st' (m ++ ins.flatten) ∧ SameParams st st'
  | [], st, m, h => ⟨st, rfl, by simpa using h, rfl, rfl, rfl⟩
  | x :: xs, st, m, h => by
    obtain ⟨s1, e1, h1, p1⟩ := write_spec hP h x
    obtain ⟨s2, e2, h2, p2⟩ := writes_spec hP xs h1
    refine ⟨s2, by rw [writes, e1]; exact e2, by simpa using h2, p2.1.trans p1.1, p2.2.1.trans p1.2.1, p2.2.2.trans p1.2.2⟩

/-- the hash function -/
def H (x : List Byte) (n : Nat) : List Byte := Inst.shake256.out x 0 n

theorem H_length (x : List Byte) (n : Nat) : (H x n).length = n := by
  simp [H, Inst.out, Spec.Keccak.spongeBytes]

theorem hash_spec (hP : Supported P) {c : KEM} (hc : SameParams newShake256 c.shake) (ins : List (List Byte)) (out : List Byte) :
    ∃ st, c.hash P ins out = some ({c with shake := st}, H ins.flatten out.length) ∧ SameParams newShake256 st := by
  have e : reset c.shake = newShake256 := by rw [reset_eq_new hc]; rfl
  obtain ⟨s1, e1, h1, p1⟩ := writes_spec hP.good ins (new_absorbed .shake256)
  obtain ⟨s2, e2, h2, p2⟩ := read_absorbed hP.good h1 out
  refine ⟨s2, ?_, p2.1.trans p1.1, p2.2.1.trans p1.2.1, p2.2.2.trans p1.2.2⟩
  rw [KEM.hash, e]
  change (do let st ← writes P (new .shake256) ins; _) = _
  rw [e1]
  simp only [Option.bind_eq_bind, Option.bind_some, e2, List.nil_append]
  rw [p1.1, p1.2.2]; rfl

/-! ### public keys -/

variable {f : Fld}

/-- bytes of a field element -/
def enc1 (x : Fq f) : List Byte := leBytes (fieldBytes f) x.re.val ++ leBytes (fieldBytes f) x.im.val
/-- bytes of three field elements -/
def enc3 (t : Tri (Fq f)) : List Byte := enc1 t.p ++ enc1 t.q ++ enc1 t.r

theorem enc1_length (x : Fq f) : (enc1 x).length = 2 * fieldBytes f := by
  simp [enc1, leBytes_length]; omega
theorem enc3_length (t : Tri (Fq f)) : (enc3 t).length = 6 * fieldBytes f := by
  simp [enc3, enc1_length]; omega

/-- a public key object holding three field elements -/
abbrev Pub (f : Fld) (v : W64) (k : PublicKey) (t : Tri (Fq f)) : Prop := PubOf f v k t.p t.q t.r

theorem bytes_long (x : Fp2) (a : Fq f) (hx : IsElt f x a) (out : List Byte) (ho : 2 * fieldBytes f ≤ out.length) :
    fp2ToBytes out (fromMontgomery (primeOf f) x) (fieldBytes f) = some (enc1 a ++ out.drop (2 * fieldBytes f)) := by
  rw [(c32_toBytes _ _ _).2 ho, (c45_from f x a hx).1, (c45_from f x a hx).2]; rfl

theorem export_long {v : W64} {k : PublicKey} {t : Tri (Fq f)} (hk : Pub f v k t) (out : List Byte) (ho : 6 * fieldBytes f ≤ out.length) :
    k.exportKey out = some (enc3 t ++ out.drop (6 * fieldBytes f)) := by
  obtain ⟨s1, s2, s3, s4, s5, s6⟩ := sizes f
  have nil : ∀ (l : List Byte) (n : Nat), l.length ≤ n → l.drop n = [] := fun l n h => List.drop_eq_nil_of_le h
  rw [PublicKey.exportKey, hk.params]
  simp only [pkg_of, s1, s2, s4, Option.bind_eq_bind, Option.bind_some]
  rw [if_neg (by omega), bytes_long _ _ hk.p _ (by simp; omega), nil _ _ (by simp)]
  simp only [Option.bind_some]
  rw [bytes_long _ _ hk.q _ (by simp; omega), nil _ _ (by simp)]
  simp only [Option.bind_some]
  rw [bytes_long _ _ hk.r _ (by simp; omega), nil _ _ (by simp)]
  simp only [Option.bind_some, List.append_nil]
  rw [show 3 * (2 * fieldBytes f) = 6 * fieldBytes f by omega]; rfl

/-- the field elements in a string -/
def dec3 (f : Fld) (b : List Byte) : Tri (Fq f) :=
  ⟨⟨((coords f b).getD 0 0 : ZMod f.p), ((coords f b).getD 1 0 : ZMod f.p)⟩,
   ⟨((coords f b).getD 2 0 : ZMod f.p), ((coords f b).getD 3 0 : ZMod f.p)⟩,
   ⟨((coords f b).getD 4 0 : ZMod f.p), ((coords f b).getD 5 0 : ZMod f.p)⟩⟩

theorem import_new (v : W64) (b : List Byte) (hb : b.length = 6 * fieldBytes f) :
    ∃ k k', newPublicKey (idOf f) v = some k ∧ k.importKey b = some (k', true) ∧ Pub f v k' (dec3 f b) := by
  obtain ⟨k, h1, _, _, h2⟩ := c35_import f v b
  obtain ⟨k', h3, h4, _⟩ := h2 hb
  exact ⟨k, k', h1, h3, h4⟩

/-! ### generating and deriving -/

/-- public key of a scalar over the field -/
def genF (f : Fld) (a : Bool) (s : List Byte) : Tri (Fq f) :=
  (if a then publicKeyGenA (fieldOps (Fq f)) (fparams f) s else publicKeyGenB (fieldOps (Fq f)) (fparams f) s).getD ⟨0, 0, 0⟩

/-- secret over the field -/
def exF (f : Fld) (a : Bool) (s : List Byte) (t : Tri (Fq f)) : Fq f :=
  (if a then deriveA (fieldOps (Fq f)) (fparams f) s t else deriveB (fieldOps (Fq f)) (fparams f) s t).getD 0

theorem rtri_pub {v : W64} {k : PublicKey} {t : Tri (Fq f)} (hk : Pub f v k t) : RTri (IsElt f) k.pts t := ⟨hk.p, hk.q, hk.r⟩

theorem ropt_some' {α β : Type} {r : α → β → Prop} {x : Option α} {y : Option β} {a : α} (h : ROpt r x y) (ha : x = some a) : ∃ b, y = some b ∧ r a b := by
  subst ha
  cases h with
  | some h => exact ⟨_, rfl, h⟩

theorem params_mem (f : Fld) : paramsOf f = params434 ∨ paramsOf f = params503 ∨ paramsOf f = params751 := by cases f <;> simp [paramsOf]

theorem gen_spec {v : W64} {k : PrivateKey} (hk : PrivOf f v k) (pub : PublicKey) (hp : pub.params = paramsOf f) (hv : pub.variant = v) :
    ∃ pub', k.generatePublicKey pub = some pub' ∧ Pub f v pub' (genF f (v.getLsbD 0) k.scalar) := by
  obtain ⟨s1, s2, s3, s4, s5, s6⟩ := sizes f
  have hsc := hk.scalar
  rw [PrivateKey.generatePublicKey, if_neg (by rw [hk.variant, hv, hk.params, hp]; simp), hk.params, pkg_of, hk.variant]
  simp only [Option.bind_eq_bind, Option.bind_some]
  rw [isA_eq]
  cases hA : v.getLsbD 0 with
  | true =>
    rw [hA] at hsc
    obtain ⟨t, ht⟩ := publicKeyGenA_total (limbOps (paramsOf f).prime) (paramsOf f).curve k.scalar (stratA_ok _ (params_mem f)) (by
      rw [hsc]; cases f <;> decide)
    rw [s4] at ht
    obtain ⟨u, h1, h2⟩ := ropt_some' (publicKeyGenA_rel (opsRel f) (rcparams f) k.scalar) ht
    refine ⟨{pub with pts := t}, by simp [s4, ht], ?_⟩
    rw [genF, if_pos rfl, h1]
    exact ⟨hp, hv, h2.hp, h2.hq, h2.hr⟩
  | false =>
    rw [hA] at hsc
    obtain ⟨t, ht⟩ := publicKeyGenB_total (limbOps (paramsOf f).prime) (paramsOf f).curve k.scalar (stratB_ok _ (params_mem f)) (by
      rw [hsc]; cases f <;> decide)
    rw [s4] at ht
    obtain ⟨u, h1, h2⟩ := ropt_some' (publicKeyGenB_rel (opsRel f) (rcparams f) k.scalar) ht
    refine ⟨{pub with pts := t}, by simp [s4, ht], ?_⟩
    rw [genF, if_neg (by decide), h1]
    exact ⟨hp, hv, h2.hp, h2.hq, h2.hr⟩

theorem derive_spec {v w : W64} {k : PrivateKey} (hk : PrivOf f v k) {pub : PublicKey} {t : Tri (Fq f)} (hp : Pub f w pub t) (hvw : w ≠ v)
    (ss : List Byte) (hs : 2 * fieldBytes f ≤ ss.length) :
    k.deriveSecret ss pub = some (enc1 (exF f (v.getLsbD 0) k.scalar t) ++ ss.drop (2 * fieldBytes f)) := by
  obtain ⟨s1, s2, s3, s4, s5, s6⟩ := sizes f
  have hsc := hk.scalar
  rw [PrivateKey.deriveSecret, if_neg (by rw [hk.variant, hp.variant, hk.params, hp.params]; simp [hvw]), hk.params, pkg_of, hk.variant]
  simp only [Option.bind_eq_bind, Option.bind_some]
  rw [isA_eq, deriveSecretPkg, s2, s4]
  cases hA : v.getLsbD 0 with
  | true =>
    rw [hA] at hsc
    obtain ⟨x, hx⟩ := deriveA_total (limbOps (primeOf f)) (paramsOf f).curve k.scalar pub.pts (stratA_ok _ (params_mem f)) (by
      rw [hsc]; cases f <;> decide)
    obtain ⟨j, h1, h2⟩ := ropt_some' (deriveA_rel (opsRel f) (rcparams f) k.scalar (rtri_pub hp)) hx
    rw [exF, if_pos rfl, if_pos rfl, hx, h1]
    exact bytes_long x j h2 ss hs
  | false =>
    rw [hA] at hsc
    obtain ⟨x, hx⟩ := deriveB_total (limbOps (primeOf f)) (paramsOf f).curve k.scalar pub.pts (stratB_ok _ (params_mem f)) (by
      rw [hsc]; cases f <;> decide)
    obtain ⟨j, h1, h2⟩ := ropt_some' (deriveB_rel (opsRel f) (rcparams f) k.scalar (rtri_pub hp)) hx
    rw [exF, if_neg (by decide), if_neg (by decide), hx, h1]
    exact bytes_long x j h2 ss hs

theorem agree_F (f : Fld) (a b : List Byte) (ha : (paramsOf f).A.secretBitLen ≤ 8 * a.length) (hb : (paramsOf f).B.secretBitLen ≤ 8 * b.length) :
    exF f true a (genF f false b) = exF f false b (genF f true a) := by
  obtain ⟨pa, pb, j, h1, h2, h3, h4⟩ := agree_field f a b ha hb
  have e1 : genF f false b = pb := by rw [genF, if_neg (by decide), h2]; rfl
  have e2 : genF f true a = pa := by rw [genF, if_pos rfl, h1]; rfl
  rw [e1, e2, exF, if_pos rfl, exF, if_neg (by decide), h3, h4]

/-! ### the scalar -/

theorem maskLast_spec (bits : Nat) (s : List Byte) (h1 : 8 * (s.length - 1) ≤ bits) (h2 : bits < 8 * s.length) :
    maskLast bits s = some (leBytes s.length (bval s % 2 ^ bits)) := by
  have hne : s ≠ [] := by intro h0; rw [h0] at h2; simp at h2
  obtain ⟨l, x, rfl⟩ : ∃ l x, s = l ++ [x] := ⟨s.dropLast, s.getLast hne, (List.dropLast_append_getLast hne).symm⟩
  simp only [List.length_append, List.length_singleton, Nat.add_sub_cancel] at h1 h2
  have hm : bits % 8 = bits - 8 * l.length := by omega
  have hlt : bits % 8 < 8 := Nat.mod_lt _ (by decide)
  have hmask : ∀ (k : Nat), k < 8 → ∀ x : Byte, x &&& ((1 : Byte) <<< k - 1) = BitVec.ofNat 8 (x.toNat % 2 ^ k) := by decide +kernel
  rw [maskLast, if_neg (by simp), setAt, if_pos (by simp)]
  congr 1
  rw [List.length_append, List.length_singleton, Nat.add_sub_cancel, List.getD_eq_getElem?_getD, List.getElem?_concat_length, Option.getD_some,
    List.set_append_right _ _ (le_refl _), Nat.sub_self, List.set_cons_zero, hmask _ hlt]
  have e : bval (l ++ [x]) % 2 ^ bits = bval (l ++ [BitVec.ofNat 8 (x.toNat % 2 ^ (bits % 8))]) := by
    rw [bval_append, bval_append]
    have hx : (BitVec.ofNat 8 (x.toNat % 2 ^ (bits % 8))).toNat = x.toNat % 2 ^ (bits % 8) := by
      rw [BitVec.toNat_ofNat]
      exact Nat.mod_eq_of_lt (lt_of_le_of_lt (Nat.mod_le _ _) x.isLt)
    have hb : 2 ^ bits = 256 ^ l.length * 2 ^ (bits % 8) := by
      rw [show (256 : Nat) = 2 ^ 8 from rfl, ← Nat.pow_mul, ← Nat.pow_add]; congr 1; omega
    simp only [bval, Nat.mul_zero, Nat.add_zero, hx]
    rw [hb, Nat.mod_mul, Nat.add_mul_mod_self_left, Nat.mod_eq_of_lt (bval_lt l), Nat.add_mul_div_left _ _ (Nat.pow_pos (by decide)),
      Nat.div_eq_of_lt (bval_lt l), Nat.zero_add]
  rw [e, show l.length + 1 = (l ++ [BitVec.ofNat 8 (x.toNat % 2 ^ (bits % 8))]).length by simp, leBytes_bval]

theorem xorInto_spec (n m pt : List Byte) (h : n.length = pt.length) :
    xorInto (n ++ m) pt = some (List.zipWith (· ^^^ ·) n pt ++ m) := by
  rw [xorInto, if_neg (by simp; omega)]
  congr 1
  rw [List.drop_append_of_le_length (by omega), ← h, List.drop_length, List.nil_append]
  congr 1
  conv_lhs => rw [← List.append_nil pt]
  rw [List.zipWith_append h]
  simp

end Lemmas.Sike
