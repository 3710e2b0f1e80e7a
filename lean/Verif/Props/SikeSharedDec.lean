import Verif.Props.Sike
import Verif.Model.SikeSharedDec
/-!
C131: goroutines that call `Decapsulate` on one KEM object at the same time.  Model: `Verif/Model/SikeSharedDec.lean`; calls one after
the other are those of `Verif/Model/Sike.lean`; `sike f` is the scheme of the specification (`Verif/Spec/Sike.lean`) with the
primitives of the code, `(sike f).Accepts` its test that re-encryption gives the ciphertext.
-/
namespace Props.SikeSharedDec
open Model Model.Sidh Model.Sha3 Model.Sike Spec Spec.Sidh Spec.Sike Lemmas.Sike Props.Sike Props.SidhKeys Props.SidhCurve Lemmas.SidhNat Lemmas.Sha3
open Model.SikeSharedDec (Args Locals Gor enter finish)

variable {P : Plat}

/-- Both steps of a call in a row. -/
def both (P : Plat) (c : KEM) (a : Args) : Option (KEM × Gor) := (enter P c a).bind fun (c, g) => SikeSharedDec.act P c g

theorem both_eq (c : KEM) (a : Args) :
    both P c a = (c.decapsulate P a.secret a.prv a.pub a.ciphertext).map fun x => (x.1, .done x.2) := by
  rw [both, enter, KEM.decapsulate]
  by_cases h1 : c.allocated = false
  · rw [if_pos h1, if_pos h1]; rfl
  rw [if_neg h1, if_neg h1]
  by_cases h2 : variantSike ≠ a.pub.variant
  · rw [if_pos h2, if_pos h2]; rfl
  rw [if_neg h2, if_neg h2]
  by_cases h2 : a.pub.variant ≠ a.prv.variant
  · rw [if_pos h2, if_pos h2]; rfl
  rw [if_neg h2, if_neg h2]
  by_cases h3 : a.secret.length < c.params.kemSize
  · rw [if_pos h3, if_pos h3]; rfl
  rw [if_neg h3, if_neg h3]
  by_cases h4 : a.ciphertext.length ≠ c.params.ciphertextSize
  · rw [if_pos h4, if_pos h4]; rfl
  rw [if_neg h4, if_neg h4]
  dsimp only
  cases newPublicKey (BitVec.ofNat 8 c.params.id) variantA with
  | none => rfl
  | some pkA =>
  simp only [sb1]
  cases c.decrypt P (List.replicate maxMsgBsz 0) a.prv a.ciphertext with
  | none => rfl
  | some x =>
  obtain ⟨c1, m, c1Len, ok⟩ := x
  simp only [sb1]
  cases ok with
  | false => rfl
  | true =>
  simp only [Bool.true_eq_false, if_false]
  cases a.pub.exportKey (List.replicate (3 * maxSharedSecretBsz) 0) with
  | none => rfl
  | some pkBytes =>
  simp only [sb1]
  cases sliceTo m c1Len with
  | none => rfl
  | some m1 =>
  simp only [sb1]
  cases sliceTo pkBytes (3 * c1.params.sharedSecretSize) with
  | none => rfl
  | some pk1 =>
  simp only [sb1]
  cases sliceTo (List.replicate maxSidhPrivateKeyBsz (0 : Byte)) c1.params.A.secretByteLen with
  | none => rfl
  | some r1 =>
  simp only [sb1]
  cases c1.hash P [m1, pk1] r1 with
  | none => rfl
  | some x =>
  obtain ⟨c2, r1⟩ := x
  simp only [sb1]
  cases maskLast c2.params.A.secretBitLen r1 with
  | none => rfl
  | some r1 =>
  simp only [sb1]
  cases (PrivateKey.mk c.params variantA c.secretBytes []).importKey r1 with
  | none => rfl
  | some x =>
  obtain ⟨skA, ok⟩ := x
  simp only [sb1]
  cases ok with
  | false => rfl
  | true =>
  simp only [Bool.true_eq_false, if_false, Option.bind_some, SikeSharedDec.act, finish]
  cases skA.generatePublicKey pkA with
  | none => rfl
  | some pkA =>
  simp only [sb1]
  cases pkA.exportKey pkBytes with
  | none => rfl
  | some pkBytes =>
  simp only [sb1]
  cases sliceTo pkBytes c2.params.publicKeySize with
  | none => rfl
  | some x =>
  simp only [sb1]
  cases sliceTo a.ciphertext a.pub.params.publicKeySize with
  | none => rfl
  | some y =>
  simp only [sb1]
  cases cpick (constantTimeCompare x y) c1Len m1 a.prv.S with
  | none => rfl
  | some m1 =>
  simp only [sb1]
  cases sliceTo a.secret c2.params.kemSize with
  | none => rfl
  | some s =>
  simp only [sb1]
  generalize KEM.hash P _ [m1, a.ciphertext] s = z
  cases z with
  | none => rfl
  | some x => rfl

/-- C131. A call that is not interrupted, made by any goroutine in company of any others, is the call of the other properties:
the object and the result afterwards, and a panic where that panics. -/
theorem c131_same (c : KEM) (gs : List Gor) (j : Nat) (a : Args) (h : gs[j]? = some (.called a)) :
    SikeSharedDec.run P c gs [j, j] = (c.decapsulate P a.secret a.prv a.pub a.ciphertext).map fun x => (x.1, gs.set j (.done x.2)) := by
  have hl := (List.getElem?_eq_some_iff.1 h).1
  have := both_eq (P := P) c a
  rw [SikeSharedDec.run, SikeSharedDec.step, h]
  simp only [SikeSharedDec.act]
  rw [both] at this
  cases he : enter P c a with
  | none =>
    rw [he] at this
    cases hx : c.decapsulate P a.secret a.prv a.pub a.ciphertext with
    | none => rfl
    | some x => rw [hx] at this; cases this
  | some x =>
    obtain ⟨c1, g1⟩ := x
    rw [he] at this
    simp only [Option.bind_some] at this
    simp only [Option.map_some, Option.bind_some]
    rw [SikeSharedDec.run, SikeSharedDec.step, List.getElem?_set_self hl]
    simp only
    rw [this]
    cases c.decapsulate P a.secret a.prv a.pub a.ciphertext with
    | none => rfl
    | some x => simp only [Option.map_some, Option.bind_some, SikeSharedDec.run, List.set_set]

/-! ### the two steps -/

/-- A public key of zeros, as made by `NewPublicKey`. -/
def blank (f : Fld) : PublicKey := ⟨paramsOf f, variantA, ⟨zeroFp2 f.words, zeroFp2 f.words, zeroFp2 f.words⟩⟩

/-- What the first step leaves: the scalar of the re-encryption is in the object. -/
theorem enter_spec (hP : Supported P) {f : Fld} {c : KEM} (hc : KemOf f c) (a : Args) (hprv : PrivOf f variantSike a.prv)
    {t : Tri (Fq f)} (hpub : Pub f variantSike a.pub t) (hl : a.ciphertext.length = ctLen f) (hs : msgLen f ≤ a.secret.length) :
    ∃ c' pkBytes sc, KemOf f c' ∧ c'.secretBytes = (sike f).coins ((sike f).dec a.prv.scalar a.ciphertext) (enc3 t) ∧
      6 * fieldBytes f ≤ pkBytes.length ∧ ((sike f).dec a.prv.scalar a.ciphertext).length = msgLen f ∧
      enter P c a = some (c', .imported a ⟨pkBytes, (sike f).dec a.prv.scalar a.ciphertext, msgLen f, ephemeral f sc, blank f⟩) := by
  obtain ⟨k1, k2, k3, k4, k5, k6, k7, k8, k9, k10, k11⟩ := kemParams f
  obtain ⟨s1, s2, s3, s4, s5, s6⟩ := sizes f
  obtain ⟨al, rng, msg, sb, pr, sh⟩ := c
  obtain ⟨h1, h2, hmsg, hsb, hsh⟩ := hc
  simp only at h1 h2 hmsg hsb hsh
  subst h1 h2
  obtain ⟨secret, prv, pub, ciphertext⟩ := a
  simp only at hprv hpub hl hs ⊢
  have lct : ciphertext.length = 6 * fieldBytes f + msgLen f := hl
  have lc : ¬ ciphertext.length ≠ (paramsOf f).ciphertextSize := by omega
  have ls : ¬ secret.length < (paramsOf f).kemSize := by omega
  have hv : ¬ (variantSike ≠ pub.variant) := by rw [hpub.variant]; simp
  have hv' : ¬ (pub.variant ≠ prv.variant) := by rw [hpub.variant, hprv.variant]; simp
  have ht : ¬ (true = false) := by decide
  rw [enter]
  simp only
  rw [if_neg ht, if_neg hv, if_neg hv', if_neg ls, if_neg lc]
  rw [k6, newPublicKey_eq]
  simp only [sb1]
  obtain ⟨st1, e1, p1, lm⟩ := decrypt_spec hP (c := ⟨true, rng, msg, sb, paramsOf f, sh⟩) ⟨rfl, rfl, hmsg, hsb, hsh⟩ hprv ciphertext hl
  rw [e1]
  simp only [sb1, if_neg ht]
  rw [export_long hpub _ (by simp; omega)]
  simp only [sb1]
  obtain ⟨m, hm⟩ : ∃ m, (sike f).dec prv.scalar ciphertext = m := ⟨_, rfl⟩
  rw [hm] at lm ⊢
  rw [sliceTo, if_pos (by simp; omega), List.take_left' lm]
  simp only [sb1]
  rw [sliceTo, if_pos (by simp [enc3_length]; omega), List.take_left' (by rw [enc3_length]; omega)]
  simp only [sb1]
  rw [sliceTo, if_pos (by rw [k4]; simpa using k8), List.take_replicate, k4, Nat.min_eq_left k8]
  simp only [sb1]
  obtain ⟨st2, e2, p2⟩ := hash_spec hP (c := ⟨true, rng, msg, sb, paramsOf f, st1⟩) p1 [m, enc3 t] (List.replicate (scalarLen f) 0)
  rw [e2]
  simp only [sb1]
  rw [maskLast_spec _ _ (by rw [H_length, k5, List.length_replicate]; exact k10) (by rw [H_length, k5, List.length_replicate]; exact k11)]
  simp only [sb1, H_length, List.length_replicate, k5]
  have hco : leBytes (scalarLen f) (bval (H [m, enc3 t].flatten (scalarLen f)) % 2 ^ scalarBits f) = (sike f).coins m (enc3 t) := by
    simp only [List.flatten_cons, List.flatten_nil, List.append_nil]; rfl
  rw [hco]
  have lr := coins_length f m (enc3 t)
  obtain ⟨r, hr⟩ : ∃ r, (sike f).coins m (enc3 t) = r := ⟨_, rfl⟩
  rw [hr] at lr ⊢
  have himp : (PrivateKey.mk (paramsOf f) variantA sb []).importKey r = some (ephemeral f r, true) := by
    rw [PrivateKey.importKey, if_neg (by
      rw [PrivateKey.size, if_neg (show ¬ (variantA = variantSike) by decide)]; simp [lr, hsb]), sliceTo, if_pos (by simp), sliceFrom, if_pos (by simp)]
    simp only [sb1, List.length_nil, List.take_zero, List.drop_zero]
    rw [goCopy_full _ _ (by rw [lr]; exact hsb.symm)]
    rfl
  rw [himp]
  simp only [sb1, if_neg ht]
  exact ⟨⟨true, rng, msg, r, paramsOf f, st2⟩, _, r, ⟨rfl, rfl, hmsg, lr, p2⟩, rfl, by simp [enc3_length], lm, rfl⟩

/-- What the second step does with whatever scalar is in the object. -/
theorem finish_spec (hP : Supported P) {f : Fld} {c : KEM} (hc : KemOf f c) (a : Args) (hprv : PrivOf f variantSike a.prv)
    {t : Tri (Fq f)} (hpub : Pub f variantSike a.pub t) (hl : a.ciphertext.length = ctLen f) (hs : msgLen f ≤ a.secret.length)
    (pkBytes m sc : List Byte) (lp : 6 * fieldBytes f ≤ pkBytes.length) (lm : m.length = msgLen f) :
    ∃ c', KemOf f c' ∧ c'.secretBytes = c.secretBytes ∧ finish P c a ⟨pkBytes, m, msgLen f, ephemeral f sc, blank f⟩ = some (c', .done
      (Keccak.shake256 ((if (sike f).gen c.secretBytes = a.ciphertext.take (sike f).pkLen then m else a.prv.S) ++ a.ciphertext) (msgLen f) ++
        a.secret.drop (msgLen f), true)) := by
  obtain ⟨k1, k2, k3, k4, k5, k6, k7, k8, k9, k10, k11⟩ := kemParams f
  obtain ⟨s1, s2, s3, s4, s5, s6⟩ := sizes f
  obtain ⟨al, rng, msg, r, pr, sh⟩ := c
  obtain ⟨h1, h2, hmsg, lr, hsh⟩ := hc
  simp only at h1 h2 hmsg lr hsh
  subst h1 h2
  obtain ⟨secret, prv, pub, ciphertext⟩ := a
  simp only at hprv hpub hl hs ⊢
  have lct : ciphertext.length = 6 * fieldBytes f + msgLen f := hl
  have q4 : prv.S.length = msgLen f := by
    obtain ⟨-, -, -, q4⟩ := hprv
    rw [if_pos (show variantSike = 6 from rfl), k1] at q4
    exact q4
  obtain ⟨pkA, e3, e4⟩ := gen_spec (privA f r lr) (blank f) rfl rfl
  have e0 : PrivateKey.generatePublicKey {ephemeral f sc with scalar := r} (blank f) = some pkA := e3
  rw [finish]
  simp only
  rw [e0]
  simp only [sb1]
  rw [export_long e4 _ lp]
  simp only [sb1]
  rw [sliceTo, s3, if_pos (by simp [enc3_length]), List.take_left' (enc3_length _)]
  simp only [sb1]
  rw [sliceTo, hpub.params, s3, if_pos (by omega)]
  simp only [sb1]
  have hpick : cpick (constantTimeCompare (enc3 (genF f ((variantA : W64).getLsbD 0) (ephemeral f r).scalar)) (ciphertext.take (6 * fieldBytes f)))
      (msgLen f) m prv.S = some (if publicBytes f r = ciphertext.take (6 * fieldBytes f) then m else prv.S) := by
    change cpick (constantTimeCompare (enc3 (genF f true r)) _) _ _ _ = some (if publicBytes f r = ciphertext.take (6 * fieldBytes f) then _ else _)
    rw [gen_eq f r lr, constantTimeCompare, ← lm]
    obtain ⟨g1, g2⟩ := c32_cpick m prv.S (by omega)
    split
    · exact g1
    · exact g2
  rw [hpick]
  simp only [sb1]
  rw [sliceTo, if_pos (by omega)]
  simp only [sb1]
  obtain ⟨st3, e5, p3⟩ := hash_spec hP (c := ⟨true, rng, msg, r, paramsOf f, sh⟩) hsh
    [if publicBytes f r = ciphertext.take (6 * fieldBytes f) then m else prv.S, ciphertext] (secret.take (paramsOf f).kemSize)
  refine ⟨⟨true, rng, msg, r, paramsOf f, st3⟩, ⟨rfl, rfl, hmsg, lr, p3⟩, rfl, ?_⟩
  rw [e5]
  simp only [sb1, List.length_take, k2, Nat.min_eq_left hs, List.flatten_cons, List.flatten_nil, List.append_nil]
  rfl

/-! ### two calls that overlap -/

/-- C131. Two goroutines on one KEM object, in whatever state it is, with any ciphertexts of the right length: there is a schedule
under which both return without error and the test of the first ciphertext is done with the scalar made from the second. -/
theorem c131_check (hP : Supported P) {f : Fld} {c : KEM} (hc : KemOf f c) (a b : Args) (hpa : PrivOf f variantSike a.prv) (hpb : PrivOf f variantSike b.prv)
    {X Y Z X' Y' Z' : Fq f} (ha : PubOf f variantSike a.pub X Y Z) (hb : PubOf f variantSike b.pub X' Y' Z')
    (hla : a.ciphertext.length = ctLen f) (hsa : msgLen f ≤ a.secret.length) (hlb : b.ciphertext.length = ctLen f) (hsb : msgLen f ≤ b.secret.length) :
    ∃ sched c', SikeSharedDec.run P c [.called a, .called b] sched = some (c',
      [.done (Keccak.shake256 ((if (sike f).gen ((sike f).coins ((sike f).dec b.prv.scalar b.ciphertext) (bytesOf f b.pub)) = a.ciphertext.take (sike f).pkLen
          then (sike f).dec a.prv.scalar a.ciphertext else a.prv.S) ++ a.ciphertext) (msgLen f) ++ a.secret.drop (msgLen f), true),
       .done ((sike f).decaps b.prv.scalar b.prv.S (bytesOf f b.pub) b.ciphertext ++ b.secret.drop (msgLen f), true)]) := by
  have ha : Pub f variantSike a.pub ⟨X, Y, Z⟩ := ha
  have hb : Pub f variantSike b.pub ⟨X', Y', Z'⟩ := hb
  obtain ⟨c1, pk1, sc1, d1, d2, d3, d4, d5⟩ := enter_spec hP hc a hpa ha hla hsa
  obtain ⟨c2, pk2, sc2, f1, f2, f3, f4, f5⟩ := enter_spec hP d1 b hpb hb hlb hsb
  obtain ⟨c3, g1, g2, g3⟩ := finish_spec hP f1 a hpa ha hla hsa pk1 _ sc1 d3 d4
  obtain ⟨c4, i1, i2, i3⟩ := finish_spec hP g1 b hpb hb hlb hsb pk2 _ sc2 f3 f4
  rw [g2] at i3
  rw [f2] at g3 i3
  refine ⟨[0, 1, 0, 1], c4, ?_⟩
  show ((enter P c a).map _).bind _ = _
  rw [d5]
  show ((enter P c1 b).map _).bind _ = _
  rw [f5]
  show ((finish P c2 a _).map _).bind _ = _
  rw [g3]
  show ((finish P c3 b _).map _).bind _ = _
  rw [i3, bytesOf_eq hb, decaps_eq]
  rfl

/-- C131. A ciphertext passes the test although it may be forged: beside a ciphertext that is accepted, any one with the same first part,
for any key, gives the hash of what it decrypts to, and not of S. -/
theorem c131_bypass (hP : Supported P) {f : Fld} {c : KEM} (hc : KemOf f c) (a b : Args) (hpa : PrivOf f variantSike a.prv) (hpb : PrivOf f variantSike b.prv)
    {X Y Z X' Y' Z' : Fq f} (ha : PubOf f variantSike a.pub X Y Z) (hb : PubOf f variantSike b.pub X' Y' Z')
    (hla : a.ciphertext.length = ctLen f) (hsa : msgLen f ≤ a.secret.length) (hlb : b.ciphertext.length = ctLen f) (hsb : msgLen f ≤ b.secret.length)
    (hok : (sike f).Accepts b.prv.scalar (bytesOf f b.pub) b.ciphertext) (hsame : a.ciphertext.take (sike f).pkLen = b.ciphertext.take (sike f).pkLen) :
    ∃ sched c' s0 s1, SikeSharedDec.run P c [.called a, .called b] sched = some (c', [.done (s0, true), .done (s1, true)]) ∧
      s0.take (msgLen f) = Keccak.shake256 ((sike f).dec a.prv.scalar a.ciphertext ++ a.ciphertext) (msgLen f) := by
  obtain ⟨sched, c', h⟩ := c131_check hP hc a b hpa hpb ha hb hla hsa hlb hsb
  refine ⟨sched, c', _, _, h, ?_⟩
  rw [if_pos (by rw [hsame]; exact hok)]
  exact List.take_left' (H_length _ _)

/-- C131. A good ciphertext is turned away: beside one whose re-encryption gives another first part, it gives the hash of S. -/
theorem c131_refused (hP : Supported P) {f : Fld} {c : KEM} (hc : KemOf f c) (a b : Args) (hpa : PrivOf f variantSike a.prv) (hpb : PrivOf f variantSike b.prv)
    {X Y Z X' Y' Z' : Fq f} (ha : PubOf f variantSike a.pub X Y Z) (hb : PubOf f variantSike b.pub X' Y' Z')
    (hla : a.ciphertext.length = ctLen f) (hsa : msgLen f ≤ a.secret.length) (hlb : b.ciphertext.length = ctLen f) (hsb : msgLen f ≤ b.secret.length)
    (hok : (sike f).Accepts b.prv.scalar (bytesOf f b.pub) b.ciphertext) (hdiff : a.ciphertext.take (sike f).pkLen ≠ b.ciphertext.take (sike f).pkLen) :
    ∃ sched c' s0 s1, SikeSharedDec.run P c [.called a, .called b] sched = some (c', [.done (s0, true), .done (s1, true)]) ∧
      s0.take (msgLen f) = Keccak.shake256 (a.prv.S ++ a.ciphertext) (msgLen f) := by
  obtain ⟨sched, c', h⟩ := c131_check hP hc a b hpa hpb ha hb hla hsa hlb hsb
  refine ⟨sched, c', _, _, h, ?_⟩
  have hok : (sike f).gen ((sike f).coins ((sike f).dec b.prv.scalar b.ciphertext) (bytesOf f b.pub)) = b.ciphertext.take (sike f).pkLen := hok
  rw [if_neg (by rw [hok]; exact fun e => hdiff e.symm)]
  exact List.take_left' (H_length _ _)

/-! ### calls that don't overlap -/

/-- Calls one after the other: the object and what each returned. -/
def oneByOne (P : Plat) (c : KEM) : List Args → Option (KEM × List (List Byte × Bool))
  | [] => some (c, [])
  | a :: as => do
    let (c, r) ← c.decapsulate P a.secret a.prv a.pub a.ciphertext
    let (c, rs) ← oneByOne P c as
    some (c, r :: rs)

theorem run_append (js ks : List Nat) : ∀ (c : KEM) (gs : List Gor),
    SikeSharedDec.run P c gs (js ++ ks) = (SikeSharedDec.run P c gs js).bind fun x => SikeSharedDec.run P x.1 x.2 ks := by
  induction js with
  | nil => intro c gs; rfl
  | cons j js ih =>
    intro c gs
    rw [List.cons_append, SikeSharedDec.run, SikeSharedDec.run]
    cases SikeSharedDec.step P c gs j with
    | none => rfl
    | some x => exact ih x.1 x.2

theorem serial_aux (calls : Nat → Args) (order : List Nat) : ∀ {c c' : KEM} {rs : List (List Byte × Bool)} {gs : List Gor},
    order.Nodup → (∀ j ∈ order, gs[j]? = some (.called (calls j))) → oneByOne P c (order.map calls) = some (c', rs) →
    ∃ gs', SikeSharedDec.run P c gs (order.flatMap fun j => [j, j]) = some (c', gs') ∧ (∀ j, j ∉ order → gs'[j]? = gs[j]?) ∧
      ∀ i j : Nat, order[i]? = some j → ∃ r, gs'[j]? = some (.done r) ∧ rs[i]? = some r := by
  induction order with
  | nil =>
    intro c c' rs gs _ _ h
    cases h
    exact ⟨gs, rfl, fun _ _ => rfl, fun i j e => by simp at e⟩
  | cons k order ih =>
    intro c c' rs gs hn hg h
    rw [List.nodup_cons] at hn
    simp only [List.map_cons, oneByOne, Option.bind_eq_bind, Option.bind_eq_some_iff] at h
    obtain ⟨⟨c1, r⟩, hy, ⟨c2, rs'⟩, h, h'⟩ := h
    simp only [Option.some.injEq, Prod.mk.injEq] at h'
    obtain ⟨rfl, rfl⟩ := h'
    have hk := hg k (List.mem_cons_self ..)
    have hlt := (List.getElem?_eq_some_iff.1 hk).1
    have hrun := c131_same (P := P) c gs k _ hk
    rw [hy] at hrun
    simp only [Option.map_some] at hrun
    obtain ⟨gs', b1, b2, b3⟩ := ih (gs := gs.set k (.done r)) hn.2 (fun j hj => by
      rw [List.getElem?_set_ne (by rintro rfl; exact hn.1 hj)]
      exact hg j (List.mem_cons_of_mem _ hj)) h
    refine ⟨gs', ?_, ?_, ?_⟩
    · rw [List.flatMap_cons, run_append, hrun]; exact b1
    · intro j hj
      simp only [List.mem_cons, not_or] at hj
      rw [b2 j hj.2, List.getElem?_set_ne (Ne.symm hj.1)]
    · intro i j e
      cases i with
      | zero =>
        simp only [List.getElem?_cons_zero, Option.some.injEq] at e
        subst e
        exact ⟨r, by rw [b2 _ hn.1, List.getElem?_set_self hlt], rfl⟩
      | succ i =>
        simp only [List.getElem?_cons_succ] at e ⊢
        exact b3 i j e

theorem oneByOne_spec (hP : Supported P) {f : Fld} (as : List Args) : ∀ {c : KEM}, KemOf f c →
    (∀ a ∈ as, PrivOf f variantSike a.prv ∧ (∃ X Y Z : Fq f, PubOf f variantSike a.pub X Y Z) ∧ a.ciphertext.length = ctLen f ∧ msgLen f ≤ a.secret.length) →
    ∃ c', oneByOne P c as = some (c', as.map fun a =>
      ((sike f).decaps a.prv.scalar a.prv.S (bytesOf f a.pub) a.ciphertext ++ a.secret.drop (msgLen f), true)) := by
  induction as with
  | nil => intro c _ _; exact ⟨c, rfl⟩
  | cons a as ih =>
    intro c hc h
    obtain ⟨h1, ⟨X, Y, Z, h2⟩, h3, h4⟩ := h a (List.mem_cons_self ..)
    obtain ⟨c1, g1, _, g3⟩ := c54_decapsulate hP f c hc a.prv h1 a.pub X Y Z h2 a.ciphertext a.secret h3 h4
    obtain ⟨c2, e⟩ := ih g1 (fun b hb => h b (List.mem_cons_of_mem _ hb))
    exact ⟨c2, by simp only [oneByOne, g3, e, Option.bind_eq_bind, Option.bind_some, List.map_cons]⟩

/-- C131, what holds: when calls don't overlap, as with a lock around each, every goroutine gets the secret of the specification for
its ciphertext and key, whatever the others ask for and in whatever order they come.  Missing from the property: calls that overlap
(`c131_bypass`, `c131_refused`). -/
theorem c131_serial_partial (hP : Supported P) {f : Fld} {c : KEM} (hc : KemOf f c) (calls : Nat → Args) (n : Nat) (order : List Nat)
    (hn : order.Nodup) (hlt : ∀ j ∈ order, j < n)
    (h : ∀ j ∈ order, PrivOf f variantSike (calls j).prv ∧ (∃ X Y Z : Fq f, PubOf f variantSike (calls j).pub X Y Z) ∧
      (calls j).ciphertext.length = ctLen f ∧ msgLen f ≤ (calls j).secret.length) :
    ∃ c' gs, SikeSharedDec.run P c ((List.range n).map fun j => .called (calls j)) (order.flatMap fun j => [j, j]) = some (c', gs) ∧
      ∀ j ∈ order, gs[j]? = some (.done ((sike f).decaps (calls j).prv.scalar (calls j).prv.S (bytesOf f (calls j).pub) (calls j).ciphertext ++
        (calls j).secret.drop (msgLen f), true)) := by
  obtain ⟨c', e⟩ := oneByOne_spec hP (order.map calls) hc (by
    intro a ha
    obtain ⟨j, hj, rfl⟩ := List.mem_map.1 ha
    exact h j hj)
  obtain ⟨gs, b1, _, b3⟩ := serial_aux (P := P) calls order (gs := (List.range n).map fun j => .called (calls j)) hn (fun j hj => by
    rw [List.getElem?_map, List.getElem?_range (hlt j hj)]; rfl) e
  refine ⟨c', gs, b1, fun j hj => ?_⟩
  obtain ⟨i, hi⟩ := List.getElem?_of_mem hj
  obtain ⟨r, r1, r2⟩ := b3 i j hi
  rw [List.map_map, List.getElem?_map, hi] at r2
  cases r2
  exact r1

/-! ### a case -/

/-- A generated key, a ciphertext for it that is accepted, and another with the same first part. -/
example (hP : Supported P) (f : Fld) (rng : List Byte) (h : seedLen f 6 + byteLen f 6 ≤ rng.length) (m : List Byte) (hm : m.length = msgLen f) :
    ∃ prv pub ct ct', PrivOf f variantSike prv ∧ (∃ X Y Z : Fq f, PubOf f variantSike pub X Y Z) ∧ ct.length = ctLen f ∧ ct'.length = ctLen f ∧
      (sike f).Accepts prv.scalar (bytesOf f pub) ct ∧ ct' ≠ ct ∧ ct'.take (sike f).pkLen = ct.take (sike f).pkLen := by
  obtain ⟨k0, h1, h2⟩ := c34_new f variantSike
  obtain ⟨k, h3, h4, _⟩ := c37_function f variantSike k0 h2 rng h
  obtain ⟨pub, h8, h9⟩ := gen_spec h4 ⟨paramsOf f, variantSike, ⟨zeroFp2 f.words, zeroFp2 f.words, zeroFp2 f.words⟩⟩ rfl rfl
  rw [show (variantSike : W64).getLsbD 0 = false from rfl] at h9
  have hsk := h4.scalar
  rw [if_neg (by decide)] at hsk
  have lr := coins_length f m (enc3 (genF f false k.scalar))
  have lct : ((sike f).encaps m (enc3 (genF f false k.scalar))).1.length = ctLen f := enc_length f lr _ _ hm
  have hd : (sike f).dec k.scalar ((sike f).encaps m (enc3 (genF f false k.scalar))).1 = m := dec_enc_scheme f k.scalar _ m hsk lr hm
  have l1 : ((sike f).gen ((sike f).coins m (enc3 (genF f false k.scalar)))).length = (sike f).pkLen := by
    change (publicBytes f _).length = _; rw [gen_eq f _ lr, enc3_length]; rfl
  have ha : (sike f).Accepts k.scalar (enc3 (genF f false k.scalar)) ((sike f).encaps m (enc3 (genF f false k.scalar))).1 := by
    rw [Scheme.Accepts, hd, Scheme.encaps, Scheme.enc]
    exact (List.take_left' l1).symm
  have hpos : 0 < msgLen f := by cases f <;> decide
  obtain ⟨ct, hct⟩ : ∃ ct, ((sike f).encaps m (enc3 (genF f false k.scalar))).1 = ct := ⟨_, rfl⟩
  rw [hct] at lct ha
  have lct' : ct.length = (sike f).pkLen + msgLen f := lct
  refine ⟨k, pub, ct, ct.take (sike f).pkLen ++ (ct.drop (sike f).pkLen).map (· + 1), h4, ⟨_, _, _, h9⟩, lct, ?_, ?_, ?_, ?_⟩
  · rw [List.length_append, List.length_map, List.length_take, List.length_drop, lct']; show _ = (sike f).pkLen + msgLen f; omega
  · rw [bytesOf_eq (show Pub f variantSike pub (genF f false k.scalar) from h9)]; exact ha
  · intro e
    have e1 := congrArg (List.drop (sike f).pkLen) e
    rw [List.drop_left' (by rw [List.length_take]; omega)] at e1
    have l2 : 0 < (ct.drop (sike f).pkLen).length := by rw [List.length_drop]; omega
    cases hx : ct.drop (sike f).pkLen with
    | nil => rw [hx] at l2; simp at l2
    | cons y ys =>
      rw [hx] at e1
      simp only [List.map_cons, List.cons.injEq] at e1
      have := e1.1
      bv_omega
  · exact List.take_left' (by rw [List.length_take]; omega)

end Props.SikeSharedDec
