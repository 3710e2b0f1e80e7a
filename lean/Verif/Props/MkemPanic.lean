import Verif.Lemmas.MkemPanic
/-!
C126: a multi-recipient KEM object after calls that panicked.  The model is `Verif/Model/MkemPanic.lean`, the
specification of what `Encapsulate` computes `Verif/Spec/Mkem.lean`.
-/
namespace Props.MkemPanic
open Model Model.Sidh Model.Sha3 Model.Sike Model.Mkem Model.MkemPanic Spec Spec.Sidh Spec.Sike Lemmas.Sike Lemmas.MkemPanic Props.Sike Props.SidhKeys Props.SidhCurve Props.Mkem Lemmas.SidhNat Lemmas.Sha3

variable {P : Plat}

/-- A call on a `MultiKEM`, with any arguments. -/
inductive Call
  | allocate (id : Byte) (n : Nat) (rng : List Byte)
  | encapsulate (secret : List Byte) (pubs : List PublicKey)
  | decapsulate (secret : List Byte) (prv : PrivateKey) (pub : PublicKey) (ciphertext : List Byte)
  | reset
  | newPrivateKey
  | newPublicKey

/-- The object after a call, which may have panicked. -/
def after (P : Plat) (c : MultiKEM) : Call → MultiKEM
  | .allocate id n rng => (MkemPanic.allocate id n rng c).1
  | .encapsulate s pubs => (MkemPanic.encapsulate P s pubs c).1
  | .decapsulate s prv pub ct => (MkemPanic.decapsulate P s prv pub ct c).1
  | .reset => (MkemPanic.resetObj c).1
  | .newPrivateKey => (MkemPanic.newPrivateKey c).1
  | .newPublicKey => (MkemPanic.newPublicKey c).1

/-- The object after calls one after the other by a program that recovers from panics. -/
def afterAll (P : Plat) (c : MultiKEM) (ks : List Call) : MultiKEM := ks.foldl (after P) c

/-- The field and the number of recipients an object is for after a call: only `Allocate` with a known id changes them. -/
def madeFor (o : Option (Fld × Nat)) : Call → Option (Fld × Nat)
  | .allocate id n _ => if id = idOf .p434 then some (.p434, n) else if id = idOf .p503 then some (.p503, n) else if id = idOf .p751 then some (.p751, n) else o
  | _ => o

/-! ### every call keeps the object in shape -/

/-- An object that was made for o, whatever happened to it since. -/
def Obj : Option (Fld × Nat) → MultiKEM → Prop
  | none, c => c.kem.allocated = false ∧ c.ct0.length = maxPublicKeySz ∧ c.j.length = maxSharedSecretBsz
  | some (f, n), c => Inv f n c

theorem obj_lengths {o : Option (Fld × Nat)} {c : MultiKEM} (h : Obj o c) : c.ct0.length = maxPublicKeySz ∧ c.j.length = maxSharedSecretBsz := by
  cases o with
  | none => exact h.2
  | some o => exact ⟨h.1.2, h.1.4⟩

theorem allocate_bad {id : Byte} {n : Nat} {rng : List Byte} {c : MultiKEM} (h : ∀ f, id ≠ idOf f) :
    MkemPanic.allocate id n rng c = ({c with kem := {c.kem with rng := rng}}, none) := by
  rw [MkemPanic.allocate, get_bind, set_bind, (c33_std id).2.2 h]
  rfl

theorem allocate_good (f : Fld) (n : Nat) (rng : List Byte) (c : MultiKEM) :
    (MkemPanic.allocate (idOf f) n rng c).2 = some () ∧ c.allocate (idOf f) n rng = some (MkemPanic.allocate (idOf f) n rng c).1 := by
  rw [MkemPanic.allocate, get_bind, set_bind, MultiKEM.allocate, Model.Sike.allocate, (c33_std 0).2.1]
  exact ⟨rfl, rfl⟩

theorem madeFor_good (o : Option (Fld × Nat)) (f : Fld) (n : Nat) (rng : List Byte) : madeFor o (.allocate (idOf f) n rng) = some (f, n) := by cases f <;> rfl

theorem madeFor_bad {o : Option (Fld × Nat)} {id : Byte} {n : Nat} {rng : List Byte} (h : ∀ f, id ≠ idOf f) : madeFor o (.allocate id n rng) = o := by
  rw [madeFor, if_neg (h _), if_neg (h _), if_neg (h _)]

theorem after_obj (hP : Supported P) (o : Option (Fld × Nat)) (k : Call) {c : MultiKEM} (hc : Obj o c) : Obj (madeFor o k) (after P c k) := by
  cases k with
  | allocate id n rng =>
    by_cases h : ∃ f, id = idOf f
    · obtain ⟨f, rfl⟩ := h
      rw [madeFor_good, after]
      obtain ⟨l1, l2⟩ := obj_lengths hc
      obtain ⟨c', a1, a2, a3, a4, _⟩ := mkem_new f n rng c l1 l2
      rw [(allocate_good f n rng c).2] at a1
      rw [Option.some.inj a1]
      exact ⟨a2, a4⟩
    · have h : ∀ f, id ≠ idOf f := fun f e => h ⟨f, e⟩
      rw [madeFor_bad h, after, allocate_bad h]
      cases o with
      | none => exact hc
      | some o => exact ⟨⟨⟨hc.1.1.1, hc.1.1.2, hc.1.1.3, hc.1.1.4, hc.1.1.5⟩, hc.1.2, hc.1.3, hc.1.4⟩, hc.2⟩
  | encapsulate s pubs =>
    cases o with
    | none => rw [after, MkemPanic.encapsulate, if_pos hc.1]; exact hc
    | some o => exact encaps_ok hP s pubs hc
  | decapsulate s prv pub ct =>
    cases o with
    | none => rw [after, MkemPanic.decapsulate, if_pos hc.1]; exact hc
    | some o =>
      obtain ⟨h1, h2, h3, h4, h5⟩ := decaps_ok hP s prv pub ct hc.1
      exact ⟨h1, by rw [after, h5]; exact hc.2⟩
  | reset =>
    cases o with
    | none => exact hc
    | some o =>
      refine ⟨⟨⟨hc.1.1.1, hc.1.1.2, ?_, ?_, hc.1.1.5⟩, hc.1.2, hc.1.3, hc.1.4⟩, hc.2⟩
      · simp [after, MkemPanic.resetObj, MultiKEM.resetObj, KEM.resetObj, hc.1.kem.msg]
      · simp [after, MkemPanic.resetObj, MultiKEM.resetObj, KEM.resetObj, hc.1.kem.secretBytes]
  | newPrivateKey => exact hc
  | newPublicKey => exact hc

theorem afterAll_obj (hP : Supported P) : ∀ (ks : List Call) (o : Option (Fld × Nat)) (c : MultiKEM), Obj o c → Obj (ks.foldl madeFor o) (afterAll P c ks)
  | [], _, _, h => h
  | k :: ks, o, _, h => afterAll_obj hP ks _ _ (after_obj hP o k h)

theorem zero_obj : Obj none MultiKEM.zero := ⟨rfl, by simp [MultiKEM.zero], by simp [MultiKEM.zero]⟩

/-- the object of a history in which some `Allocate` was good -/
theorem history_obj (hP : Supported P) {ks : List Call} {f : Fld} {n : Nat} (h : ks.foldl madeFor none = some (f, n)) :
    MkemOf f (afterAll P MultiKEM.zero ks) ∧ (afterAll P MultiKEM.zero ks).cts.length = n := by
  have := afterAll_obj hP ks none _ zero_obj
  rw [h] at this
  exact this

theorem of_agrees {α : Type} {x : MultiKEM × Option α} {d : MultiKEM} {a : α} (h : Lemmas.MkemPanic.Agrees x (some (d, a))) : x = (d, some a) := by
  obtain ⟨c, _ | b⟩ := x
  · exact absurd h (by simp [Agrees])
  · simp only [Agrees, Option.map_some, Option.some.injEq, Prod.mk.injEq] at h
    rw [h.1, h.2]

/-- a decapsulation with any arguments -/
def isDecapsulate : Call → Prop
  | .decapsulate .. => True
  | _ => False

theorem decaps_kept (hP : Supported P) {f : Fld} {c : MultiKEM} : ∀ (ds : List Call), (∀ k ∈ ds, isDecapsulate k) → ∀ d, Kept f c d → Kept f c (afterAll P d ds)
  | [], _, _, h => h
  | k :: ds, hk, d, h => by
    refine decaps_kept hP ds (fun x hx => hk x (List.mem_cons_of_mem _ hx)) _ ?_
    have hd := hk k List.mem_cons_self
    cases k with
    | decapsulate s prv pub ct =>
      obtain ⟨h1, h2, h3, h4, h5⟩ := decaps_ok hP s prv pub ct h.1
      exact ⟨h1, h2.trans h.2.1, h3.trans h.2.2.1, h4.trans h.2.2.2.1, h5.trans h.2.2.2.2⟩
    | _ => exact hd.elim

/-! ### the property -/

/-- C126. A multi-recipient KEM object on which calls were made in any order and with any arguments, legal or not, from
`var c MultiKEM` on, by a program that recovers from panics.  If the last `Allocate` with a known id was for field f and n
recipients, `Encapsulate` to at most n key pairs works, and the i-th recipient gets the secret from the i-th
ciphertext, also after any calls of `Decapsulate` in between, whatever their arguments and whether they panicked. -/
theorem c126_usable (hP : Supported P) (ks : List Call) (f : Fld) (n : Nat) (hm : ks.foldl madeFor none = some (f, n))
    (keys : List (PrivateKey × PublicKey)) (hk : ∀ k ∈ keys, KeyPair f k.1 k.2) (hl : keys.length ≤ n)
    (hr : msgLen f ≤ (afterAll P MultiKEM.zero ks).kem.rng.length) (secret : List Byte) (hs : msgLen f ≤ secret.length) :
    ∃ c' s, MkemPanic.encapsulate P secret (keys.map (·.2)) (afterAll P MultiKEM.zero ks) = (c', some (s, true)) ∧
      ∀ ds : List Call, (∀ k ∈ ds, isDecapsulate k) → ∀ (i : Nat) prv pub, keys[i]? = some (prv, pub) → ∀ secret2 : List Byte, msgLen f ≤ secret2.length →
        ∃ x s2, (afterAll P c' ds).cts[i]? = some x ∧ (MkemPanic.decapsulate P secret2 prv pub (x.take (msgLen f)) (afterAll P c' ds)).2 = some (s2, true) ∧
          s2.take (msgLen f) = s.take (msgLen f) := by
  obtain ⟨hc, hn⟩ := history_obj hP hm
  generalize afterAll P MultiKEM.zero ks = c at hr hc hn ⊢
  have hp : ∀ p ∈ keys.map (·.2), ∃ X Y Z, PubOf f variantSike p X Y Z := by
    intro p hp
    obtain ⟨k, hk1, rfl⟩ := List.mem_map.mp hp
    exact ⟨_, _, _, keyPair_pub (hk k hk1)⟩
  obtain ⟨c', a1, a2, a3, a4, a5, a6, a7⟩ := (encaps_spec hP hc _ hp secret hs).2.2 hr (by simpa [hn] using hl)
  have lm : (c.kem.rng.take (msgLen f)).length = msgLen f := by simp; omega
  obtain ⟨m, hm⟩ : ∃ m, c.kem.rng.take (msgLen f) = m := ⟨_, rfl⟩
  simp only [hm] at a1 a3 a5 a7 lm
  have ha := agrees_encapsulate (P := P) secret (keys.map (·.2)) c
  rw [a1] at ha
  refine ⟨c', _, of_agrees ha, ?_⟩
  intro ds hds i prv pub hi secret2 hs2
  obtain ⟨b1, b2, _, b3, b4⟩ := decaps_kept hP ds hds c' (⟨a2, rfl, rfl, rfl, rfl⟩ : Kept f c' c')
  generalize afterAll P c' ds = d at b1 b2 b3 b4 ⊢
  have hkp := hk _ (List.mem_of_getElem? hi)
  have hpub := keyPair_pub hkp
  obtain ⟨x, x1, x2⟩ := a7 i pub (by rw [List.getElem?_map, hi]; rfl)
  rw [bytesOf_eq hpub] at x2
  have lx : (x.take (msgLen f)).length = msgLen f := by
    have := a2.cts x (List.mem_of_getElem? x1)
    have := (kemParams f).2.2.2.2.2.2.1
    simp; omega
  obtain ⟨d', e1, _⟩ := decaps_spec hP b1 hkp.1 hpub _ secret2 lx hs2
  have hd := agrees_decapsulate (P := P) secret2 prv pub (x.take (msgLen f)) d
  rw [e1] at hd
  refine ⟨x, _, by rw [b4]; exact x1, by rw [of_agrees hd], ?_⟩
  have hsk := hkp.1.scalar
  rw [if_neg (by decide)] at hsk
  rw [x2, b2, b3, a3, a5, picked_honest f m _ _ m hsk lm lm, if_pos rfl]
  exact (List.take_left' (H_length _ _)).trans (List.take_left' (H_length _ _)).symm

/-- C126. After such a history `Encapsulate` gives what it gives on an object newly made for as many recipients and the
same random source: the same secret, common part and ciphertexts. -/
theorem c126_as_new (hP : Supported P) (ks : List Call) (f : Fld) (n : Nat) (hm : ks.foldl madeFor none = some (f, n)) (pubs : List PublicKey)
    (hp : ∀ p ∈ pubs, ∃ X Y Z, PubOf f variantSike p X Y Z) (hl : pubs.length ≤ n) (hr : msgLen f ≤ (afterAll P MultiKEM.zero ks).kem.rng.length)
    (secret : List Byte) (hs : msgLen f ≤ secret.length) :
    ∃ c' e' s, MkemPanic.encapsulate P secret pubs (afterAll P MultiKEM.zero ks) = (c', some (s, true)) ∧
      MkemPanic.encapsulate P secret pubs (after P MultiKEM.zero (.allocate (idOf f) n (afterAll P MultiKEM.zero ks).kem.rng)) = (e', some (s, true)) ∧
      c'.ct0.take (6 * fieldBytes f) = e'.ct0.take (6 * fieldBytes f) ∧
      ∀ i < pubs.length, ∃ x y, c'.cts[i]? = some x ∧ e'.cts[i]? = some y ∧ x.take (msgLen f) = y.take (msgLen f) := by
  obtain ⟨hc, hn⟩ := history_obj hP hm
  generalize afterAll P MultiKEM.zero ks = c at hr hc hn ⊢
  obtain ⟨e, a1, a2, a3, a4, _⟩ := mkem_new f n c.kem.rng MultiKEM.zero (by simp [MultiKEM.zero]) (by simp [MultiKEM.zero])
  rw [(allocate_good f n c.kem.rng MultiKEM.zero).2] at a1
  rw [after, Option.some.inj a1]
  obtain ⟨c', b1, b2, b3⟩ := c60_independent hP f c hc pubs hp (by omega) hr secret hs
  obtain ⟨e', d1, d2, d3⟩ := c60_independent hP f e a2 pubs hp (by omega) (by rw [a3]; exact hr) secret hs
  rw [a3] at d1 d2 d3
  have hb := agrees_encapsulate (P := P) secret pubs c
  have hd := agrees_encapsulate (P := P) secret pubs e
  rw [b1] at hb
  rw [d1] at hd
  refine ⟨c', e', _, of_agrees hb, of_agrees hd, by rw [b2, d2], ?_⟩
  intro i hi
  obtain ⟨x, x1, x2⟩ := b3 i _ (List.getElem?_eq_getElem hi)
  obtain ⟨y, y1, y2⟩ := d3 i _ (List.getElem?_eq_getElem hi)
  exact ⟨x, y, x1, y1, by rw [x2, y2]⟩

/-- C126. `Encapsulate` to a list with a recipient that can't be served: a key that isn't a SIKE key or is over another
field, or one more than there is room for.  The call panics; the object then holds the new message, the new common part,
new ciphertexts for the recipients before that one, and what it held before for all others. -/
theorem c126_abandoned (hP : Supported P) (f : Fld) (c : MultiKEM) (hc : MkemOf f c) (good : List PublicKey)
    (hp : ∀ p ∈ good, ∃ X Y Z, PubOf f variantSike p X Y Z) (hl : good.length ≤ c.cts.length) (bad : PublicKey) (rest : List PublicKey)
    (hb : bad.variant ≠ variantSike ∨ bad.params.id ≠ (paramsOf f).id ∨ good.length = c.cts.length)
    (hr : msgLen f ≤ c.kem.rng.length) (secret : List Byte) (hs : msgLen f ≤ secret.length) :
    let m := c.kem.rng.take (msgLen f)
    ∃ d, MkemPanic.encapsulate P secret (good ++ bad :: rest) c = (d, none) ∧ MkemOf f d ∧ d.kem.msg = m ∧ d.kem.rng = c.kem.rng.drop (msgLen f) ∧
      d.ct0.take (6 * fieldBytes f) = Mkem.ct0 (sike f) m ∧
      (∀ (i : Nat) p, good[i]? = some p → ∃ x : List Byte, d.cts[i]? = some x ∧ x.take (msgLen f) = Mkem.ct (sike f) m (bytesOf f p)) ∧
      ∀ i, good.length ≤ i → d.cts[i]? = c.cts[i]? := by
  intro m
  have k2 := (kemParams f).2.1
  have lm : m.length = msgLen f := by simp only [m, List.length_take]; omega
  have e0 : goCopy c.kem.msg c.kem.rng = m := by
    rw [goCopy, hc.kem.msg, List.drop_eq_nil_of_le (by rw [hc.kem.msg]; exact hr), List.append_nil]
  rw [MkemPanic.encapsulate, if_neg (by rw [hc.kem.allocated]; decide), if_neg (by rw [hc.kem.params, k2]; omega)]
  simp only [MkemPanic.draw, assoc, pure_bind']
  rw [get_bind, set_bind]
  simp only [readFull, e0, hc.kem.msg]
  rw [if_neg (by simp [hr])]
  obtain ⟨d1, p1, p2, p3, p4, p5, p6⟩ := prepare_spec (P := P) (f := f) hP (c := {c with kem := {c.kem with msg := m, rng := c.kem.rng.drop (msgLen f)}})
    ⟨⟨hc.kem.1, hc.kem.2, lm, hc.kem.4, hc.kem.5⟩, hc.2, hc.3, hc.4⟩
  simp only at p1 p3 p4 p5 p6
  rw [bind_val p1, all_append, assoc]
  obtain ⟨_, q⟩ := all_spec hP (mcoins_length f m) good hp d1 p2 0 (Nat.zero_le _)
  obtain ⟨d2, q1, q2, q3, q4, q5, q6, q7, q8⟩ := q (by rw [p5]; omega)
  have ha := agrees_all (P := P) (ephemeral f (Mkem.coins (sike f) m)) good 0 d1
  rw [q1] at ha
  rw [bind_val (of_agrees ha), MkemPanic.encryptAll]
  obtain ⟨r1, r2⟩ := one_bad hP (skA := ephemeral f (Mkem.coins (sike f) m)) (i := 0 + good.length) (pkB := bad) q2 (by
    rcases hb with h | h | h
    · exact .inl h
    · exact .inr (.inl h)
    · exact .inr (.inr (by rw [q6, p5]; omega)))
  rcases hd : MkemPanic.encryptOne P (ephemeral f (Mkem.coins (sike f) m)) (0 + good.length) bad d2 with ⟨d, o⟩
  rw [hd] at r1 r2
  obtain ⟨r3, r4, r5, r6, r7⟩ := r1
  simp only at r2 r3 r4 r5 r6 r7
  subst r2
  rw [assoc, bind_none hd]
  refine ⟨d, rfl, r3, by rw [r4, q4, p3], by rw [r5, q5, p4], by rw [r6, q3, p6], ?_, ?_⟩
  · intro i p hi
    obtain ⟨x, x1, x2⟩ := q8 i p hi
    rw [p3] at x2
    exact ⟨x, by rw [r7, ← x1, Nat.zero_add], x2⟩
  · intro i hi
    rw [r7, all_cts good q1 i (by omega), p5]

/-- C126. What a recipient gets from the object such a call leaves, for every key pair and every ciphertext of the right
length: the recipients before the panic get a secret from the ciphertexts made for them, although the sender was given
none; for every string that isn't the ciphertext the new message gives, as one of an earlier `Encapsulate` that is still in the
object, it is the key made from the secret value S of the private key. -/
theorem c126_abandoned_recipient (hP : Supported P) (f : Fld) (c : MultiKEM) (hc : MkemOf f c) (good : List PublicKey)
    (hp : ∀ p ∈ good, ∃ X Y Z, PubOf f variantSike p X Y Z) (hl : good.length ≤ c.cts.length) (bad : PublicKey) (rest : List PublicKey)
    (hb : bad.variant ≠ variantSike ∨ bad.params.id ≠ (paramsOf f).id ∨ good.length = c.cts.length)
    (hr : msgLen f ≤ c.kem.rng.length) (secret : List Byte) (hs : msgLen f ≤ secret.length)
    (prv : PrivateKey) (pub : PublicKey) (hk : KeyPair f prv pub) (ct secret2 : List Byte) (hct : ct.length = msgLen f) (hs2 : msgLen f ≤ secret2.length) :
    let m := c.kem.rng.take (msgLen f)
    ∃ d, MkemPanic.encapsulate P secret (good ++ bad :: rest) c = (d, none) ∧
      (∀ i : Nat, good[i]? = some pub → ∃ x : List Byte, d.cts[i]? = some x ∧ x.take (msgLen f) = Mkem.ct (sike f) m (bytesOf f pub)) ∧
      ∃ d' s, MkemPanic.decapsulate P secret2 prv pub ct d = (d', some (s, true)) ∧
        s.take (msgLen f) = if ct = Mkem.ct (sike f) m (bytesOf f pub) then Keccak.shake256 (3 :: m) (msgLen f) else Keccak.shake256 (3 :: prv.S) (msgLen f) := by
  intro m
  obtain ⟨d, h1, h2, h3, _, h5, h6, _⟩ := c126_abandoned hP f c hc good hp hl bad rest hb hr secret hs
  obtain ⟨d', s, e1, _, e3⟩ := c109_decapsulate hP f d h2 prv pub hk ct secret2 hct hs2
  have ha := agrees_decapsulate (P := P) secret2 prv pub ct d
  rw [e1] at ha
  refine ⟨d, h1, fun i hi => h6 i pub hi, d', s, of_agrees ha, ?_⟩
  rw [e3, h3, h5]
  simp only [true_and]
  rfl

/-- The calls are those of the other properties: where they don't panic the model there gives the same, and where they
panic it panics. -/
theorem c126_same (c : MultiKEM) (ct s : List Byte) (prv : PrivateKey) (pub : PublicKey) (pubs : List PublicKey) (id : Byte) (n : Nat) (rng : List Byte) :
    (MkemPanic.encapsulate P s pubs c).2.map (fun a => ((MkemPanic.encapsulate P s pubs c).1, a)) = c.encapsulate P s pubs ∧
    (MkemPanic.decapsulate P s prv pub ct c).2.map (fun a => ((MkemPanic.decapsulate P s prv pub ct c).1, a)) = c.decapsulate P s prv pub ct ∧
    (MkemPanic.allocate id n rng c).2.map (fun _ => (MkemPanic.allocate id n rng c).1) = c.allocate id n rng := by
  refine ⟨agrees_encapsulate s pubs c, agrees_decapsulate s prv pub ct c, ?_⟩
  by_cases h : ∃ f, id = idOf f
  · obtain ⟨f, rfl⟩ := h
    obtain ⟨h1, h2⟩ := allocate_good f n rng c
    rw [h1, h2]; rfl
  · have h : ∀ f, id ≠ idOf f := fun f e => h ⟨f, e⟩
    rw [allocate_bad h, MultiKEM.allocate, Model.Sike.allocate, (c33_std id).2.2 h]
    rfl

/-- Non-vacuity of `c126_usable` and `c126_as_new`: a history with four panics, on an object for p434 and two recipients. -/
example (rng : List Byte) (hr : 16 ≤ rng.length) :
    let ks : List Call := [.newPublicKey, .allocate (idOf .p434) 2 [], .encapsulate [] [], .allocate 9 5 rng, .decapsulate [] ⟨p434Params, variantA, [], []⟩ ⟨p434Params, variantA, ⟨zeroFp2 7, zeroFp2 7, zeroFp2 7⟩⟩ []]
    ks.foldl madeFor none = some (.p434, 2) ∧ msgLen .p434 ≤ (afterAll P MultiKEM.zero ks).kem.rng.length := ⟨rfl, hr⟩

/-- Non-vacuity of `c126_abandoned`: a new object for p434 and three recipients, one good key and then one over p503; any strings of the right
lengths give such keys. -/
example (hP : Supported P) (rng a b : List Byte) (hr : 16 ≤ rng.length) (ha : a.length = 330) (hb : b.length = 378) : ∃ c good bad,
    MultiKEM.zero.allocate (idOf .p434) 3 rng = some c ∧ (∃ k, newPublicKey (idOf .p434) variantSike = some k ∧ k.importKey a = some (good, true)) ∧
    (∃ k, newPublicKey (idOf .p503) variantSike = some k ∧ k.importKey b = some (bad, true)) ∧
    (MkemPanic.encapsulate P (List.replicate 16 0) [good, bad, good] c).2 = none := by
  obtain ⟨c, c1, c2, c3, c4, _⟩ := mkem_new .p434 3 rng MultiKEM.zero (by simp [MultiKEM.zero]) (by simp [MultiKEM.zero])
  obtain ⟨k, good, h1, h2, h3⟩ := import_new (f := .p434) variantSike a ha
  obtain ⟨k', bad, g1, g2, g3⟩ := import_new (f := .p503) variantSike b hb
  refine ⟨c, good, bad, c1, ⟨k, h1, h2⟩, ⟨k', g1, g2⟩, ?_⟩
  obtain ⟨d, e, _⟩ := c126_abandoned hP .p434 c c2 [good] (by intro p hp; rw [List.mem_singleton.mp hp]; exact ⟨_, _, _, h3⟩)
    (by rw [c4]; simp) bad [good] (.inr (.inl (by
      have g3 : Pub .p503 variantSike bad ⟨_, _, _⟩ := g3
      rw [g3.params]; decide))) (by rw [c3]; exact hr) (List.replicate 16 0) (by rw [List.length_replicate]; exact Nat.le_refl 16)
  have e : MkemPanic.encapsulate P (List.replicate 16 0) [good, bad, good] c = (d, none) := e
  rw [e]

end Props.MkemPanic
