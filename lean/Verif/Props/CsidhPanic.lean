import Verif.Lemmas.CsidhPanic
import Verif.Props.CsidhAgree
/-!
C127: CSIDH keys and encryption objects after calls that panicked.  The model is `Verif/Model/CsidhPanic.lean`.
-/
namespace Props.CsidhPanic
open Model Model.Csidh Model.Sha3 Model.CsidhPke Spec Spec.Csidh Lemmas.CsidhField Lemmas.CsidhKeys Lemmas.CsidhMade Lemmas.CsidhPke Lemmas.Sha3
  Lemmas.CsidhPanic Props.CsidhAgree

variable {P : Plat}

/-- A call on a `MultiPKE`, with any arguments. -/
inductive Call
  | allocate (n : Nat) (rng : List Byte)
  | enc (pk : PublicKey) (pt : List Byte)
  | dec (sk : PrivateKey) (ct : Ciphertext)
  | encrypt (keys : List PublicKey) (pt : List Byte)

/-- The object after a call, which may have panicked. -/
def after (P : Plat) (c : MultiPKE) : Call → MultiPKE
  | .allocate n rng => c.allocate n rng
  | .enc pk pt => {c with pke := (Model.CsidhPanic.enc P c.pke pk pt).1}
  | .dec sk ct => {c with pke := (Model.CsidhPanic.dec P c.pke sk ct).1}
  | .encrypt keys pt => (Model.CsidhPanic.encrypt P c keys pt).1

/-- The object after calls one after the other by a program that recovers from panics. -/
def afterAll (P : Plat) (c : MultiPKE) (ks : List Call) : MultiPKE := ks.foldl (after P) c

/-- What the calls made of an object: `none` if it was not allocated; otherwise for how many recipients it was last, and
whether there was neither `Enc` nor `Dec` since. -/
def life (o : Option (Nat × Bool)) : Call → Option (Nat × Bool)
  | .allocate n _ => some (n, true)
  | .enc _ _ => o.map fun x => (x.1, false)
  | .dec _ _ => o.map fun x => (x.1, false)
  | .encrypt _ _ => o

/-! ### every call keeps the object in shape -/

def Obj : Option (Nat × Bool) → MultiPKE → Prop
  | none, c => c.pke = PKE.zero ∧ c.ct0.length = 64
  | some (n, fresh), c => ∃ rng h, c.pke = ⟨some rng, some h⟩ ∧ Good h ∧ (fresh = true → h = newShake128) ∧ c.cts.length = n ∧ c.ct0.length = 64

theorem export_length (pk : PublicKey) {out : List Byte} (h : out.length = 64) : (pk.exportKey out).1.length = 64 := by
  rw [PublicKey.exportKey, if_neg (by omega)]
  simp [fpBytes]

theorem encrypt_obj (hP : Supported P) {n : Nat} {fresh : Bool} {c : MultiPKE} (hc : Obj (some (n, fresh)) c) (keys : List PublicKey) (pt : List Byte) :
    Obj (some (n, fresh)) (Model.CsidhPanic.encrypt P c keys pt).1 := by
  obtain ⟨⟨r0, h0⟩, ct0, cts⟩ := c
  obtain ⟨rng, h, e, hg, hf, hn, hl⟩ := hc
  cases e
  rw [Model.CsidhPanic.encrypt]
  simp only [gen_eq]
  obtain ⟨r, h', cts', o, f1, f2, f3, f4, f5⟩ := loop_ok hP (generatePrivateKey rng).1 pt keys 0 (List.replicate 64 0) (generatePrivateKey rng).2.1 h cts hg (by simp)
  simp only [f1]
  match o with
  | none => exact ⟨_, _, rfl, f2, fun x => f3 (hf x), f4.trans hn, hl⟩
  | some u =>
    simp only
    match Csidh.generatePublicKey (generatePrivateKey rng).1 r with
    | none => exact ⟨_, _, rfl, f2, fun x => f3 (hf x), f4.trans hn, hl⟩
    | some (pkA, r') => exact ⟨_, _, rfl, f2, fun x => f3 (hf x), f4.trans hn, export_length _ hl⟩

theorem after_obj (hP : Supported P) (o : Option (Nat × Bool)) (k : Call) {c : MultiPKE} (hc : Obj o c) : Obj (life o k) (after P c k) := by
  have h64 : c.ct0.length = 64 := by
    cases o with
    | none => exact hc.2
    | some o => obtain ⟨_, _, _, _, _, _, h⟩ := hc; exact h
  cases k with
  | allocate n rng => exact ⟨rng, newShake128, rfl, good_new, fun _ => rfl, by simp [after, MultiPKE.allocate], h64⟩
  | enc pk pt =>
    cases o with
    | none => rw [after, hc.1]; exact ⟨rfl, h64⟩
    | some o =>
      obtain ⟨rng, h, e, hg, _, hn, _⟩ := hc
      obtain ⟨rng', h', e', hg'⟩ := enc_ok hP ⟨rng, h, e, hg⟩ pk pt
      exact ⟨rng', h', e', hg', by simp, hn, h64⟩
  | dec sk ct =>
    cases o with
    | none => rw [after, hc.1]; exact ⟨rfl, h64⟩
    | some o =>
      obtain ⟨rng, h, e, hg, _, hn, _⟩ := hc
      obtain ⟨rng', h', e', hg'⟩ := dec_ok hP ⟨rng, h, e, hg⟩ sk ct
      exact ⟨rng', h', e', hg', by simp, hn, h64⟩
  | encrypt keys pt =>
    cases o with
    | none => rw [after, Model.CsidhPanic.encrypt, hc.1]; exact hc
    | some o => exact encrypt_obj hP hc keys pt

theorem afterAll_obj (hP : Supported P) : ∀ (ks : List Call) (o : Option (Nat × Bool)) (c : MultiPKE), Obj o c → Obj (ks.foldl life o) (afterAll P c ks)
  | [], _, _, h => h
  | k :: ks, o, _, h => afterAll_obj hP ks _ _ (after_obj hP o k h)

theorem history_obj (hP : Supported P) {ks : List Call} {n : Nat} {fresh : Bool} (h : ks.foldl life none = some (n, fresh)) :
    Obj (some (n, fresh)) (afterAll P MultiPKE.zero ks) := by
  rw [← h]
  exact afterAll_obj hP ks none _ ⟨rfl, by simp [MultiPKE.zero]⟩

/-! ### the property: encryption objects -/

/-- C127. The models in which a panic ends the program, which the properties C61 to C63, C68 and C75 to C77 are about, say the same of calls that return, and calls panic in the same cases. -/
theorem c127_same :
    (∀ (c : PKE) pk pt, (Model.CsidhPanic.enc P c pk pt).2.map (fun ct => ((Model.CsidhPanic.enc P c pk pt).1, ct)) = c.enc P pk pt) ∧
    (∀ (c : PKE) sk ct, (Model.CsidhPanic.dec P c sk ct).2.map (fun pt => ((Model.CsidhPanic.dec P c sk ct).1, pt)) = c.dec P sk ct) ∧
    (∀ (c : MultiPKE) keys pt, (Model.CsidhPanic.encrypt P c keys pt).2.map (fun _ => (Model.CsidhPanic.encrypt P c keys pt).1) = c.encrypt P keys pt) ∧
    (∀ prv rng, (Model.CsidhPanic.generatePublicKey prv rng).2.2.map (fun _ => ((Model.CsidhPanic.generatePublicKey prv rng).1, (Model.CsidhPanic.generatePublicKey prv rng).2.1)) =
      generatePublicKey prv rng) ∧
    (∀ out pub prv rng, (Model.CsidhPanic.deriveSecret out pub prv rng).2.2.map (fun b => ((Model.CsidhPanic.deriveSecret out pub prv rng).1, b, (Model.CsidhPanic.deriveSecret out pub prv rng).2.1)) =
      deriveSecret out pub prv rng) ∧
    (∀ (c : PrivateKey) key, (Model.CsidhPanic.importPrivate c key).2.map (fun b => ((Model.CsidhPanic.importPrivate c key).1, b)) = c.importKey key) := by
  refine ⟨enc_agrees, dec_agrees, encrypt_agrees, fun prv rng => ?_, fun out pub prv rng => ?_, fun c key => ?_⟩
  · rw [gen_eq]
    match generatePublicKey prv rng with
    | none => rfl
    | some (pk, r) => rfl
  · rw [derive_eq]
    match deriveSecret out pub prv rng with
    | none => rfl
    | some (o, b, r) => rfl
  · rw [Model.CsidhPanic.importPrivate, PrivateKey.importKey]
    split
    · rfl
    · split <;> rfl

/-- C127. An object on which calls were made in any order and with any arguments, from `var c MultiPKE` on, by a program that
recovers from panics, and which was allocated at some time: `Enc` and `Dec` return, panic and deliver the same as on a new object
with the random bytes that are left, and leave the same random bytes. -/
theorem c127_pke (hP : Supported P) (ks : List Call) (n : Nat) (fresh : Bool) (h : ks.foldl life none = some (n, fresh)) :
    ∃ rng, (afterAll P MultiPKE.zero ks).pke.rng = some rng ∧
      (∀ pk pt, (Model.CsidhPanic.enc P (afterAll P MultiPKE.zero ks).pke pk pt).2 = (Model.CsidhPanic.enc P (PKE.allocate rng) pk pt).2 ∧
        (Model.CsidhPanic.enc P (afterAll P MultiPKE.zero ks).pke pk pt).1.rng = (Model.CsidhPanic.enc P (PKE.allocate rng) pk pt).1.rng) ∧
      (∀ sk ct, (Model.CsidhPanic.dec P (afterAll P MultiPKE.zero ks).pke sk ct).2 = (Model.CsidhPanic.dec P (PKE.allocate rng) sk ct).2 ∧
        (Model.CsidhPanic.dec P (afterAll P MultiPKE.zero ks).pke sk ct).1.rng = (Model.CsidhPanic.dec P (PKE.allocate rng) sk ct).1.rng) := by
  obtain ⟨rng, h, e, hg, -⟩ := history_obj hP h
  rw [e]
  exact ⟨rng, rfl, fun pk pt => enc_new hg pk pt, fun sk ct => dec_new hg sk ct⟩

/-- C127. Round trip: what `Enc` makes on one such object, `Dec` undoes on another. -/
theorem c127_roundtrip (hP : Supported P) (ks ks' : List Call) (n n' : Nat) (fresh fresh' : Bool) (h : ks.foldl life none = some (n, fresh))
    (h' : ks'.foldl life none = some (n', fresh')) (sk : PrivateKey) (r r' : List Byte) (pk : PublicKey)
    (hpk : Model.CsidhPanic.generatePublicKey sk r = (pk, r', some ())) (pt : List Byte) (hpt : pt.length = 16) (ct : Ciphertext) (pt' : List Byte)
    (he : (Model.CsidhPanic.enc P (afterAll P MultiPKE.zero ks).pke pk pt).2 = some ct)
    (hd : (Model.CsidhPanic.dec P (afterAll P MultiPKE.zero ks').pke sk ct).2 = some pt') : pt' = pt := by
  obtain ⟨rng, hE, e, hg, -⟩ := history_obj hP h
  obtain ⟨rng', hD, e', hg', -⟩ := history_obj hP h'
  rw [e] at he
  rw [e'] at hd
  have a1 := enc_agrees (P := P) ⟨some rng, some hE⟩ pk pt
  have a2 := dec_agrees (P := P) ⟨some rng', some hD⟩ sk ct
  have a3 := (c127_same (P := P)).2.2.2.1 sk r
  rw [Agrees, he] at a1
  rw [Agrees, hd] at a2
  rw [hpk] at a3
  exact c61_roundtrip hP sk r r' pk a3.symm rng rng' hE hD hg.1 hg'.1 pt hpt _ _ ct pt' a1.symm a2.symm

/-- what `Encrypt` does when it returns -/
theorem encrypt_some {c : MultiPKE} {rng : List Byte} {h : State} (e : c.pke = ⟨some rng, some h⟩) {keys : List PublicKey} {pt : List Byte} {c' : MultiPKE}
    (he : Model.CsidhPanic.encrypt P c keys pt = (c', some ())) :
    ∃ skA r0 b r1 h1 cts pkA r2, generatePrivateKey rng = (skA, r0, b) ∧ encryptLoop P skA pt keys 0 (List.replicate 64 0) r0 (some h) c.cts = some (r1, h1, cts) ∧
      generatePublicKey skA r1 = some (pkA, r2) ∧ c' = ⟨⟨some r2, h1⟩, (pkA.exportKey c.ct0).1, cts⟩ := by
  have a := encrypt_agrees (P := P) c keys pt
  rw [he] at a
  simp only [Option.map_some] at a
  rw [MultiPKE.encrypt, e] at a
  simp only [Option.bind_eq_bind, Option.bind_some] at a
  obtain ⟨g, hg⟩ : ∃ g, generatePrivateKey rng = g := ⟨_, rfl⟩
  obtain ⟨skA, r0, b⟩ := g
  rw [hg] at a
  have a := a.symm
  simp only [Option.bind_eq_some_iff, Prod.exists] at a
  obtain ⟨r1, h1, cts, e1, pkA, r2, e2, e3⟩ := a
  cases e3
  exact ⟨skA, r0, b, r1, h1, cts, pkA, r2, hg, e1, e2, rfl⟩

/-- each ciphertext is for its own key; the first one only if the hash object is new -/
theorem loop_index (hP : Supported P) (skA : PrivateKey) {pt : List Byte} (hpt : pt.length = 16) {h : State} (hg : Good h) {keys : List PublicKey} {r0 r1 : List Byte} {h1 : Option State}
    {cts cts' : List (List Byte)} (e : encryptLoop P skA pt keys 0 (List.replicate 64 0) r0 (some h) cts = some (r1, h1, cts')) (i : Nat) (pk : PublicKey)
    (hi : keys[i]? = some pk) (hf : h = newShake128 ∨ 1 ≤ i) :
    ∃ buf r b s r2 V, buf.length = 64 ∧ deriveSecret buf pk skA r = some (s, b, r2) ∧ cts'[i]? = some V ∧ ∃ x, V = List.zipWith (· ^^^ ·) pt (H s 0) ++ x := by
  have key : ∃ buf r b s r2, buf.length = 64 ∧ deriveSecret buf pk skA r = some (s, b, r2) ∧ i < cts'.length ∧ ∃ x, cts'.getD i [] = List.zipWith (· ^^^ ·) pt (H s 0) ++ x := by
    rcases hf with rfl | hf
    · obtain ⟨buf, r, b, s, r2, g1, g2, g3, g4⟩ := loop_each hP skA hpt keys 0 _ _ _ _ _ _ (by simp) e i pk hi
      rw [Nat.zero_add] at g3 g4
      exact ⟨buf, r, b, s, r2, g1, g2, g3, _, g4⟩
    · cases keys with
      | nil => simp at hi
      | cons q keys =>
        obtain ⟨i, rfl⟩ : ∃ i', i = i' + 1 := ⟨i - 1, by omega⟩
        rw [encryptLoop] at e
        simp only [Option.bind_eq_bind] at e
        match hd : deriveSecret (List.replicate 64 0) q skA r0 with
        | none => rw [hd] at e; cases e
        | some (s, b, r) =>
          obtain ⟨h', ss', e1, e2, e3⟩ := hash_good hP hg s (derive_len (by simp) hd)
          rw [hd] at e
          simp only [Option.bind_some, e1, e2] at e
          by_cases hc : cts.length ≤ 0
          · rw [if_pos hc] at e; cases e
          · rw [if_neg hc] at e
            simp only [List.getElem?_cons_succ] at hi
            obtain ⟨buf, r, b, s, r2, g1, g2, g3, g4⟩ := loop_each hP skA hpt keys 1 _ _ _ _ _ _ e3 e i pk hi
            rw [Nat.add_comm 1 i] at g3 g4
            exact ⟨buf, r, b, s, r2, g1, g2, g3, _, g4⟩
  obtain ⟨buf, r, b, s, r2, g1, g2, g3, x, g4⟩ := key
  refine ⟨buf, r, b, s, r2, cts'[i], g1, g2, List.getElem?_eq_getElem g3, x, ?_⟩
  rw [← g4, List.getD_eq_getElem?_getD, List.getElem?_eq_getElem g3, Option.getD_some]

/-- C127. Round trip with many recipients.  Whenever `Encrypt` returns, on an object with any history, the i-th key being the public
key of `sk`, whatever the other keys are: with the stored public part and the i-th ciphertext, `Dec` with `sk` gives the
message back, on any object with any history.  The first recipient needs that there was neither `Enc` nor `Dec` on the sender's
object since it was allocated: without that it is false, see c63_false. -/
theorem c127_multi (hP : Supported P) (ks ks' : List Call) (n n' : Nat) (fresh fresh' : Bool) (h : ks.foldl life none = some (n, fresh))
    (h' : ks'.foldl life none = some (n', fresh')) (keys : List PublicKey) (pt : List Byte) (hpt : pt.length = 16) (c' : MultiPKE)
    (he : Model.CsidhPanic.encrypt P (afterAll P MultiPKE.zero ks) keys pt = (c', some ())) (i : Nat) (pk : PublicKey) (hi : keys[i]? = some pk)
    (hf : fresh = true ∨ 1 ≤ i) (sk : PrivateKey) (r r' : List Byte) (hpk : Model.CsidhPanic.generatePublicKey sk r = (pk, r', some ())) :
    ∃ V, c'.cts[i]? = some V ∧ ∀ pt', (Model.CsidhPanic.dec P (afterAll P MultiPKE.zero ks').pke sk ⟨c'.ct0, V⟩).2 = some pt' → pt' = pt := by
  obtain ⟨rng, hE, e, hg, hfr, -, h64⟩ := history_obj hP h
  obtain ⟨rng', hD, e', hg', -⟩ := history_obj hP h'
  obtain ⟨skA, r0, b, r1, h1, cts, pkA, r2, -, e2, e3, rfl⟩ := encrypt_some e he
  obtain ⟨buf, q, b', s, q2, V, g1, g2, g3, x, rfl⟩ := loop_index hP skA hpt hg e2 i pk hi (hf.imp_left hfr)
  refine ⟨_, g3, fun pt' hd => ?_⟩
  rw [e'] at hd
  have a2 := dec_agrees (P := P) ⟨some rng', some hD⟩ sk ⟨(pkA.exportKey (afterAll P MultiPKE.zero ks).ct0).1, List.zipWith (· ^^^ ·) pt (H s 0) ++ x⟩
  have a3 := (c127_same (P := P)).2.2.2.1 sk r
  rw [Agrees, hd] at a2
  rw [hpk] at a3
  have hz : (List.zipWith (· ^^^ ·) pt (H s 0)).length = 16 := by rw [List.length_zipWith, H_length, hpt]; rfl
  obtain ⟨ss', b'', r3, h'', f1, f2, -, rfl⟩ := (dec_iff hP hg'.1 sk (pk := pkA) (orbit_len (orbit_gen e3))
    (by simp only; rw [PublicKey.exportKey, if_neg (by omega), fpBytes_eq]) (by simp [hz]) _ pt').mp a2.symm
  have := (c75_agree _ _ _ _ _ _ _ _ _ _ _ _ _ _ _ _ _ _ e3 a3.symm g1 (by simp) g2 f1).2.2
  subst this
  simp only
  rw [List.take_left' hz]
  exact xor_cancel pt _ (by rw [H_length, hpt])

/-- C127. `Encrypt` on an object with any history, with neither `Enc` nor `Dec` since it was allocated for n recipients: it
returns or panics as on a new object with the random bytes that are left, leaves the same random bytes, and if it returns, the public part
and the ciphertexts are the same. -/
theorem c127_encrypt (hP : Supported P) (ks : List Call) (n : Nat) (h : ks.foldl life none = some (n, true)) (keys : List PublicKey) (pt : List Byte) (hpt : pt.length = 16) :
    ∃ rng, (afterAll P MultiPKE.zero ks).pke.rng = some rng ∧ ∃ c' d' o, Model.CsidhPanic.encrypt P (afterAll P MultiPKE.zero ks) keys pt = (c', o) ∧
      Model.CsidhPanic.encrypt P (MultiPKE.zero.allocate n rng) keys pt = (d', o) ∧ c'.pke.rng = d'.pke.rng ∧
      (o = some () → c'.ct0 = d'.ct0 ∧ ∀ i < keys.length, (c'.cts.getD i []).take 16 = (d'.cts.getD i []).take 16) := by
  obtain ⟨rng, hE, e, hg, hfr, hn, h64⟩ := history_obj hP h
  rw [hfr rfl] at e
  generalize afterAll P MultiPKE.zero ks = c at *
  obtain ⟨pke, ct0, cts⟩ := c
  simp only at e
  subst e
  refine ⟨rng, rfl, ?_⟩
  obtain ⟨r, h', o, d, d2, f1, f2, f3, f4⟩ := loop_rel hP (generatePrivateKey rng).1 hpt keys 0 (List.replicate 64 0) (generatePrivateKey rng).2.1 cts
    (List.replicate n (List.replicate 64 0)) (by simp) (by rw [List.length_replicate]; exact hn)
  rw [MultiPKE.allocate, PKE.allocate, Model.CsidhPanic.encrypt, Model.CsidhPanic.encrypt]
  simp only [f1, f2, gen_eq]
  match o with
  | none => exact ⟨_, _, _, rfl, rfl, rfl, fun h => by cases h⟩
  | some u =>
    simp only
    match generatePublicKey (generatePrivateKey rng).1 r with
    | none => exact ⟨_, _, _, rfl, rfl, rfl, fun h => by cases h⟩
    | some (pkA, r') =>
      refine ⟨_, _, _, rfl, rfl, rfl, fun _ => ⟨?_, fun i hi => f4 rfl i (Nat.zero_le _) (by omega)⟩⟩
      simp only at h64 ⊢
      rw [PublicKey.exportKey, if_neg (by omega), PublicKey.exportKey, if_neg (by simp [MultiPKE.zero])]

/-- C127. With more keys than recipients `Encrypt` never returns; and whenever it does not, the public part stays the old one. -/
theorem c127_too_many (hP : Supported P) (ks : List Call) (keys : List PublicKey) (pt : List Byte) :
    (∀ n fresh, ks.foldl life none = some (n, fresh) → n < keys.length → (Model.CsidhPanic.encrypt P (afterAll P MultiPKE.zero ks) keys pt).2 = none) ∧
    ((Model.CsidhPanic.encrypt P (afterAll P MultiPKE.zero ks) keys pt).2 = none →
      (Model.CsidhPanic.encrypt P (afterAll P MultiPKE.zero ks) keys pt).1.ct0 = (afterAll P MultiPKE.zero ks).ct0) := by
  constructor
  · intro n fresh h hl
    obtain ⟨rng, hE, e, hg, hfr, hn, h64⟩ := history_obj hP h
    obtain ⟨r, h', cts', o, f1, f2, f3, f4, f5⟩ := loop_ok hP (generatePrivateKey rng).1 pt keys 0 (List.replicate 64 0) (generatePrivateKey rng).2.1 hE
      (afterAll P MultiPKE.zero ks).cts hg (by simp)
    have := f5 (Nat.zero_le _) (by omega)
    subst this
    rw [Model.CsidhPanic.encrypt, e]
    simp only [f1]
  · generalize afterAll P MultiPKE.zero ks = c
    rw [Model.CsidhPanic.encrypt]
    split
    · intro _; rfl
    · simp only
      split
      · intro _; rfl
      · split
        · intro _; rfl
        · intro h; cases h

/-- C127. Meanwhile the ciphertexts are overwritten: with one key too many, all keys being accepted, the n ciphertexts are those of the
message for an ephemeral key whose public part is nowhere, beside the old public part. -/
theorem c127_abandoned (hP : Supported P) (ks : List Call) (rng : List Byte) (keys : List PublicKey) (h : ks.foldl life none = some (keys.length, true))
    (hr : (afterAll P MultiPKE.zero ks).pke.rng = some rng) (pt : List Byte) (hpt : pt.length = 16) (skA : PrivateKey) (r0 : List Byte) (b : Bool)
    (hg : generatePrivateKey rng = (skA, r0, b)) (ss : List (List Byte)) (r1 : List Byte) (hs : Runs skA keys r0 ss r1) (extra : PublicKey)
    (b' : Bool) (r2 : List Byte) (hx : ∀ buf : List Byte, buf.length = 64 → ∃ s', deriveSecret buf extra skA r1 = some (s', b', r2)) :
    ∃ c', Model.CsidhPanic.encrypt P (afterAll P MultiPKE.zero ks) (keys ++ [extra]) pt = (c', none) ∧ c'.pke = ⟨some r2, some newShake128⟩ ∧
      c'.ct0 = (afterAll P MultiPKE.zero ks).ct0 ∧ ∀ j s, ss[j]? = some s → (c'.cts.getD j []).take 16 = Props.CsidhPke.xor pt (Spec.Keccak.shake128 s 16) := by
  obtain ⟨rng2, hE, e, hgd, hfr, hn, h64⟩ := history_obj hP h
  rw [hfr rfl] at e
  rw [e] at hr
  cases hr
  obtain ⟨cts', f1, f2, f3, f4⟩ := loop_runs hP skA hpt hs 0 (List.replicate 64 0) (afterAll P MultiPKE.zero ks).cts (by simp) (by omega)
  obtain ⟨ss', g1, g2⟩ := loop_append hP skA pt [extra] keys 0 _ _ _ _ _ _ (by simp) f1
  obtain ⟨s', hx⟩ := hx ss' g1
  obtain ⟨h1, e1, e2, -⟩ := hash_new hP s' (derive_len g1 hx)
  rw [Model.CsidhPanic.encryptLoop, derive_eq, hx] at g2
  simp only [e1, shake_new e2] at g2
  rw [if_pos (by omega)] at g2
  refine ⟨⟨⟨some r2, some newShake128⟩, (afterAll P MultiPKE.zero ks).ct0, cts'⟩, ?_, rfl, rfl, ?_⟩
  · rw [Model.CsidhPanic.encrypt, e]
    simp only [hg, g2]
  · intro j s hj
    have := f4 j s hj
    rw [Nat.zero_add] at this
    simp only
    rw [this]
    exact List.take_left' (by rw [List.length_zipWith, H_length, hpt]; rfl)

/-! ### the property: keys -/

theorem made_zero : Made [⟨List.replicate 37 0⟩] PublicKey.zero := .gen (Props.CsidhPke.public_zero [])

/-- the secret with the starting curve is one's own public key -/
theorem derive_start {sk : PrivateKey} {out out' r r' q q' : List Byte} {b : Bool} {pk : PublicKey} (ho : out.length = 64)
    (hd : deriveSecret out PublicKey.zero sk r = some (out', b, r')) (hk : generatePublicKey sk q = some (pk, q')) : b = true ∧ out' = (pk.exportKey out).1 := by
  refine ⟨c76_derive made_zero _ _ _ _ _ _ hd, ?_⟩
  have hz : ∀ i < 74, exponent (List.replicate 37 0) i = 0 := by decide +kernel
  have : (PublicKey.zero.importKey out').1 = pk := by
    refine c77_exponents (.derive made_zero ho hd) (.gen hk) ?_ ?_ <;> intro i hi <;> simp only [forward, backward, List.map_cons, List.map_nil, List.sum_cons, List.sum_nil, hz i hi] <;> rfl
  refine import_inj (derive_len ho hd) (export_length _ ho) ?_
  rw [this, import_export (orbit_len (orbit_gen hk)) ho]

/-- C127. A call of `GeneratePublicKey` that panics leaves the starting curve as public key, which `Validate` accepts; the secret that
another party derives with it is this party's public key, which everyone knows. -/
theorem c127_public (prv : PrivateKey) (rng : List Byte) (h : (Model.CsidhPanic.generatePublicKey prv rng).2.2 = none) :
    (Model.CsidhPanic.generatePublicKey prv rng).1 = PublicKey.zero ∧
    ∀ (sk : PrivateKey) (out out' r r' q q' : List Byte) (b : Bool) (pk : PublicKey), out.length = 64 →
      Model.CsidhPanic.deriveSecret out (Model.CsidhPanic.generatePublicKey prv rng).1 sk r = (out', r', some b) →
      Model.CsidhPanic.generatePublicKey sk q = (pk, q', some ()) → b = true ∧ out' = (pk.exportKey out).1 := by
  have hz : (Model.CsidhPanic.generatePublicKey prv rng).1 = PublicKey.zero := by
    rw [gen_eq] at h ⊢
    split at h
    · rfl
    · cases h
  rw [hz]
  refine ⟨rfl, fun sk out out' r r' q q' b pk ho hd hk => ?_⟩
  have a1 := (c127_same (P := platGeneric)).2.2.2.2.1 out PublicKey.zero sk r
  have a2 := (c127_same (P := platGeneric)).2.2.2.1 sk q
  rw [hd] at a1
  rw [hk] at a2
  exact derive_start ho a1.symm a2.symm

/-- C127. So a message encrypted to such a key can be read by everyone: it is masked with SHAKE128 of the public part of the ciphertext. -/
theorem c127_open (hP : Supported P) (prv : PrivateKey) (rng : List Byte) (h : (Model.CsidhPanic.generatePublicKey prv rng).2.2 = none)
    (ks : List Call) (n : Nat) (fresh : Bool) (hl : ks.foldl life none = some (n, fresh)) (pt : List Byte) (hpt : pt.length = 16) (ct : Ciphertext)
    (he : (Model.CsidhPanic.enc P (afterAll P MultiPKE.zero ks).pke (Model.CsidhPanic.generatePublicKey prv rng).1 pt).2 = some ct) :
    pt = Props.CsidhPke.xor (ct.V.take 16) (Spec.Keccak.shake128 ct.U 16) := by
  rw [(c127_public prv rng h).1] at he
  obtain ⟨rngE, hE, e, hg, -⟩ := history_obj hP hl
  rw [e] at he
  have a1 := enc_agrees (P := P) ⟨some rngE, some hE⟩ PublicKey.zero pt
  rw [Agrees, he] at a1
  obtain ⟨skA, r0, b, ss, b', r1, pkA, r2, h', e1, e2, e3, e4, -, rfl⟩ := (enc_iff hP hg.1 PublicKey.zero hpt _ ct).mp a1.symm
  have := (derive_start (by simp) e2 e3).2
  rw [PublicKey.exportKey, if_neg (by simp), fpBytes_eq] at this
  simp only at this ⊢
  rw [← this, List.take_left' (by rw [List.length_zipWith, H_length, hpt]; rfl)]
  exact (xor_cancel pt _ (by rw [H_length, hpt])).symm

/-- C127. A call of `DeriveSecret` that panics leaves the buffer alone. -/
theorem c127_derive (out : List Byte) (pub : PublicKey) (prv : PrivateKey) (rng : List Byte) (h : (Model.CsidhPanic.deriveSecret out pub prv rng).2.2 ≠ some true) :
    (Model.CsidhPanic.deriveSecret out pub prv rng).1 = out := by
  rw [Model.CsidhPanic.deriveSecret] at h ⊢
  split
  · rfl
  · rfl
  · next hv =>
    rw [hv] at h
    simp only at h
    split
    · rfl
    · next hg => rw [hg] at h; exact absurd rfl h

/-- C127. `Import` of a string that is too long for a private key panics, but the key is replaced, by the one imported from its first 37 bytes. -/
theorem c127_import (c : PrivateKey) (hc : c.e.length = 37) (key : List Byte) (hk : 37 < key.length) :
    (Model.CsidhPanic.importPrivate c key).2 = none ∧
    Model.CsidhPanic.importPrivate c (key.take 37) = ((Model.CsidhPanic.importPrivate c key).1, some true) ∧
    ((Model.CsidhPanic.importPrivate c key).1.exportKey (List.replicate 37 0)).1 = key.take 37 := by
  have hl : (key.take 37).length = 37 := by rw [List.length_take]; omega
  refine ⟨?_, ?_, ?_⟩
  · rw [Model.CsidhPanic.importPrivate, if_neg (by omega), if_pos (by omega)]
  · rw [Model.CsidhPanic.importPrivate, if_neg (by omega), if_neg (by omega), Model.CsidhPanic.importPrivate, if_neg (by omega), if_pos (by omega), hc]
  · rw [Model.CsidhPanic.importPrivate, if_neg (by omega), if_pos (by omega), hc, PrivateKey.exportKey, if_neg (by rw [hl]; simp), hl]
    simp

/-! ### cases -/

open Lemmas.CsidhRun Lemmas.CsidhRunAct Lemmas.CsidhRunKeys

theorem dec_returns {c d : PKE} {sk : PrivateKey} {ct : Ciphertext} {pt : List Byte} (h : c.dec P sk ct = some (d, pt)) : (Model.CsidhPanic.dec P c sk ct).2 = some pt := by
  have a := dec_agrees (P := P) c sk ct
  rw [Agrees, h] at a
  generalize Model.CsidhPanic.dec P c sk ct = z at a ⊢
  obtain ⟨x, _ | y⟩ := z
  · cases a
  · simp only [Option.map_some, Option.some.injEq, Prod.mk.injEq] at a
    rw [a.2]

theorem enc_returns {c d : PKE} {pk : PublicKey} {ct : Ciphertext} {pt : List Byte} (h : c.enc P pk pt = some (d, ct)) : (Model.CsidhPanic.enc P c pk pt).2 = some ct := by
  have a := enc_agrees (P := P) c pk pt
  rw [Agrees, h] at a
  generalize Model.CsidhPanic.enc P c pk pt = z at a ⊢
  obtain ⟨x, _ | y⟩ := z
  · cases a
  · simp only [Option.map_some, Option.some.injEq, Prod.mk.injEq] at a
    rw [a.2]

/-- random bytes for an ephemeral key, and for one recipient -/
def ephemeral (rest : List Byte) : List Byte := drawA ++ (List.replicate 64 0 ++ rest)
def recipient (rest : List Byte) : List Byte := fpBytes (lit 4) ++ (fpBytes (lit 2) ++ (fpBytes (lit 3) ++ rest))

/-- a sender who allocates for one recipient, gives two keys, and recovers from the panic -/
def sender (pt rest : List Byte) : List Call := [.encrypt [] pt, .allocate 1 (ephemeral (recipient (recipient rest))), .encrypt [⟨lit eB⟩, ⟨lit eB⟩] pt]

/-- a receiver whose first call of `Dec` panics for lack of random bytes -/
def receiver (ct : Ciphertext) : List Call := [.allocate 0 [], .dec keyB ct, .allocate 0 (fpBytes (lit 4) ++ (fpBytes (lit 2) ++ (fpBytes (lit 2) ++ [])))]

example (pt rest : List Byte) : (sender pt rest).foldl life none = some (1, true) := rfl

/-- the hypotheses of c127_abandoned are met, so that the object goes on with the bytes that are left -/
theorem case_sender (hP : Supported P) (pt : List Byte) (hpt : pt.length = 16) (rest : List Byte) : (afterAll P MultiPKE.zero (sender pt rest)).pke.rng = some rest := by
  obtain ⟨c', e, h, -⟩ := c127_abandoned hP [.encrypt [] pt, .allocate 1 (ephemeral (recipient (recipient rest)))] _ [⟨lit eB⟩] rfl rfl pt hpt keyA _ true
    (genA _) [secret] (recipient rest) (.cons (deriveA _ (by simp) _) (.nil _)) ⟨lit eB⟩ true rest (fun buf hb => ⟨_, deriveA buf hb _⟩)
  have : afterAll P MultiPKE.zero (sender pt rest) = c' := congrArg Prod.fst e
  rw [this, h]

/-- Those of c127_multi and c127_encrypt: after that panic, a message for the second key. -/
theorem case_multi (hP : Supported P) (pt : List Byte) (hpt : pt.length = 16) : ∃ c' V pt',
    Model.CsidhPanic.encrypt P (afterAll P MultiPKE.zero (sender pt (ephemeral (recipient (fpBytes (lit 12) ++ (fpBytes (lit 2) ++ [])))))) [⟨lit eB⟩] pt = (c', some ()) ∧
    c'.cts[0]? = some V ∧ (Model.CsidhPanic.dec P (afterAll P MultiPKE.zero (receiver ⟨c'.ct0, V⟩)).pke keyB ⟨c'.ct0, V⟩).2 = some pt' ∧ pt' = pt := by
  have hs := case_sender hP pt hpt (ephemeral (recipient (fpBytes (lit 12) ++ (fpBytes (lit 2) ++ []))))
  obtain ⟨rng, hE, e, hg, hfr, hn, h64⟩ := history_obj hP (ks := sender pt (ephemeral (recipient (fpBytes (lit 12) ++ (fpBytes (lit 2) ++ []))))) (n := 1) (fresh := true) rfl
  rw [hfr rfl] at e
  rw [e] at hs
  cases hs
  obtain ⟨c', e1, e2, e3, e4, e5, e6⟩ := Props.CsidhPke.c63_encrypt_partial hP _ _ (congrArg PKE.rng e) (congrArg PKE.h e) h64 [⟨lit eB⟩] (by rw [hn]; exact Nat.le_refl 1) pt hpt keyA _ true
    (genA _) [secret] _ (.cons (deriveA _ (by simp) _) (.nil _)) ⟨lit eA⟩ [] (publicA [])
  have he : Model.CsidhPanic.encrypt P (afterAll P MultiPKE.zero (sender pt (ephemeral (recipient (fpBytes (lit 12) ++ (fpBytes (lit 2) ++ [])))))) [⟨lit eB⟩] pt = (c', some ()) := by
    have a := (c127_same (P := P)).2.2.1 (afterAll P MultiPKE.zero (sender pt (ephemeral (recipient (fpBytes (lit 12) ++ (fpBytes (lit 2) ++ [])))))) [⟨lit eB⟩] pt
    rw [e1] at a
    match hx : Model.CsidhPanic.encrypt P (afterAll P MultiPKE.zero (sender pt (ephemeral (recipient (fpBytes (lit 12) ++ (fpBytes (lit 2) ++ [])))))) [⟨lit eB⟩] pt with
    | (d, none) => rw [hx] at a; cases a
    | (d, some u) => rw [hx] at a; cases a; rfl
  have hkB : Model.CsidhPanic.generatePublicKey keyB (fpBytes (lit 2) ++ (fpBytes (lit 2) ++ [])) = (⟨lit eB⟩, [], some ()) := by rw [gen_eq, publicB]
  have hV : c'.cts[0]? = some (c'.cts.getD 0 []) := by
    rw [List.getD_eq_getElem?_getD, List.getElem?_eq_getElem (by rw [e4, hn]; decide), Option.getD_some]
  obtain ⟨V, v1, v2⟩ := c127_multi hP _ (receiver ⟨c'.ct0, c'.cts.getD 0 []⟩) 1 0 true true rfl rfl _ pt hpt c' he 0 _ rfl (Or.inl rfl) keyB _ _ hkB
  rw [hV] at v1
  cases v1
  have hz : (List.zipWith (· ^^^ ·) pt (H secret 0)).length = 16 := by rw [List.length_zipWith, H_length, hpt]; rfl
  obtain ⟨h', g1, -⟩ := hash_new hP secret (by simp [secret, fpBytes])
  have hVe := e5 0 secret rfl
  have hd := (dec_iff hP (rng := fpBytes (lit 4) ++ (fpBytes (lit 2) ++ (fpBytes (lit 2) ++ []))) (h := newShake128) ⟨rfl, rfl, rfl⟩ keyB
    (ct := ⟨c'.ct0, c'.cts.getD 0 []⟩) (pk := ⟨lit eA⟩) (orbit_len (orbit_gen (publicA []))) e3
      (by simp only; rw [hVe, List.length_append, show (Props.CsidhPke.xor pt (Spec.Keccak.shake128 secret 16)).length = 16 from hz]; omega) _ _).mpr
    ⟨_, _, _, _, deriveB _ (by simp) _, g1, rfl, rfl⟩
  have hd : (Model.CsidhPanic.dec P (afterAll P MultiPKE.zero (receiver ⟨c'.ct0, c'.cts.getD 0 []⟩)).pke keyB ⟨c'.ct0, c'.cts.getD 0 []⟩).2 = some _ := dec_returns hd
  exact ⟨c', _, _, he, hV, hd, v2 _ hd⟩

theorem rounds_none (f : RoundSt → Fp → Option RoundSt) (s : RoundSt) : actRounds f s [] = none := by
  have hr : randFp [] = none := by rw [randFp, dif_pos (by simp)]
  rw [actRounds]
  split
  · rfl
  · next h => rw [hr] at h; cases h

/-- A public key whose generation panics: the random source delivers nothing. -/
theorem case_public : (Model.CsidhPanic.generatePublicKey keyA []).2.2 = none := by
  have : groupAction fp0 keyA [] = none := by rw [groupAction, groupActionLog, rounds_none, Option.map_none]
  rw [Model.CsidhPanic.generatePublicKey, this]

/-- And a message encrypted to it. -/
theorem case_open (hP : Supported P) (pt : List Byte) (hpt : pt.length = 16) : ∃ ct,
    (Model.CsidhPanic.enc P (afterAll P MultiPKE.zero [.allocate 0 (Props.CsidhPke.draws [])]).pke (Model.CsidhPanic.generatePublicKey keyA []).1 pt).2 = some ct := by
  rw [(c127_public _ _ case_public).1]
  obtain ⟨h', e1, e2, e3⟩ := hash_new hP (List.replicate 64 0) (by simp)
  exact ⟨_, enc_returns ((enc_iff hP (rng := Props.CsidhPke.draws []) (h := newShake128) ⟨rfl, rfl, rfl⟩ ⟨List.replicate 8 0⟩ hpt _ _).mpr ⟨_, _, _, _, _, _, _, _, _, Props.CsidhPke.gen_zero _,
    Props.CsidhZero.derive_zero _ _ (by simp), Props.CsidhPke.public_zero _, e1, rfl, rfl⟩)⟩

/-- The hypotheses of c127_roundtrip are met, with a receiver that recovered from a panic. -/
example (hP : Supported P) (pt : List Byte) (hpt : pt.length = 16) : ∃ ks ct pt', ks.foldl life none = some (0, true) ∧ (receiver ct).foldl life none = some (0, true) ∧
    Model.CsidhPanic.generatePublicKey keyB (fpBytes (lit 2) ++ (fpBytes (lit 2) ++ [])) = (⟨lit eB⟩, [], some ()) ∧
    (Model.CsidhPanic.enc P (afterAll P MultiPKE.zero ks).pke ⟨lit eB⟩ pt).2 = some ct ∧
    (Model.CsidhPanic.dec P (afterAll P MultiPKE.zero (receiver ct)).pke keyB ct).2 = some pt' := by
  obtain ⟨cE, ct, cD, pt', h1, h2, -⟩ := case_pke hP pt hpt []
  exact ⟨[.allocate 0 _], ct, pt', rfl, rfl, by rw [gen_eq, publicB], enc_returns h1, dec_returns h2⟩

/-- That of c127_derive: the key 2 is refused, and without random bytes every other key panics. -/
example (out : List Byte) (rng : List Byte) : (Model.CsidhPanic.deriveSecret out ⟨two⟩ keyA rng).2.2 ≠ some true := by
  rw [derive_eq, (Props.CsidhKeys.c68_rejects ⟨two⟩ rfl (Or.inr (Or.inl two_elt)) keyA out rng).2]
  simp

example : (Model.CsidhPanic.importPrivate keyA (List.replicate 38 7)).1.e ≠ keyA.e := by decide +kernel

end Props.CsidhPanic
