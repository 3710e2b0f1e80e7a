import Verif.Model.CsidhPanic
import Verif.Lemmas.CsidhPke
/-
Helper lemmas for calls on CSIDH keys and encryption objects that panic.
-/
namespace Lemmas.CsidhPanic
open Model Model.Csidh Model.Sha3 Model.CsidhPke Lemmas.Sha3 Lemmas.CsidhPke

variable {P : Plat}

theorem gen_eq (prv : PrivateKey) (rng : List Byte) : Model.CsidhPanic.generatePublicKey prv rng =
    match Csidh.generatePublicKey prv rng with
    | none => (PublicKey.zero, [], none)
    | some (pk, rest) => (pk, rest, some ()) := by
  rw [Model.CsidhPanic.generatePublicKey, Csidh.generatePublicKey]
  match groupAction fp0 prv rng with
  | none => rfl
  | some (a, r) => rfl

theorem derive_eq (out : List Byte) (pub : PublicKey) (prv : PrivateKey) (rng : List Byte) : Model.CsidhPanic.deriveSecret out pub prv rng =
    match Csidh.deriveSecret out pub prv rng with
    | none => (out, [], none)
    | some (o, b, rest) => (o, rest, some b) := by
  rw [Model.CsidhPanic.deriveSecret, Csidh.deriveSecret]
  match validate pub rng with
  | none => rfl
  | some (false, r) => rfl
  | some (true, r) =>
    simp only
    match groupAction pub.a prv r with
    | none => rfl
    | some (a, r') => rfl

/-- the call does what the model without panics says, as far as that goes -/
def Agrees {σ α : Type} (x : σ × Option α) (y : Option (σ × α)) : Prop := x.2.map (fun a => (x.1, a)) = y

theorem enc_agrees (c : PKE) (pk : PublicKey) (pt : List Byte) : Agrees (Model.CsidhPanic.enc P c pk pt) (c.enc P pk pt) := by
  obtain ⟨_ | rng, h⟩ := c
  · rfl
  · rw [Model.CsidhPanic.enc, PKE.enc]
    simp only [Option.bind_eq_bind, Option.bind_some, derive_eq, gen_eq]
    match Csidh.deriveSecret (List.replicate 64 0) pk (generatePrivateKey rng).1 (generatePrivateKey rng).2.1 with
    | none => rfl
    | some (ss, b, r) =>
      simp only [Option.bind_some]
      match h with
      | none => rfl
      | some h =>
        simp only [Option.bind_some]
        match hash P (reset h) ss with
        | none => rfl
        | some (h', ss') =>
          simp only [Option.bind_some]
          match Csidh.generatePublicKey (generatePrivateKey rng).1 r with
          | none => rfl
          | some (pkA, r') => rfl

theorem dec_agrees (c : PKE) (sk : PrivateKey) (ct : Ciphertext) : Agrees (Model.CsidhPanic.dec P c sk ct) (c.dec P sk ct) := by
  obtain ⟨_ | rng, h⟩ := c
  · rfl
  · rw [Model.CsidhPanic.dec, PKE.dec]
    simp only [Option.bind_eq_bind, Option.bind_some, derive_eq]
    match Csidh.deriveSecret (List.replicate 64 0) (PublicKey.zero.importKey ct.U).1 sk rng with
    | none => rfl
    | some (ss, b, r) =>
      simp only [Option.bind_some]
      match h with
      | none => rfl
      | some h =>
        simp only [Option.bind_some]
        match hash P (reset h) ss with
        | none => rfl
        | some (h', ss') => rfl

theorem loop_agrees (skA : PrivateKey) (pt : List Byte) : ∀ (pks : List PublicKey) (i : Nat) (ss rng : List Byte) (h : Option State) (cts : List (List Byte)),
    (Model.CsidhPanic.encryptLoop P skA pt pks i ss rng h cts).2.map (fun _ => (Model.CsidhPanic.encryptLoop P skA pt pks i ss rng h cts).1) =
      encryptLoop P skA pt pks i ss rng h cts
  | [], i, ss, rng, h, cts => rfl
  | pk :: pks, i, ss, rng, h, cts => by
    rw [Model.CsidhPanic.encryptLoop, encryptLoop]
    simp only [Option.bind_eq_bind, derive_eq]
    match Csidh.deriveSecret ss pk skA rng with
    | none => rfl
    | some (ss, b, r) =>
      simp only [Option.bind_some]
      match h with
      | none => rfl
      | some h =>
        simp only [Option.bind_some]
        match hash P h ss with
        | none => rfl
        | some (h', ss') =>
          simp only [Option.bind_some]
          by_cases hl : cts.length ≤ i
          · rw [if_pos hl, if_pos hl]; rfl
          · rw [if_neg hl, if_neg hl]
            exact loop_agrees skA pt pks (i + 1) ss' r (some (reset h')) _

theorem encrypt_agrees (c : MultiPKE) (keys : List PublicKey) (pt : List Byte) :
    (Model.CsidhPanic.encrypt P c keys pt).2.map (fun _ => (Model.CsidhPanic.encrypt P c keys pt).1) = c.encrypt P keys pt := by
  obtain ⟨⟨_ | rng, h⟩, ct0, cts⟩ := c
  · rfl
  · have hl := loop_agrees (P := P) (generatePrivateKey rng).1 pt keys 0 (List.replicate 64 0) (generatePrivateKey rng).2.1 h cts
    rw [Model.CsidhPanic.encrypt, MultiPKE.encrypt]
    simp only [Option.bind_eq_bind, Option.bind_some, gen_eq]
    rw [← hl]
    match Model.CsidhPanic.encryptLoop P (generatePrivateKey rng).1 pt keys 0 (List.replicate 64 0) (generatePrivateKey rng).2.1 h cts with
    | ((r, h', cts'), none) => rfl
    | ((r, h', cts'), some u) =>
      simp only [Option.map_some, Option.bind_some]
      match Csidh.generatePublicKey (generatePrivateKey rng).1 r with
      | none => rfl
      | some (pkA, r') => rfl

/-! ### the hash object -/

/-- A hash object for `Enc` and `Dec`: new, or in use. -/
def Good (h : State) : Prop := SameParams newShake128 h ∧ (h = newShake128 ∨ ∃ m k, Squeezing h m k)

theorem good_new : Good newShake128 := ⟨⟨rfl, rfl, rfl⟩, Or.inl rfl⟩

theorem hash_good (hP : Supported P) {h : State} (hg : Good h) (ss : List Byte) (hs : ss.length = 64) :
    ∃ h' ss', hash P h ss = some (h', ss') ∧ reset h' = newShake128 ∧ ss'.length = 64 := by
  rcases hg.2 with rfl | ⟨m, k, hq⟩
  · obtain ⟨h', e1, e2, -⟩ := hash_new hP ss hs
    exact ⟨h', _, e1, shake_new e2, by rw [List.length_append, H_length, List.length_drop]; omega⟩
  · obtain ⟨h', e1, e2⟩ := hash_used hP hq hg.1 ss hs
    exact ⟨h', _, e1, shake_new e2, by rw [List.length_append, H_length, List.length_drop]; omega⟩

theorem hash_fresh (hP : Supported P) (ss : List Byte) (hs : ss.length = 64) : ∃ h' ss', hash P newShake128 ss = some (h', ss') ∧ Good h' := by
  obtain ⟨h', e1, e2, e3⟩ := hash_new hP ss hs
  exact ⟨h', _, e1, e2, Or.inr ⟨_, _, e3⟩⟩

/-- An object that has been allocated, whatever happened to it since. -/
def PkeOk (c : PKE) : Prop := ∃ rng h, c = ⟨some rng, some h⟩ ∧ Good h

theorem enc_ok (hP : Supported P) {c : PKE} (hc : PkeOk c) (pk : PublicKey) (pt : List Byte) : PkeOk (Model.CsidhPanic.enc P c pk pt).1 := by
  obtain ⟨rng, h, rfl, hg⟩ := hc
  rw [Model.CsidhPanic.enc]
  simp only [derive_eq, gen_eq, shake_new hg.1]
  match hd : Csidh.deriveSecret (List.replicate 64 0) pk (generatePrivateKey rng).1 (generatePrivateKey rng).2.1 with
  | none => exact ⟨_, _, rfl, hg⟩
  | some (ss, b, r) =>
    obtain ⟨h', ss', e1, e2⟩ := hash_fresh hP ss (derive_len (by simp) hd)
    simp only [e1]
    match Csidh.generatePublicKey (generatePrivateKey rng).1 r with
    | none => exact ⟨_, _, rfl, e2⟩
    | some (pkA, r') => exact ⟨_, _, rfl, e2⟩

theorem dec_ok (hP : Supported P) {c : PKE} (hc : PkeOk c) (sk : PrivateKey) (ct : Ciphertext) : PkeOk (Model.CsidhPanic.dec P c sk ct).1 := by
  obtain ⟨rng, h, rfl, hg⟩ := hc
  rw [Model.CsidhPanic.dec]
  simp only [derive_eq, shake_new hg.1]
  match hd : Csidh.deriveSecret (List.replicate 64 0) (PublicKey.zero.importKey ct.U).1 sk rng with
  | none => exact ⟨_, _, rfl, hg⟩
  | some (ss, b, r) =>
    obtain ⟨h', ss', e1, e2⟩ := hash_fresh hP ss (derive_len (by simp) hd)
    simp only [e1]
    exact ⟨_, _, rfl, e2⟩

/-- `Enc` on any such object does what it does on a new one. -/
theorem enc_new {rng : List Byte} {h : State} (hg : Good h) (pk : PublicKey) (pt : List Byte) :
    (Model.CsidhPanic.enc P ⟨some rng, some h⟩ pk pt).2 = (Model.CsidhPanic.enc P (PKE.allocate rng) pk pt).2 ∧
    (Model.CsidhPanic.enc P ⟨some rng, some h⟩ pk pt).1.rng = (Model.CsidhPanic.enc P (PKE.allocate rng) pk pt).1.rng := by
  rw [Model.CsidhPanic.enc, PKE.allocate, Model.CsidhPanic.enc]
  simp only [derive_eq, gen_eq, shake_new hg.1, shake_new good_new.1]
  match Csidh.deriveSecret (List.replicate 64 0) pk (generatePrivateKey rng).1 (generatePrivateKey rng).2.1 with
  | none => exact ⟨rfl, rfl⟩
  | some (ss, b, r) =>
    simp only
    match hash P newShake128 ss with
    | none => exact ⟨rfl, rfl⟩
    | some (h', ss') => exact ⟨rfl, rfl⟩

theorem dec_new {rng : List Byte} {h : State} (hg : Good h) (sk : PrivateKey) (ct : Ciphertext) :
    (Model.CsidhPanic.dec P ⟨some rng, some h⟩ sk ct).2 = (Model.CsidhPanic.dec P (PKE.allocate rng) sk ct).2 ∧
    (Model.CsidhPanic.dec P ⟨some rng, some h⟩ sk ct).1.rng = (Model.CsidhPanic.dec P (PKE.allocate rng) sk ct).1.rng := by
  rw [Model.CsidhPanic.dec, PKE.allocate, Model.CsidhPanic.dec]
  simp only [derive_eq, shake_new hg.1, shake_new good_new.1]
  match Csidh.deriveSecret (List.replicate 64 0) (PublicKey.zero.importKey ct.U).1 sk rng with
  | none => exact ⟨rfl, rfl⟩
  | some (ss, b, r) =>
    simp only
    match hash P newShake128 ss with
    | none => exact ⟨rfl, rfl⟩
    | some (h', ss') => exact ⟨rfl, rfl⟩

/-! ### the loop of `Encrypt` -/

/-- the hash object stays good, and new if it was; the number of ciphertexts stays -/
theorem loop_ok (hP : Supported P) (skA : PrivateKey) (pt : List Byte) : ∀ (pks : List PublicKey) (i : Nat) (ss rng : List Byte) (h : State) (cts : List (List Byte)),
    Good h → ss.length = 64 → ∃ r h' cts' o, Model.CsidhPanic.encryptLoop P skA pt pks i ss rng (some h) cts = ((r, some h', cts'), o) ∧ Good h' ∧
      (h = newShake128 → h' = newShake128) ∧ cts'.length = cts.length ∧ (i ≤ cts.length → cts.length < i + pks.length → o = none)
  | [], i, ss, rng, h, cts, hg, _ => ⟨_, _, _, _, rfl, hg, id, rfl, fun h h' => absurd h' (by simp; omega)⟩
  | pk :: pks, i, ss, rng, h, cts, hg, hs => by
    rw [Model.CsidhPanic.encryptLoop]
    simp only [derive_eq]
    match hd : Csidh.deriveSecret ss pk skA rng with
    | none => exact ⟨_, _, _, _, rfl, hg, id, rfl, fun _ _ => rfl⟩
    | some (ss, b, r) =>
      obtain ⟨h', ss', e1, e2, e3⟩ := hash_good hP hg ss (derive_len hs hd)
      simp only [e1, e2]
      by_cases hl : cts.length ≤ i
      · rw [if_pos hl]
        exact ⟨_, _, _, _, rfl, good_new, fun _ => rfl, rfl, fun _ _ => rfl⟩
      · rw [if_neg hl]
        obtain ⟨r2, h2, cts2, o, f1, f2, f3, f4, f5⟩ := loop_ok hP skA pt pks (i + 1) ss' r newShake128 (cts.set i (mask (cts.getD i []) pt ss')) good_new e3
        rw [List.length_set] at f4 f5
        exact ⟨r2, h2, cts2, o, f1, f2, fun _ => f3 rfl, f4, fun _ h => f5 (by omega) (by simp only [List.length_cons] at h; omega)⟩

/-- each ciphertext is for its own key, whatever the other keys are -/
theorem loop_each (hP : Supported P) (skA : PrivateKey) {pt : List Byte} (hpt : pt.length = 16) : ∀ (pks : List PublicKey) (i : Nat) (ss rng : List Byte) (cts : List (List Byte))
    (r' : List Byte) (h' : Option State) (cts' : List (List Byte)), ss.length = 64 → encryptLoop P skA pt pks i ss rng (some newShake128) cts = some (r', h', cts') →
    ∀ (j : Nat) pk, pks[j]? = some pk → ∃ buf r b s r2, buf.length = 64 ∧ Csidh.deriveSecret buf pk skA r = some (s, b, r2) ∧ i + j < cts'.length ∧
      cts'.getD (i + j) [] = List.zipWith (· ^^^ ·) pt (H s 0) ++ (cts.getD (i + j) []).drop 16
  | [], _, _, _, _, _, _, _, _, _, j, pk, hj => by simp at hj
  | q :: pks, i, ss, rng, cts, r', h', cts', hs, e, j, pk, hj => by
    rw [encryptLoop] at e
    simp only [Option.bind_eq_bind] at e
    match hd : Csidh.deriveSecret ss q skA rng with
    | none => rw [hd] at e; cases e
    | some (s, b, r) =>
      have hl := derive_len hs hd
      obtain ⟨h1, e1, e2, -⟩ := hash_new hP s hl
      rw [hd] at e
      simp only [Option.bind_some, e1, shake_new e2] at e
      by_cases hc : cts.length ≤ i
      · rw [if_pos hc] at e; cases e
      · rw [if_neg hc] at e
        have hlen : cts'.length = cts.length := by
          obtain ⟨_, _, _, o, f1, _, _, f4, _⟩ := loop_ok hP skA pt pks (i + 1) (H s 0 ++ s.drop 16) r newShake128 (cts.set i (mask (cts.getD i []) pt (H s 0 ++ s.drop 16))) good_new
            (by rw [List.length_append, H_length, List.length_drop]; omega)
          have := loop_agrees (P := P) skA pt pks (i + 1) (H s 0 ++ s.drop 16) r (some newShake128) (cts.set i (mask (cts.getD i []) pt (H s 0 ++ s.drop 16)))
          rw [f1] at this
          rw [show encryptLoop P skA pt pks (i + 1) (H s 0 ++ s.drop 16) r (some newShake128) (cts.set i (mask (cts.getD i []) pt (H s 0 ++ s.drop 16))) = some (r', h', cts') from e] at this
          cases o with
          | none => simp at this
          | some u =>
            simp only [Option.map_some, Option.some.injEq, Prod.mk.injEq] at this
            rw [← this.2.2, f4, List.length_set]
        cases j with
        | zero =>
          simp only [List.getElem?_cons_zero, Option.some.injEq] at hj
          subst hj
          refine ⟨ss, rng, b, s, r, hs, hd, by omega, ?_⟩
          have := loop_keeps skA pt pks (i + 1) _ _ _ _ _ _ _ e i (by omega)
          rw [Nat.add_zero, this, List.getD_eq_getElem?_getD, List.getElem?_set_self (by omega), Option.getD_some,
            mask_eq (cts.getD i []) pt _ hpt (H s 0) (s.drop 16) (H_length _ _) rfl]
        | succ j =>
          simp only [List.getElem?_cons_succ] at hj
          obtain ⟨buf, r3, b3, s3, r4, g1, g2, g3, g4⟩ := loop_each hP skA hpt pks (i + 1) _ _ _ _ _ _ (by rw [List.length_append, H_length, List.length_drop]; omega) e j pk hj
          refine ⟨buf, r3, b3, s3, r4, g1, g2, by omega, ?_⟩
          rw [show i + (j + 1) = i + 1 + j by omega, g4]
          congr 2
          rw [List.getD_eq_getElem?_getD, List.getElem?_set_ne (by omega), List.getD_eq_getElem?_getD]

/-- keys after those for which it works -/
theorem loop_append (hP : Supported P) (skA : PrivateKey) (pt : List Byte) (qs : List PublicKey) : ∀ (pks : List PublicKey) (i : Nat) (ss rng : List Byte) (cts : List (List Byte))
    (r' : List Byte) (h' : Option State) (cts' : List (List Byte)), ss.length = 64 → encryptLoop P skA pt pks i ss rng (some newShake128) cts = some (r', h', cts') →
    ∃ ss', ss'.length = 64 ∧ Model.CsidhPanic.encryptLoop P skA pt (pks ++ qs) i ss rng (some newShake128) cts =
      Model.CsidhPanic.encryptLoop P skA pt qs (i + pks.length) ss' r' h' cts'
  | [], i, ss, rng, cts, r', h', cts', hs, e => by
    rw [encryptLoop] at e
    cases e
    exact ⟨ss, hs, rfl⟩
  | q :: pks, i, ss, rng, cts, r', h', cts', hs, e => by
    rw [encryptLoop] at e
    rw [List.cons_append, Model.CsidhPanic.encryptLoop]
    simp only [Option.bind_eq_bind] at e
    simp only [derive_eq]
    match hd : Csidh.deriveSecret ss q skA rng with
    | none => rw [hd] at e; cases e
    | some (s, b, r) =>
      have hl := derive_len hs hd
      obtain ⟨h1, e1, e2, -⟩ := hash_new hP s hl
      rw [hd] at e
      simp only [Option.bind_some, e1, shake_new e2] at e ⊢
      by_cases hc : cts.length ≤ i
      · rw [if_pos hc] at e; cases e
      · rw [if_neg hc] at e ⊢
        obtain ⟨ss', g1, g2⟩ := loop_append hP skA pt qs pks (i + 1) _ _ _ _ _ _ (by rw [List.length_append, H_length, List.length_drop]; omega) e
        exact ⟨ss', g1, by rw [g2, List.length_cons, show i + 1 + pks.length = i + (pks.length + 1) by omega]⟩

theorem mask_take (dst pt ss : List Byte) (hp : pt.length = 16) (hs : ss.length = 64) : (mask dst pt ss).take 16 = List.zipWith (· ^^^ ·) pt (ss.take 16) := by
  rw [mask_eq dst pt ss hp (ss.take 16) (ss.drop 16) (by rw [List.length_take]; omega) (List.take_append_drop _ _).symm]
  exact List.take_left' (by rw [List.length_zipWith, List.length_take, hp, hs]; rfl)

/-- what was in the ciphertexts before doesn't matter -/
theorem loop_rel (hP : Supported P) (skA : PrivateKey) {pt : List Byte} (hpt : pt.length = 16) : ∀ (pks : List PublicKey) (i : Nat) (ss rng : List Byte) (cts cts2 : List (List Byte)),
    ss.length = 64 → cts.length = cts2.length → ∃ r h' o d d2, Model.CsidhPanic.encryptLoop P skA pt pks i ss rng (some newShake128) cts = ((r, h', d), o) ∧
      Model.CsidhPanic.encryptLoop P skA pt pks i ss rng (some newShake128) cts2 = ((r, h', d2), o) ∧
      (∀ j, (cts.getD j []).take 16 = (cts2.getD j []).take 16 → (d.getD j []).take 16 = (d2.getD j []).take 16) ∧
      (o = some () → ∀ j, i ≤ j → j < i + pks.length → (d.getD j []).take 16 = (d2.getD j []).take 16)
  | [], i, ss, rng, cts, cts2, _, _ => ⟨_, _, _, _, _, rfl, rfl, fun _ h => h, fun _ j h h' => absurd h' (by simp; omega)⟩
  | pk :: pks, i, ss, rng, cts, cts2, hs, hl => by
    rw [Model.CsidhPanic.encryptLoop, Model.CsidhPanic.encryptLoop]
    simp only [derive_eq]
    match hd : Csidh.deriveSecret ss pk skA rng with
    | none => exact ⟨_, _, _, _, _, rfl, rfl, fun _ h => h, fun h => by cases h⟩
    | some (ss, b, r) =>
      obtain ⟨h', ss', e1, e2, e3⟩ := hash_good hP good_new ss (derive_len hs hd)
      simp only [e1, e2]
      by_cases hc : cts.length ≤ i
      · rw [if_pos hc, if_pos (hl ▸ hc)]
        exact ⟨_, _, _, _, _, rfl, rfl, fun _ h => h, fun h => by cases h⟩
      · rw [if_neg hc, if_neg (hl ▸ hc)]
        obtain ⟨r', h2, o, d, d2, f1, f2, f3, f4⟩ := loop_rel hP skA hpt pks (i + 1) ss' r (cts.set i (mask (cts.getD i []) pt ss')) (cts2.set i (mask (cts2.getD i []) pt ss')) e3
          (by rw [List.length_set, List.length_set, hl])
        have hset : ∀ j, j = i ∨ (cts.getD j []).take 16 = (cts2.getD j []).take 16 →
            ((cts.set i (mask (cts.getD i []) pt ss')).getD j []).take 16 = ((cts2.set i (mask (cts2.getD i []) pt ss')).getD j []).take 16 := by
          intro j hj
          by_cases e : j = i
          · subst e
            have hself : ∀ (l : List (List Byte)) (v : List Byte), j < l.length → (l.set j v).getD j [] = v := fun l v h => by
              rw [List.getD_eq_getElem?_getD, List.getElem?_set_self h, Option.getD_some]
            rw [hself _ _ (by omega), hself _ _ (by omega), mask_take _ _ _ hpt e3, mask_take _ _ _ hpt e3]
          · have := hj.resolve_left e
            have hne : ∀ (l : List (List Byte)) (v : List Byte), (l.set i v).getD j [] = l.getD j [] := fun l v => by
              rw [List.getD_eq_getElem?_getD, List.getElem?_set_ne (by omega), List.getD_eq_getElem?_getD]
            rw [hne, hne, this]
        refine ⟨r', h2, o, d, d2, f1, f2, fun j hj => f3 j (hset j (Or.inr hj)), fun ho j h1 h2 => ?_⟩
        by_cases e : j = i
        · exact f3 j (hset j (Or.inl e))
        · exact f4 ho j (by omega) (by simp only [List.length_cons] at h2; omega)

end Lemmas.CsidhPanic
