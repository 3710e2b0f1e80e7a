import Verif.Model.CsidhPke
import Verif.Lemmas.Sha3More
import Verif.Lemmas.CsidhAction
/-
Helper lemmas for the public-key encryption of kem/mkem/csidh.go.
-/
namespace Lemmas.CsidhPke
open Model Model.Csidh Model.Sha3 Model.CsidhPke Spec Spec.Csidh Spec.Sha3 Lemmas.Sha3 Lemmas.CsidhKeys Lemmas.CsidhField Lemmas.CsidhAction

variable {P : Plat}

/-- SHAKE128 of x, bytes k to k + 15 -/
def H (x : List Byte) (k : Nat) : List Byte := Inst.shake128.out x k 16

theorem H_length (x : List Byte) (k : Nat) : (H x k).length = 16 := by
  simp [H, Inst.out, Spec.Keccak.spongeBytes]

theorem H_zero (x : List Byte) : H x 0 = Spec.Keccak.shake128 x 16 := rfl

theorem shake_new {h : State} (hc : SameParams newShake128 h) : reset h = newShake128 := by rw [reset_eq_new hc]; rfl

theorem hash_new (hP : Supported P) (ss : List Byte) (hs : ss.length = 64) :
    ∃ h', hash P newShake128 ss = some (h', H ss 0 ++ ss.drop 16) ∧ SameParams newShake128 h' ∧ Squeezing h' ss 16 := by
  obtain ⟨s1, e1, h1, p1⟩ := write_spec hP.good (new_absorbed .shake128) ss
  obtain ⟨s2, e2, h2, p2⟩ := read_absorbed hP.good h1 (ss.take 16)
  have hl : (ss.take 16).length = 16 := by rw [List.length_take]; omega
  rw [hl] at e2 h2
  refine ⟨s2, ?_, ⟨p2.1.trans p1.1, p2.2.1.trans p1.2.1, p2.2.2.trans p1.2.2⟩, by simpa using h2⟩
  rw [Model.CsidhPke.hash]
  change (do let (h, _, _) ← write P (new .shake128) ss; _) = _
  rw [e1]
  simp only [Option.bind_eq_bind, Option.bind_some, e2, List.nil_append]
  rw [p1.1, p1.2.2]; rfl

theorem write_refused {h : State} (hq : h.isSquezing = true) (x : List Byte) : write P h x = some (h, 0, some .writeAfterRead) := by
  rw [write, if_pos hq]

/-- a hash object that has been read already ignores what is written -/
theorem hash_used (hP : Supported P) {h : State} {m : List Byte} {k : Nat} (hq : Squeezing h m k) (hp : SameParams newShake128 h) (ss : List Byte) (hs : ss.length = 64) :
    ∃ h', hash P h ss = some (h', H m k ++ ss.drop 16) ∧ SameParams newShake128 h' := by
  obtain ⟨s2, e2, h2, p2⟩ := read_squeezing hP.good hq (ss.take 16)
  have hl : (ss.take 16).length = 16 := by rw [List.length_take]; omega
  rw [hl] at e2 h2
  refine ⟨s2, ?_, ⟨p2.1.trans hp.1, p2.2.1.trans hp.2.1, p2.2.2.trans hp.2.2⟩⟩
  rw [Model.CsidhPke.hash, write_refused hq.squeezing]
  simp only [Option.bind_eq_bind, Option.bind_some, e2]
  rw [hp.1, hp.2.2]; rfl

theorem derive_len {out : List Byte} (ho : out.length = 64) {pub : PublicKey} {prv : PrivateKey} {rng out' rest : List Byte} {b : Bool}
    (h : deriveSecret out pub prv rng = some (out', b, rest)) : out'.length = 64 := by
  rw [deriveSecret] at h
  match hv : validate pub rng with
  | none => rw [hv] at h; cases h
  | some (false, r) =>
    rw [hv] at h
    simp only [Option.some.injEq, Prod.mk.injEq] at h
    rw [← h.1]; exact ho
  | some (true, r) =>
    rw [hv] at h
    simp only at h
    match hg : groupAction pub.a prv r with
    | none => rw [hg] at h; cases h
    | some (a, r') =>
      rw [hg] at h
      simp only [Option.some.injEq, Prod.mk.injEq] at h
      rw [← h.1, PublicKey.exportKey, if_neg (by omega)]
      simp [fpBytes]

theorem mask_eq (dst pt ss : List Byte) (hp : pt.length = 16) (x y : List Byte) (hx : x.length = 16) (e : ss = x ++ y) :
    mask dst pt ss = List.zipWith (· ^^^ ·) pt x ++ dst.drop 16 := by
  rw [mask, e, List.take_of_length_le (by omega), List.take_left' hx]

theorem xor_cancel : ∀ (a b : List Byte), a.length ≤ b.length → List.zipWith (· ^^^ ·) (List.zipWith (· ^^^ ·) a b) b = a
  | [], _, _ => by simp
  | a :: as, [], h => by simp at h
  | a :: as, b :: bs, h => by
    simp only [List.zipWith_cons_cons]
    rw [xor_cancel as bs (by simpa using h), BitVec.xor_assoc, BitVec.xor_self, BitVec.xor_zero]

/-- What `Enc` does -/
theorem enc_iff (hP : Supported P) {rng : List Byte} {h : State} (hh : SameParams newShake128 h) (pk : PublicKey) {pt : List Byte} (hpt : pt.length = 16)
    (c' : PKE) (ct : Ciphertext) : PKE.enc P ⟨some rng, some h⟩ pk pt = some (c', ct) ↔
    ∃ skA r0 b ss b' r1 pkA r2 h', generatePrivateKey rng = (skA, r0, b) ∧ deriveSecret (List.replicate 64 0) pk skA r0 = some (ss, b', r1) ∧
      generatePublicKey skA r1 = some (pkA, r2) ∧ hash P newShake128 ss = some (h', H ss 0 ++ ss.drop 16) ∧ c' = ⟨some r2, some h'⟩ ∧
      ct = ⟨leBytes 64 (val pkA.a), List.zipWith (· ^^^ ·) pt (H ss 0) ++ List.replicate 48 0⟩ := by
  obtain ⟨g, hg⟩ : ∃ g, generatePrivateKey rng = g := ⟨_, rfl⟩
  obtain ⟨skA, r0, b⟩ := g
  rw [PKE.enc]
  simp only [Option.bind_eq_bind, Option.bind_some, hg, shake_new hh]
  match hd : deriveSecret (List.replicate 64 0) pk skA r0 with
  | none =>
    simp only [Option.bind_none]
    constructor
    · intro h; cases h
    · rintro ⟨_, _, _, _, _, _, _, _, _, e, e', _⟩
      cases e
      rw [hd] at e'; cases e'
  | some (ss, b', r1) =>
    obtain ⟨h', e1, e2, e3⟩ := hash_new hP ss (derive_len (by simp) hd)
    simp only [Option.bind_some, e1]
    match hk : generatePublicKey skA r1 with
    | none =>
      simp only [Option.bind_none]
      constructor
      · intro h; cases h
      · rintro ⟨_, _, _, _, _, _, _, _, _, e, e', e'', _⟩
        cases e
        rw [hd] at e'; cases e'
        rw [hk] at e''; cases e''
    | some (pkA, r2) =>
      simp only [Option.bind_some]
      rw [mask_eq _ pt _ hpt (H ss 0) _ (H_length _ _) rfl, PublicKey.exportKey, if_neg (by simp), fpBytes_eq]
      constructor
      · intro h
        cases h
        exact ⟨skA, r0, b, ss, b', r1, pkA, r2, h', rfl, hd, hk, e1, rfl, rfl⟩
      · rintro ⟨_, _, _, _, _, _, _, _, _, e, e', e'', e3, rfl, rfl⟩
        cases e
        rw [hd] at e'; cases e'
        rw [hk] at e''; cases e''
        rw [e1] at e3; cases e3
        rfl

/-- What `Dec` does -/
theorem dec_iff (hP : Supported P) {rng : List Byte} {h : State} (hh : SameParams newShake128 h) (sk : PrivateKey) {ct : Ciphertext} {pk : PublicKey}
    (hpk : pk.a.length = 8) (hU : ct.U = leBytes 64 (val pk.a)) (hV : 16 ≤ ct.V.length)
    (c' : PKE) (pt : List Byte) : PKE.dec P ⟨some rng, some h⟩ sk ct = some (c', pt) ↔
    ∃ ss b r h', deriveSecret (List.replicate 64 0) pk sk rng = some (ss, b, r) ∧ hash P newShake128 ss = some (h', H ss 0 ++ ss.drop 16) ∧
      c' = ⟨some r, some h'⟩ ∧ pt = List.zipWith (· ^^^ ·) (ct.V.take 16) (H ss 0) := by
  have hi : (PublicKey.zero.importKey ct.U) = (pk, true) := by
    have hlen : ct.U.length = 64 := by rw [hU]; exact Lemmas.SidhBytes.leBytes_length _ _
    obtain ⟨h1, h2⟩ := import_val ct.U hlen
    rw [PublicKey.importKey, if_neg (by omega)]
    have hb : val pk.a < 256 ^ 64 := by
      have := Lemmas.Limb.val_lt pk.a
      rw [hpk] at this
      exact lt_of_lt_of_le this (by decide +kernel)
    have : orBytes ct.U 0 fp0 = pk.a := by
      apply Lemmas.Limb.val_inj (h1.trans hpk.symm)
      rw [h2, hU, Lemmas.SidhBytes.bval_leBytes, Nat.mod_eq_of_lt hb]
    show (PublicKey.mk (orBytes ct.U 0 fp0), true) = _
    rw [this]
  rw [PKE.dec]
  simp only [Option.bind_eq_bind, Option.bind_some, hi, shake_new hh]
  match hd : deriveSecret (List.replicate 64 0) pk sk rng with
  | none => simp
  | some (ss, b, r) =>
    obtain ⟨h', e1, e2, e3⟩ := hash_new hP ss (derive_len (by simp) hd)
    simp only [Option.bind_some, e1]
    have em : mask (List.replicate 16 0) ct.V (H ss 0 ++ ss.drop 16) = List.zipWith (· ^^^ ·) (ct.V.take 16) (H ss 0) := by
      rw [mask, List.take_left' (H_length _ _)]; simp
    rw [em]
    constructor
    · intro h
      cases h
      exact ⟨ss, b, r, h', rfl, e1, rfl, rfl⟩
    · rintro ⟨_, _, _, _, e, e', rfl, rfl⟩
      cases e
      rw [e1] at e'; cases e'
      rfl

/-- The secrets of the keys, all of which are accepted -/
inductive Runs (skA : PrivateKey) : List PublicKey → List Byte → List (List Byte) → List Byte → Prop
  | nil (r : List Byte) : Runs skA [] r [] r
  | cons {pk : PublicKey} {pks : List PublicKey} {r r' r'' s : List Byte} {ss : List (List Byte)}
      (h : deriveSecret (List.replicate 64 0) pk skA r = some (s, true, r')) (t : Runs skA pks r' ss r'') : Runs skA (pk :: pks) r (s :: ss) r''

theorem derive_true {out out2 : List Byte} (ho : out.length = 64) (ho2 : out2.length = 64) {pub : PublicKey} {prv : PrivateKey} {rng out' rest : List Byte}
    (h : deriveSecret out pub prv rng = some (out', true, rest)) : deriveSecret out2 pub prv rng = some (out', true, rest) := by
  rw [deriveSecret] at h ⊢
  match hv : validate pub rng with
  | none => rw [hv] at h; cases h
  | some (false, r) => rw [hv] at h; cases h
  | some (true, r) =>
    rw [hv] at h
    simp only at h ⊢
    match hg : groupAction pub.a prv r with
    | none => rw [hg] at h; cases h
    | some (a, r') =>
      rw [hg] at h
      have e : ∀ o : List Byte, o.length = 64 → ((PublicKey.mk a).exportKey o).1 = fpBytes a := fun o ho => by rw [PublicKey.exportKey, if_neg (by omega)]
      simp only [e _ ho] at h
      simp only [e _ ho2]
      exact h

theorem loop_runs (hP : Supported P) (skA : PrivateKey) {pt : List Byte} (hpt : pt.length = 16) : ∀ {pks : List PublicKey} {r : List Byte} {ss : List (List Byte)} {r' : List Byte},
    Runs skA pks r ss r' → ∀ (i : Nat) (buf : List Byte) (cts : List (List Byte)), buf.length = 64 → i + pks.length ≤ cts.length →
    ∃ cts', encryptLoop P skA pt pks i buf r (some newShake128) cts = some (r', some newShake128, cts') ∧ cts'.length = cts.length ∧
      (∀ j, i + ss.length ≤ j ∨ j < i → cts'.getD j [] = cts.getD j []) ∧
      ∀ j s, ss[j]? = some s → cts'.getD (i + j) [] = List.zipWith (· ^^^ ·) pt (H s 0) ++ (cts.getD (i + j) []).drop 16 := by
  intro pks r ss r' h
  induction h with
  | nil r =>
    intro i buf cts _ _
    exact ⟨cts, rfl, rfl, fun _ _ => rfl, fun j s h => by simp at h⟩
  | @cons pk pks r r1 r2 s ss hd _ ih =>
    intro i buf cts hb hl
    simp only [List.length_cons] at hl
    have hd := derive_true (by simp) hb hd
    have hsl := derive_len hb hd
    obtain ⟨h', e1, e2, -⟩ := hash_new hP s hsl
    obtain ⟨cts', f1, f2, f3, f4⟩ := ih (i + 1) (H s 0 ++ s.drop 16) (cts.set i (mask (cts.getD i []) pt (H s 0 ++ s.drop 16)))
      (by rw [List.length_append, H_length, List.length_drop]; omega) (by rw [List.length_set]; omega)
    have hm := mask_eq (cts.getD i []) pt _ hpt (H s 0) (s.drop 16) (H_length _ _) rfl
    refine ⟨cts', ?_, by rw [f2, List.length_set], ?_, ?_⟩
    · rw [encryptLoop]
      simp only [Option.bind_eq_bind, Option.bind_some, hd, e1, shake_new e2]
      rw [if_neg (by omega)]
      exact f1
    · intro j hj
      simp only [List.length_cons] at hj
      rw [f3 j (by omega), List.getD_eq_getElem?_getD, List.getElem?_set_ne (by omega), List.getD_eq_getElem?_getD]
    · intro j t hj
      cases j with
      | zero =>
        simp only [List.getElem?_cons_zero, Option.some.injEq] at hj
        subst hj
        rw [Nat.add_zero, f3 i (by omega), List.getD_eq_getElem?_getD, List.getElem?_set_self (by omega), Option.getD_some, hm]
      | succ j =>
        simp only [List.getElem?_cons_succ] at hj
        rw [show i + (j + 1) = i + 1 + j by omega, f4 j t hj]
        congr 2
        rw [List.getD_eq_getElem?_getD, List.getElem?_set_ne (by omega), List.getD_eq_getElem?_getD]

/-- earlier ciphertexts stay -/
theorem loop_keeps (skA : PrivateKey) (pt : List Byte) : ∀ (pks : List PublicKey) (i : Nat) (buf r : List Byte) (h : Option State) (cts : List (List Byte))
    (r' : List Byte) (h' : Option State) (cts' : List (List Byte)), encryptLoop P skA pt pks i buf r h cts = some (r', h', cts') →
    ∀ j < i, cts'.getD j [] = cts.getD j []
  | [], i, buf, r, h, cts, r', h', cts', e, j, hj => by
    rw [encryptLoop] at e
    cases e; rfl
  | pk :: pks, i, buf, r, h, cts, r', h', cts', e, j, hj => by
    rw [encryptLoop] at e
    simp only [Option.bind_eq_bind, Option.bind_eq_some_iff, Prod.exists] at e
    obtain ⟨s, b, r1, _, h1, _, h2, s2, _, e⟩ := e
    split at e
    · simp at e
    · have := loop_keeps skA pt pks (i + 1) _ _ _ _ _ _ _ e j (by omega)
      rw [this, List.getD_eq_getElem?_getD, List.getElem?_set_ne (by omega), List.getD_eq_getElem?_getD]

end Lemmas.CsidhPke
