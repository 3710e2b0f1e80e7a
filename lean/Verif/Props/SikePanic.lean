import Verif.Lemmas.SikePanic
/-!
C123: a KEM object after calls that panicked.  The model is `Verif/Model/SikePanic.lean`; `KemOf` is in
`Verif/Props/Sike.lean`.
-/
namespace Props.SikePanic
open Model Model.Sidh Model.Sha3 Model.Sike Model.SikePanic Spec Spec.Sidh Lemmas.Sike Lemmas.SikePanic Props.Sike Props.SidhKeys Props.SidhCurve Lemmas.SidhNat Lemmas.Sha3

variable {P : Plat}

/-- A call on a KEM object, with any arguments. -/
inductive Call
  | allocate (id : Byte) (rng : List Byte)
  | encapsulate (ciphertext secret : List Byte) (pub : PublicKey)
  | decapsulate (secret : List Byte) (prv : PrivateKey) (pub : PublicKey) (ciphertext : List Byte)
  | reset
  | sizes

/-- What the caller sees if there is no panic. -/
inductive Seen
  | unit
  | encapsulate (r : List Byte × List Byte × Bool)
  | decapsulate (r : List Byte × Bool)
  | sizes (r : Nat × Nat)

/-- One call: the object afterwards, and what is seen, `none` if the call panics. -/
def call (P : Plat) (c : KEM) : Call → KEM × Option Seen
  | .allocate id rng => ((SikePanic.allocate id rng c).1, (SikePanic.allocate id rng c).2.map fun _ => .unit)
  | .encapsulate ct s pub => ((SikePanic.encapsulate P ct s pub c).1, (SikePanic.encapsulate P ct s pub c).2.map .encapsulate)
  | .decapsulate s prv pub ct => ((SikePanic.decapsulate P s prv pub ct c).1, (SikePanic.decapsulate P s prv pub ct c).2.map .decapsulate)
  | .reset => ((SikePanic.reset c).1, (SikePanic.reset c).2.map fun _ => .unit)
  | .sizes => ((SikePanic.sizes c).1, (SikePanic.sizes c).2.map .sizes)

/-- Calls one after the other on one object by a program that recovers from panics. -/
def history (P : Plat) (c : KEM) : List Call → List (Option Seen)
  | [] => []
  | k :: ks => (call P c k).2 :: history P (call P c k).1 ks

/-! ### specification: every call on an object made for it -/

/-- `var c KEM; c.Allocate(f, rng)`, or `var c KEM` with only a random source. -/
def fresh (o : Option Fld) (rng : List Byte) : KEM :=
  match o with
  | none => {KEM.zero with rng := rng}
  | some f => (Sike.allocate (idOf f) rng).getD KEM.zero

/-- The field an object is for after a call: only `Allocate` with a known id changes it. -/
def fieldAfter (o : Option Fld) : Call → Option Fld
  | .allocate id _ => if id = idOf .p434 then some .p434 else if id = idOf .p503 then some .p503 else if id = idOf .p751 then some .p751 else o
  | _ => o

/-- Each call on a new object for the same field, with the same random source. -/
def separate (P : Plat) (o : Option Fld) (rng : List Byte) : List Call → List (Option Seen)
  | [] => []
  | k :: ks => (call P (fresh o rng) k).2 :: separate P (fieldAfter o k) (call P (fresh o rng) k).1.rng ks

/-! ### proofs -/

/-- An object that was made for o, whatever happened to it since. -/
def Obj : Option Fld → KEM → Prop
  | none, c => c.allocated = false
  | some f, c => KemOf f c

theorem fresh_obj (o : Option Fld) (rng : List Byte) : Obj o (fresh o rng) ∧ (fresh o rng).rng = rng := by
  cases o with
  | none => exact ⟨rfl, rfl⟩
  | some f =>
    obtain ⟨c, h1, h2, h3⟩ := kem_new f rng
    rw [fresh, h1]
    exact ⟨h2, h3⟩

theorem seen_of_sim {α : Type} {f : Fld} {m : M α} (g : α → Seen) {c d : KEM} (hs : Sim f (fun _ _ => True) m m (fun a b _ _ => a = b)) (ht : Twin f c d) :
    (m c).2.map g = (m d).2.map g ∧ KemOf f (m c).1 ∧ KemOf f (m d).1 ∧ (m c).1.rng = (m d).1.rng := by
  obtain ⟨t, ⟨h1, h2⟩ | ⟨a, b, h1, h2, h3⟩⟩ := hs c d ht trivial
  · exact ⟨by rw [h1, h2], t.left, t.right, t.rng⟩
  · exact ⟨by rw [h1, h2, h3], t.left, t.right, t.rng⟩

theorem allocate_bad {id : Byte} {rng : List Byte} {c : KEM} (h : ∀ f, id ≠ idOf f) : SikePanic.allocate id rng c = ({c with rng := rng}, none) := by
  change (M.bind (lift (stdParams id)) _ {c with rng := rng}) = _
  rw [(c33_std id).2.2 h]
  rfl

theorem allocate_good (f : Fld) (rng : List Byte) (c : KEM) : SikePanic.allocate (idOf f) rng c = (fresh (some f) rng, some ()) := by
  change (M.bind (lift (stdParams (idOf f))) _ {c with rng := rng}) = _
  rw [fresh, Sike.allocate, (c33_std 0).2.1]
  rfl

theorem fieldAfter_good (o : Option Fld) (f : Fld) (rng : List Byte) : fieldAfter o (.allocate (idOf f) rng) = some f := by cases f <;> rfl

theorem fieldAfter_bad {o : Option Fld} {id : Byte} {rng : List Byte} (h : ∀ f, id ≠ idOf f) : fieldAfter o (.allocate id rng) = o := by
  rw [fieldAfter, if_neg (h _), if_neg (h _), if_neg (h _)]

theorem call_fresh (hP : Supported P) (o : Option Fld) (k : Call) {c d : KEM} (hc : Obj o c) (hd : Obj o d) (hr : c.rng = d.rng) :
    (call P c k).2 = (call P d k).2 ∧ Obj (fieldAfter o k) (call P c k).1 ∧ Obj (fieldAfter o k) (call P d k).1 ∧ (call P c k).1.rng = (call P d k).1.rng := by
  have alloc : ∀ id rng, (call P c (.allocate id rng)).2 = (call P d (.allocate id rng)).2 ∧ Obj (fieldAfter o (.allocate id rng)) (call P c (.allocate id rng)).1 ∧
      Obj (fieldAfter o (.allocate id rng)) (call P d (.allocate id rng)).1 ∧ (call P c (.allocate id rng)).1.rng = (call P d (.allocate id rng)).1.rng := by
    intro id rng
    by_cases h : ∃ f, id = idOf f
    · obtain ⟨f, rfl⟩ := h
      rw [fieldAfter_good, call, call, allocate_good, allocate_good]
      exact ⟨rfl, (fresh_obj (some f) rng).1, (fresh_obj (some f) rng).1, rfl⟩
    · have h : ∀ f, id ≠ idOf f := fun f e => h ⟨f, e⟩
      rw [fieldAfter_bad h, call, call, allocate_bad h, allocate_bad h]
      refine ⟨rfl, ?_, ?_, rfl⟩
      · cases o with
        | none => exact hc
        | some f => exact ⟨hc.1, hc.2, hc.3, hc.4, hc.5⟩
      · cases o with
        | none => exact hd
        | some f => exact ⟨hd.1, hd.2, hd.3, hd.4, hd.5⟩
  cases o with
  | none =>
    have hc' : c.allocated = false := hc
    have hd' : d.allocated = false := hd
    cases k with
    | allocate id rng => exact alloc id rng
    | encapsulate ct s pub =>
      rw [call, call, SikePanic.encapsulate, SikePanic.encapsulate, if_pos hc', if_pos hd']
      exact ⟨rfl, hc, hd, hr⟩
    | decapsulate s prv pub ct =>
      rw [call, call, SikePanic.decapsulate, SikePanic.decapsulate, if_pos hc', if_pos hd']
      exact ⟨rfl, hc, hd, hr⟩
    | reset => exact ⟨rfl, hc, hd, hr⟩
    | sizes =>
      rw [call, call, SikePanic.sizes, SikePanic.sizes, if_pos hc', if_pos hd']
      exact ⟨rfl, hc, hd, hr⟩
  | some f =>
    have hc : KemOf f c := hc
    have hd : KemOf f d := hd
    have ht : Twin f c d := ⟨hc, hd, hr⟩
    cases k with
    | allocate id rng => exact alloc id rng
    | encapsulate ct s pub => exact seen_of_sim _ (encaps_sim hP ct s pub) ht
    | decapsulate s prv pub ct => exact seen_of_sim _ (decaps_sim hP s prv pub ct) ht
    | reset =>
      refine ⟨rfl, ?_, ?_, hr⟩
      · exact ⟨hc.allocated, hc.params, by simp [call, SikePanic.reset, KEM.resetObj, hc.msg], by simp [call, SikePanic.reset, KEM.resetObj, hc.secretBytes], hc.shake⟩
      · exact ⟨hd.allocated, hd.params, by simp [call, SikePanic.reset, KEM.resetObj, hd.msg], by simp [call, SikePanic.reset, KEM.resetObj, hd.secretBytes], hd.shake⟩
    | sizes =>
      rw [call, call, SikePanic.sizes, SikePanic.sizes, if_neg (by rw [hc.allocated]; decide), if_neg (by rw [hd.allocated]; decide)]
      exact ⟨by rw [KEM.ciphertextSize, KEM.ciphertextSize, KEM.sharedSecretSize, KEM.sharedSecretSize, hc.params, hd.params], hc, hd, hr⟩

/-- C123. Calls in any order, with any arguments, legal or not, on one KEM object (from `var c KEM` on), by a program
that recovers from panics: each call gives what it gives, or panics if it panics, on a new object for the same field
with what is left of the random source. -/
theorem c123_recovered (hP : Supported P) (ks : List Call) : history P KEM.zero ks = separate P none [] ks := by
  suffices h : ∀ (ks : List Call) (o : Option Fld) (c : KEM), Obj o c → history P c ks = separate P o c.rng ks from h ks none KEM.zero rfl
  intro ks
  induction ks with
  | nil => intro o c _; rfl
  | cons k ks ih =>
    intro o c hc
    obtain ⟨f1, f2⟩ := fresh_obj o c.rng
    obtain ⟨h1, h2, h3, h4⟩ := call_fresh hP o k hc f1 f2.symm
    rw [history, separate, h1, ih _ _ h2, h4]

/-- The calls are those of the other properties: where they don't panic the model there gives the same, and where they
panic it panics. -/
theorem c123_same (c : KEM) (ct s : List Byte) (prv : PrivateKey) (pub : PublicKey) (id : Byte) (rng : List Byte) :
    (SikePanic.encapsulate P ct s pub c).2.map (fun a => ((SikePanic.encapsulate P ct s pub c).1, a)) = c.encapsulate P ct s pub ∧
    (SikePanic.decapsulate P s prv pub ct c).2.map (fun a => ((SikePanic.decapsulate P s prv pub ct c).1, a)) = c.decapsulate P s prv pub ct ∧
    (SikePanic.allocate id rng c).2.map (fun _ => (SikePanic.allocate id rng c).1) = Sike.allocate id rng := by
  refine ⟨encaps_agrees c ct s pub, decaps_agrees c s prv pub ct, ?_⟩
  by_cases h : ∃ f, id = idOf f
  · obtain ⟨f, rfl⟩ := h
    rw [allocate_good, fresh]
    obtain ⟨c, h1, _⟩ := kem_new f rng
    rw [h1]; rfl
  · have h : ∀ f, id ≠ idOf f := fun f e => h ⟨f, e⟩
    rw [allocate_bad h, Sike.allocate, (c33_std id).2.2 h]
    rfl

theorem hash_val (hP : Supported P) {c : KEM} (hc : SameParams newShake256 c.shake) (ins : List (List Byte)) (out : List Byte) :
    ∃ st, SikePanic.hash P ins out c = ({c with shake := st}, some (H ins.flatten out.length)) := by
  obtain ⟨st, h, _⟩ := hash_spec hP hc ins out
  exact ⟨st, by rw [SikePanic.hash, h]⟩

theorem bind_some {α β : Type} {m : M α} {g : α → M β} {c c' : KEM} {a : α} (h : m c = (c', some a)) : (m >>= g) c = g a c' := by
  change M.bind m g c = _
  rw [M.bind, h]

theorem bind_none {α β : Type} {m : M α} {g : α → M β} {c c' : KEM} (h : m c = (c', none)) : (m >>= g) c = (c', none) := by
  change M.bind m g c = _
  rw [M.bind, h]

theorem bind_lift {α β : Type} {v : Option α} {g : α → M β} {c : KEM} {a : α} (h : v = some a) : (lift v >>= g) c = g a c :=
  bind_some (by rw [lift, h])

theorem ids {f g : Fld} (h : g ≠ f) : (paramsOf g).id ≠ (paramsOf f).id := by revert h; cases f <;> cases g <;> decide

/-- A panic in the middle of a call: the KEM object is for one field and the SIKE public key of another.  The message has
been drawn from the random source and stays in the object. -/
theorem c123_foreign (hP : Supported P) {f g : Fld} (hfg : g ≠ f) {c : KEM} (hc : KemOf f c) {pub : PublicKey} {X Y Z : Fq g} (hpub : PubOf g variantSike pub X Y Z)
    (ct s : List Byte) (hl : ctLen f ≤ ct.length) (hs : msgLen f ≤ s.length) (hr : msgLen f ≤ c.rng.length) :
    (call P c (.encapsulate ct s pub)).2 = none ∧ (call P c (.encapsulate ct s pub)).1.rng = c.rng.drop (msgLen f) ∧
      (call P c (.encapsulate ct s pub)).1.msg = c.rng.take (msgLen f) := by
  obtain ⟨k1, k2, k3, k4, k5, k6, k7, k8, k9, k10, k11⟩ := kemParams f
  have g9 := (kemParams g).2.2.2.2.2.2.2.2.1
  have hpub : Pub g variantSike pub ⟨X, Y, Z⟩ := hpub
  obtain ⟨al, rng, msg, sb, pr, sh⟩ := c
  obtain ⟨h1, h2, hmsg, hsb, hsh⟩ := hc
  simp only at h1 h2 hmsg hsb hsh hr
  subst h1 h2
  have lc : ¬ ct.length < (paramsOf f).ciphertextSize := by omega
  have ls : ¬ s.length < (paramsOf f).kemSize := by omega
  have hv : ¬ (variantSike ≠ pub.variant) := by rw [hpub.variant]; simp
  have ht : ¬ (true = false) := by decide
  have e0 : goCopy msg rng = rng.take (msgLen f) := by
    rw [goCopy, hmsg, List.drop_eq_nil_of_le (by rw [hmsg]; exact hr), List.append_nil]
  have key : ∃ st sc, SikePanic.encapsulate P ct s pub ⟨true, rng, msg, sb, paramsOf f, sh⟩ =
      (⟨true, rng.drop (msgLen f), rng.take (msgLen f), sc, paramsOf f, st⟩, none) := by
    simp only [SikePanic.encapsulate, if_neg lc, if_neg ls, if_neg hv, if_neg ht]
    have hd : draw ⟨true, rng, msg, sb, paramsOf f, sh⟩ = (⟨true, rng.drop (msgLen f), rng.take (msgLen f), sb, paramsOf f, sh⟩, some true) := by
      change (KEM.mk true (rng.drop msg.length) (goCopy msg rng) sb (paramsOf f) sh, some (decide (msg.length ≤ rng.length))) = _
      rw [e0, hmsg, decide_eq_true hr]
    change ∃ st sc, (draw >>= fun ok => if ok = false then M.pure (ct, s, false) else encapsulateRest P ct s pub) _ = _
    rw [bind_some hd, if_neg ht, encapsulateRest]
    change ∃ st sc, (lift (newPublicKey (BitVec.ofNat 8 (paramsOf f).id) variantA) >>= _) _ = _
    rw [k6, bind_lift (newPublicKey_eq f variantA), bind_lift (export_long hpub _ (by
      simp only [List.length_replicate]; omega))]
    have l3 : 3 * (paramsOf f).sharedSecretSize ≤ (enc3 (⟨X, Y, Z⟩ : Tri (Fq g)) ++ (List.replicate (3 * maxSharedSecretBsz) (0 : Byte)).drop (6 * fieldBytes g)).length := by
      simp only [List.length_append, enc3_length, List.length_drop, List.length_replicate]
      have := (sizes f).1
      omega
    rw [bind_lift (show sliceTo _ _ = some _ from if_pos l3)]
    obtain ⟨st1, e1⟩ := hash_val hP (c := ⟨true, rng.drop (msgLen f), rng.take (msgLen f), sb, paramsOf f, sh⟩) hsh
      [rng.take (msgLen f), (enc3 (⟨X, Y, Z⟩ : Tri (Fq g)) ++ (List.replicate (3 * maxSharedSecretBsz) (0 : Byte)).drop (6 * fieldBytes g)).take (3 * (paramsOf f).sharedSecretSize)] sb
    rw [bind_some e1]
    generalize hsc : H _ sb.length = sc
    have lsc : sc.length = scalarLen f := by rw [← hsc, H_length, hsb]
    change ∃ st sc', (lift (maskLast (paramsOf f).A.secretBitLen sc) >>= _) _ = _
    rw [bind_lift (maskLast_spec _ _ (by rw [lsc, k5]; exact k10) (by rw [lsc, k5]; exact k11))]
    generalize hr' : leBytes sc.length _ = r
    have lr : r.length = scalarLen f := by rw [← hr', Lemmas.SidhBytes.leBytes_length, lsc]
    obtain ⟨pkA, e2, _⟩ := gen_spec (privA f r lr) ⟨paramsOf f, variantA, ⟨zeroFp2 f.words, zeroFp2 f.words, zeroFp2 f.words⟩⟩ rfl rfl
    change ∃ st sc', (lift ((ephemeral f r).generatePublicKey _) >>= _) _ = _
    rw [bind_lift e2]
    refine ⟨st1, r, bind_none ?_⟩
    rw [SikePanic.generateCiphertext]
    refine bind_none ?_
    have hd : (ephemeral f r).deriveSecret (List.replicate maxSharedSecretBsz 0) pub = none := by
      rw [PrivateKey.deriveSecret, if_pos (.inr (by rw [hpub.params]; exact ids hfg))]
    change (_, (ephemeral f r).deriveSecret (List.replicate maxSharedSecretBsz 0) pub) = _
    rw [hd]
  obtain ⟨st, sc, e⟩ := key
  rw [call, e]
  exact ⟨rfl, rfl, rfl⟩

/-- Such a case: any string of the right length gives a public key over the other field. -/
example (hP : Supported P) (rng b : List Byte) (hr : 16 ≤ rng.length) (hb : b.length = 378) : ∃ k pub, newPublicKey (idOf .p503) variantSike = some k ∧
    k.importKey b = some (pub, true) ∧
    (call P (fresh (some .p434) rng) (.encapsulate (List.replicate 346 0) (List.replicate 16 0) pub)).2 = none := by
  obtain ⟨k, pub, h1, h2, h3⟩ := import_new (f := .p503) variantSike b hb
  refine ⟨k, pub, h1, h2, (c123_foreign hP (f := .p434) (g := .p503) (by decide) (fresh_obj (some .p434) rng).1 h3 _ _ ?_ ?_ ?_).1⟩
  · rw [List.length_replicate]; exact Nat.le_refl 346
  · rw [List.length_replicate]; exact Nat.le_refl 16
  · rw [(fresh_obj (some .p434) rng).2]
    exact hr

/-- The histories of `c123_recovered` have panics and good calls: `Allocate` with an unknown id leaves the object for
p434 with the new source, which is then too short. -/
example : history P KEM.zero [.sizes, .allocate 2 [], .sizes, .allocate 9 [7], .sizes] =
    [none, some .unit, some (.sizes (346, 16)), none, some (.sizes (346, 16))] := rfl

end Props.SikePanic
