import Verif.Model.SikePanic
import Verif.Props.Sike
/-! Helper lemmas: computations on a KEM object that may panic. -/
namespace Lemmas.SikePanic
open Model Model.Sidh Model.Sha3 Model.Sike Model.SikePanic Spec Spec.Sidh Lemmas.Sike Props.Sike Props.SidhKeys Props.SidhCurve Lemmas.SidhNat

variable {P : Plat} {f : Fld} {α β γ δ : Type}

/-! ### agreement with the model without panics -/

/-- the result of `m`, with the object afterwards, is `o` -/
def Agrees (x : KEM × Option α) (o : Option (KEM × α)) : Prop := x.2.map (fun a => (x.1, a)) = o

theorem agrees_pure (a : α) (c : KEM) : Agrees (M.pure a c) (some (c, a)) := rfl
theorem agrees_panic (c : KEM) : Agrees (panic (α := α) c) none := rfl

theorem agrees_bind {m : M α} {g : α → M β} {c : KEM} {o : Option (KEM × α)} {k : KEM × α → Option (KEM × β)} (h : Agrees (m c) o)
    (hk : ∀ c' a, Agrees (g a c') (k (c', a))) : Agrees ((m >>= g) c) (o >>= k) := by
  change Agrees (M.bind m g c) _
  rw [M.bind]
  unfold Agrees at h
  subst h
  rcases m c with ⟨c', _ | a⟩
  · rfl
  · exact hk c' a

theorem agrees_lift {v : Option α} {g : α → M β} {c : KEM} {k : α → Option (KEM × β)} (hk : ∀ a, Agrees (g a c) (k a)) :
    Agrees ((lift v >>= g) c) (v >>= k) := by
  change Agrees (M.bind (lift v) g c) _
  cases v with
  | none => rfl
  | some a => exact hk a

theorem agrees_last {v : Option α} {c : KEM} : Agrees (lift v c) (v >>= fun a => some (c, a)) := by
  cases v <;> rfl

theorem agrees_get {g : KEM → M β} {c : KEM} {o : Option (KEM × β)} (h : Agrees (g c c) o) : Agrees ((get >>= g) c) o := h
theorem agrees_set {g : Unit → M β} {c d : KEM} {o : Option (KEM × β)} (h : Agrees (g () d) o) : Agrees ((set d >>= g) c) o := h

theorem agrees_hash (ins : List (List Byte)) (out : List Byte) (c : KEM) : Agrees (SikePanic.hash P ins out c) (c.hash P ins out) := by
  rw [SikePanic.hash]
  rcases c.hash P ins out with _ | ⟨c', o⟩ <;> rfl

/-! ### two objects -/

/-- two objects of one field with the same random source -/
structure Twin (f : Fld) (c d : KEM) : Prop where
  left : KemOf f c
  right : KemOf f d
  rng : c.rng = d.rng

/-- `m` and `n` started on two such objects, in addition related by `R`, both panic, or give results related by `R'`;
in both cases the objects stay such. -/
def Sim (f : Fld) (R : KEM → KEM → Prop) (m : M α) (n : M β) (R' : α → β → KEM → KEM → Prop) : Prop :=
  ∀ c d, Twin f c d → R c d → Twin f (m c).1 (n d).1 ∧
    ((m c).2 = none ∧ (n d).2 = none ∨ ∃ a b, (m c).2 = some a ∧ (n d).2 = some b ∧ R' a b (m c).1 (n d).1)

variable {R : KEM → KEM → Prop}

theorem sim_bind {m : M α} {n : M β} {g : α → M γ} {h : β → M δ} {R' : α → β → KEM → KEM → Prop} {R'' : γ → δ → KEM → KEM → Prop}
    (h1 : Sim f R m n R') (h2 : ∀ a b, Sim f (R' a b) (g a) (h b) R'') : Sim f R (m >>= g) (n >>= h) R'' := by
  intro c d ht hr
  obtain ⟨t, o⟩ := h1 c d ht hr
  change Twin f (M.bind m g c).1 (M.bind n h d).1 ∧ ((M.bind m g c).2 = none ∧ (M.bind n h d).2 = none ∨
    ∃ a b, (M.bind m g c).2 = some a ∧ (M.bind n h d).2 = some b ∧ R'' a b (M.bind m g c).1 (M.bind n h d).1)
  rw [M.bind, M.bind]
  rcases hm : m c with ⟨c', x⟩
  rcases hn : n d with ⟨d', y⟩
  rw [hm, hn] at t o
  simp only at t o
  rcases o with ⟨rfl, rfl⟩ | ⟨a, b, rfl, rfl, r⟩
  · exact ⟨t, .inl ⟨rfl, rfl⟩⟩
  · exact h2 a b c' d' t r

theorem sim_lift {v w : Option α} (h : v = w) : Sim f R (lift v) (lift w) (fun a b c d => (a = b ∧ v = some a) ∧ R c d) := by
  subst h
  intro c d ht hr
  refine ⟨ht, ?_⟩
  cases v with
  | none => exact .inl ⟨rfl, rfl⟩
  | some a => exact .inr ⟨a, a, rfl, rfl, ⟨rfl, rfl⟩, hr⟩

theorem sim_get : Sim f R get get (fun a b c d => a = c ∧ b = d ∧ Twin f c d ∧ R c d) :=
  fun c d ht hr => ⟨ht, .inr ⟨c, d, rfl, rfl, rfl, rfl, ht, hr⟩⟩

theorem sim_pure {a : α} {b : β} {R' : α → β → KEM → KEM → Prop} (h : ∀ c d, Twin f c d → R c d → R' a b c d) : Sim f R (M.pure a) (M.pure b) R' :=
  fun c d ht hr => ⟨ht, .inr ⟨a, b, rfl, rfl, h c d ht hr⟩⟩

theorem sim_hash (hP : Supported P) {ins ins' : List (List Byte)} {out out' : List Byte} (hi : ins = ins') (ho : out.length = out'.length)
    (hR : ∀ c d s t, R c d → R {c with shake := s} {d with shake := t}) :
    Sim f R (SikePanic.hash P ins out) (SikePanic.hash P ins' out') (fun a b c d => (a = b ∧ a.length = out.length) ∧ R c d) := by
  subst hi
  intro c d ht hr
  obtain ⟨s, e1, h1⟩ := hash_spec hP ht.left.shake ins out
  obtain ⟨t, e2, h2⟩ := hash_spec hP ht.right.shake ins out'
  rw [SikePanic.hash, SikePanic.hash, e1, e2]
  refine ⟨⟨⟨ht.left.1, ht.left.2, ht.left.3, ht.left.4, h1⟩, ⟨ht.right.1, ht.right.2, ht.right.3, ht.right.4, h2⟩, ht.rng⟩, .inr ⟨_, _, rfl, rfl, ⟨?_, ?_⟩, ?_⟩⟩
  · rw [ho]
  · rw [H_length]
  · exact hR _ _ _ _ hr

theorem sim_mono {m : M α} {n : M β} {R1 : KEM → KEM → Prop} {R' R1' : α → β → KEM → KEM → Prop} (h : Sim f R m n R') (h1 : ∀ c d, R1 c d → R c d)
    (h2 : ∀ a b c d, R' a b c d → R1' a b c d) : Sim f R1 m n R1' := by
  intro c d ht hr
  obtain ⟨t, o⟩ := h c d ht (h1 c d hr)
  refine ⟨t, o.imp_right ?_⟩
  rintro ⟨a, b, x, y, z⟩
  exact ⟨a, b, x, y, h2 _ _ _ _ z⟩

theorem sim_fact {p : Prop} {m : M α} {n : M β} {R' : α → β → KEM → KEM → Prop} (h : p → Sim f R m n R') : Sim f (fun c d => p ∧ R c d) m n R' :=
  fun c d ht hr => h hr.1 c d ht hr.2

theorem sim_getb {g : KEM → M α} {h : KEM → M β} {R' : α → β → KEM → KEM → Prop} (H : ∀ a b, Twin f a b → R a b → Sim f R (g a) (h b) R') :
    Sim f R (get >>= g) (get >>= h) R' := fun c d ht hr => H c d ht hr c d ht hr

theorem sim_setb {a b : KEM} {R1 : KEM → KEM → Prop} {g : Unit → M α} {h : Unit → M β} {R' : α → β → KEM → KEM → Prop} (ht : Twin f a b) (hr : R1 a b)
    (H : Sim f R1 (g ()) (h ()) R') : Sim f R (set a >>= g) (set b >>= h) R' := fun _ _ _ _ => H a b ht hr

theorem sim_liftb {v w : Option γ} {g : γ → M α} {h : γ → M β} {R' : α → β → KEM → KEM → Prop} (e : v = w) (H : ∀ a, v = some a → Sim f R (g a) (h a) R') :
    Sim f R (lift v >>= g) (lift w >>= h) R' :=
  sim_bind (sim_lift e) fun _ _ => sim_fact fun ⟨e1, e2⟩ => e1 ▸ H _ e2

theorem sim_hashb (hP : Supported P) {ins ins' : List (List Byte)} {out out' : List Byte} {g : List Byte → M α} {h : List Byte → M β}
    {R' : α → β → KEM → KEM → Prop} (hR : ∀ c d s t, R c d → R {c with shake := s} {d with shake := t}) (hi : ins = ins') (ho : out.length = out'.length)
    (H : ∀ o, o.length = out.length → Sim f R (g o) (h o) R') : Sim f R (SikePanic.hash P ins out >>= g) (SikePanic.hash P ins' out' >>= h) R' :=
  sim_bind (sim_hash hP hi ho hR) fun _ _ => sim_fact fun ⟨e1, e2⟩ => e1 ▸ H _ e2

theorem maskLast_length {n : Nat} {s t : List Byte} (h : maskLast n s = some t) : t.length = s.length := by
  rw [maskLast] at h
  split at h
  · exact absurd h (by simp)
  · rw [setAt] at h
    split at h
    · rw [← Option.some.inj h, List.length_set]
    · exact absurd h (by simp)

/-! ### the methods -/

/-- same message -/
def SameMsg (c d : KEM) : Prop := c.msg = d.msg

theorem twin_params {c d : KEM} (h : Twin f c d) : d.params = c.params := by rw [h.left.params, h.right.params]

theorem twin_secret {c d : KEM} (h : Twin f c d) {s t : List Byte} (hs : s.length = scalarLen f) (ht : t.length = scalarLen f) :
    Twin f {c with secretBytes := s} {d with secretBytes := t} :=
  ⟨⟨h.left.1, h.left.2, h.left.3, hs, h.left.5⟩, ⟨h.right.1, h.right.2, h.right.3, ht, h.right.5⟩, h.rng⟩

theorem generate_sim (hP : Supported P) (hR : ∀ c d s t, R c d → R {c with shake := s} {d with shake := t}) (ctext : List Byte) (skA : PrivateKey)
    (pkA pkB : PublicKey) (ptext : List Byte) :
    Sim f R (SikePanic.generateCiphertext P ctext skA pkA pkB ptext) (SikePanic.generateCiphertext P ctext skA pkA pkB ptext)
      (fun a b c d => a = b ∧ R c d) := by
  rw [SikePanic.generateCiphertext]
  refine sim_liftb rfl fun j _ => sim_liftb rfl fun j' _ => sim_liftb rfl fun n1 _ => sim_hashb hP hR rfl rfl fun n1' _ =>
    sim_liftb rfl fun n _ => sim_liftb rfl fun ct _ => sim_liftb rfl fun n2 _ => ?_
  exact sim_mono (sim_lift rfl) (fun _ _ h => h) fun _ _ _ _ h => ⟨h.1.1, h.2⟩

theorem rest_sim (hP : Supported P) (ct s : List Byte) (pub : PublicKey) :
    Sim f SameMsg (encapsulateRest P ct s pub) (encapsulateRest P ct s pub) (fun a b _ _ => a = b) := by
  have hR : ∀ (c d : KEM) s t, SameMsg c d → SameMsg {c with shake := s} {d with shake := t} := fun _ _ _ _ h => h
  rw [encapsulateRest]
  refine sim_getb fun a b ht hm => ?_
  rw [twin_params ht]
  refine sim_liftb rfl fun pkA _ => sim_liftb rfl fun buf _ => sim_liftb rfl fun buf' _ => ?_
  refine sim_hashb hP hR (by rw [show a.msg = b.msg from hm]) (by rw [ht.left.secretBytes, ht.right.secretBytes]) fun sc hsc => ?_
  rw [ht.left.secretBytes] at hsc
  refine sim_getb fun a b ht hm => ?_
  rw [twin_params ht]
  have tt := twin_secret ht hsc hsc
  rw [twin_params ht] at tt
  refine sim_setb (R1 := SameMsg) tt hm ?_
  refine sim_liftb rfl fun sc' e => ?_
  have hsc' : sc'.length = scalarLen f := (maskLast_length e).trans hsc
  have tt := twin_secret ht hsc' hsc'
  rw [twin_params ht] at tt
  refine sim_setb (R1 := SameMsg) tt hm ?_
  refine sim_liftb rfl fun pkA' _ => ?_
  rw [show b.msg = a.msg from Eq.symm hm]
  refine sim_bind (generate_sim hP hR _ _ _ _ _) fun x y => sim_fact fun e => ?_
  subst e
  refine sim_getb fun a b ht hm => ?_
  rw [twin_params ht]
  refine sim_liftb rfl fun s' _ => ?_
  refine sim_hashb hP hR (by rw [show a.msg = b.msg from hm]) rfl fun o _ => sim_getb fun a b ht _ => ?_
  rw [twin_params ht]
  exact sim_pure fun _ _ _ _ => rfl

theorem draw_sim : Sim f (fun _ _ => True) draw draw (fun a b c d => a = b ∧ (a = true → SameMsg c d)) := by
  rw [draw]
  refine sim_getb fun a b ht _ => ?_
  have e : b.msg.length = a.msg.length := by rw [ht.left.msg, ht.right.msg]
  have l : ∀ c : KEM, (goCopy c.msg c.rng).length = c.msg.length := fun c => by simp only [goCopy, List.length_append, List.length_take, List.length_drop]; omega
  refine sim_setb (R1 := fun c d => decide (a.msg.length ≤ a.rng.length) = true → SameMsg c d) ⟨⟨ht.left.1, ht.left.2, ?_, ht.left.4, ht.left.5⟩, ⟨ht.right.1, ht.right.2, ?_, ht.right.4, ht.right.5⟩, ?_⟩ ?_ ?_
  · exact (l a).trans ht.left.msg
  · exact (l b).trans ht.right.msg
  · change a.rng.drop _ = b.rng.drop _
    rw [ht.rng, e]
  · intro h
    have h := of_decide_eq_true h
    change goCopy _ _ = goCopy _ _
    rw [goCopy, goCopy, e, ← ht.rng, List.drop_eq_nil_of_le h, List.drop_eq_nil_of_le (by rw [e]; exact h)]
  · refine sim_pure fun c d _ h => ⟨?_, h⟩
    change decide (a.msg.length ≤ a.rng.length) = decide (b.msg.length ≤ b.rng.length)
    rw [e, ht.rng]

theorem sim_panic {R' : α → β → KEM → KEM → Prop} : Sim f R panic panic R' := fun _ _ ht _ => ⟨ht, .inl ⟨rfl, rfl⟩⟩

theorem encaps_sim (hP : Supported P) (ct s : List Byte) (pub : PublicKey) :
    Sim f (fun _ _ => True) (SikePanic.encapsulate P ct s pub) (SikePanic.encapsulate P ct s pub) (fun a b _ _ => a = b) := by
  intro c d ht hr
  rw [SikePanic.encapsulate, SikePanic.encapsulate, twin_params ht, ht.left.allocated, ht.right.allocated]
  simp only [Bool.true_eq_false, if_false]
  split
  · exact sim_panic (R := fun _ _ => True) (R' := fun a b _ _ => a = b) c d ht hr
  split
  · exact sim_panic (R := fun _ _ => True) (R' := fun a b _ _ => a = b) c d ht hr
  split
  · exact sim_panic (R := fun _ _ => True) (R' := fun a b _ _ => a = b) c d ht hr
  refine (show Sim f (fun _ _ => True) (draw >>= fun ok => if ok = false then M.pure (ct, s, false) else encapsulateRest P ct s pub)
    (draw >>= fun ok => if ok = false then M.pure (ct, s, false) else encapsulateRest P ct s pub) (fun a b _ _ => a = b) from
    sim_bind draw_sim (fun a b => sim_fact fun e => ?_)) c d ht hr
  subst e
  cases a with
  | false => exact sim_pure fun _ _ _ _ => rfl
  | true => exact sim_mono (rest_sim hP ct s pub) (fun _ _ h => h rfl) fun _ _ _ _ h => h

theorem decrypt_sim (hP : Supported P) (n : List Byte) (prv : PrivateKey) (ct : List Byte) :
    Sim f (fun _ _ => True) (SikePanic.decrypt P n prv ct) (SikePanic.decrypt P n prv ct) (fun a b _ _ => a = b ∧ True) := by
  have hR : ∀ (c d : KEM) (s t : State), True → True := fun _ _ _ _ h => h
  rw [SikePanic.decrypt]
  refine sim_liftb rfl fun c0 _ => sim_liftb rfl fun hd _ => sim_liftb rfl fun (c0, ok) _ => sim_liftb rfl fun j _ => sim_liftb rfl fun j' _ =>
    sim_liftb rfl fun n1 _ => sim_hashb hP hR rfl rfl fun n1' _ => sim_liftb rfl fun n _ => ?_
  exact sim_pure fun _ _ _ _ => ⟨rfl, trivial⟩

theorem last_sim (hP : Supported P) (s : List Byte) (prv : PrivateKey) (pub : PublicKey) (ct pkBytes m1 : List Byte) (l : Nat) (skA : PrivateKey) (pkA : PublicKey) :
    Sim f (fun _ _ => True) (decapsulateLast P s prv pub ct pkBytes m1 l skA pkA) (decapsulateLast P s prv pub ct pkBytes m1 l skA pkA) (fun a b _ _ => a = b) := by
  have hR : ∀ (c d : KEM) (s t : State), True → True := fun _ _ _ _ h => h
  rw [decapsulateLast]
  refine sim_getb fun a b ht _ => ?_
  rw [twin_params ht]
  refine sim_liftb rfl fun _ _ => sim_liftb rfl fun _ _ => sim_liftb rfl fun _ _ => sim_liftb rfl fun _ _ => sim_liftb rfl fun _ _ => sim_liftb rfl fun _ _ =>
    sim_hashb hP hR rfl rfl fun _ _ => sim_getb fun a b ht _ => ?_
  rw [twin_params ht]
  exact sim_pure fun _ _ _ _ => rfl

theorem sliceTo_length {s t : List Byte} {n : Nat} (h : sliceTo s n = some t) : t.length = n := by
  rw [sliceTo] at h
  split at h
  · rw [← Option.some.inj h, List.length_take]; omega
  · exact absurd h (by simp)

theorem import_full {p : SidhParams} {s t r : List Byte} (hs : s.length = r.length) (ht : t.length = r.length) :
    (PrivateKey.mk p variantA s []).importKey r = some (⟨p, variantA, r, []⟩, true) ∧
    (PrivateKey.mk p variantA t []).importKey r = some (⟨p, variantA, r, []⟩, true) := by
  have key : ∀ s : List Byte, s.length = r.length → (PrivateKey.mk p variantA s []).importKey r = some (⟨p, variantA, r, []⟩, true) := by
    intro s hs
    have h0 : ¬ (variantA = variantSike) := by decide
    rw [PrivateKey.importKey, if_neg (by simp only [PrivateKey.size, if_neg h0]; omega)]
    simp [sliceTo, sliceFrom, goCopy, hs]
  exact ⟨key s hs, key t ht⟩

theorem drest_sim (hP : Supported P) (s : List Byte) (prv : PrivateKey) (pub : PublicKey) (ct m : List Byte) (l : Nat) {s1 s2 : List Byte}
    (h1 : s1.length = scalarLen f) (h2 : s2.length = scalarLen f) (pkA : PublicKey) :
    Sim f (fun _ _ => True) (decapsulateRest P s prv pub ct m l ⟨paramsOf f, variantA, s1, []⟩ pkA)
      (decapsulateRest P s prv pub ct m l ⟨paramsOf f, variantA, s2, []⟩ pkA) (fun a b _ _ => a = b) := by
  have hR : ∀ (c d : KEM) (s t : State), True → True := fun _ _ _ _ h => h
  rw [decapsulateRest, decapsulateRest]
  refine sim_getb fun a b ht _ => ?_
  rw [twin_params ht]
  refine sim_liftb rfl fun _ _ => sim_liftb rfl fun _ _ => sim_liftb rfl fun _ _ => sim_liftb rfl fun r1 hr1 => ?_
  have hr1 := sliceTo_length hr1
  rw [ht.left.params, (kemParams f).2.2.2.1] at hr1
  refine sim_hashb hP hR rfl rfl fun r2 hr2 => ?_
  refine sim_getb fun a b ht _ => ?_
  rw [twin_params ht]
  refine sim_liftb rfl fun r3 hr3 => ?_
  have hr3 : r3.length = scalarLen f := by rw [maskLast_length hr3, hr2, hr1]
  obtain ⟨e1, e2⟩ := import_full (p := paramsOf f) (h1.trans hr3.symm) (h2.trans hr3.symm)
  rw [e1, e2]
  refine sim_liftb rfl fun (k, ok) e => ?_
  obtain ⟨rfl, rfl⟩ := Prod.mk.inj (Option.some.inj e)
  have tt := twin_secret ht hr3 hr3
  rw [twin_params ht] at tt
  refine sim_setb (R1 := fun _ _ => True) tt trivial ?_
  exact last_sim hP _ _ _ _ _ _ _ _ _

theorem decaps_sim (hP : Supported P) (s : List Byte) (prv : PrivateKey) (pub : PublicKey) (ct : List Byte) :
    Sim f (fun _ _ => True) (SikePanic.decapsulate P s prv pub ct) (SikePanic.decapsulate P s prv pub ct) (fun a b _ _ => a = b) := by
  intro c d ht hr
  rw [SikePanic.decapsulate, SikePanic.decapsulate, twin_params ht, ht.left.allocated, ht.right.allocated]
  simp only [Bool.true_eq_false, if_false]
  split
  · exact sim_panic (R := fun _ _ => True) (R' := fun a b _ _ => a = b) c d ht hr
  split
  · exact sim_panic (R := fun _ _ => True) (R' := fun a b _ _ => a = b) c d ht hr
  split
  · exact sim_panic (R := fun _ _ => True) (R' := fun a b _ _ => a = b) c d ht hr
  split
  · exact sim_panic (R := fun _ _ => True) (R' := fun a b _ _ => a = b) c d ht hr
  rw [ht.left.params]
  have key : ∀ (s1 s2 : List Byte), s1.length = scalarLen f → s2.length = scalarLen f → Sim f (fun _ _ => True)
      (lift (newPublicKey (BitVec.ofNat 8 (paramsOf f).id) variantA) >>= fun pkA =>
        SikePanic.decrypt P (List.replicate maxMsgBsz 0) prv ct >>= fun (m, c1Len, ok) =>
          if ok = false then M.pure (s, false) else decapsulateRest P s prv pub ct m c1Len ⟨paramsOf f, variantA, s1, []⟩ pkA)
      (lift (newPublicKey (BitVec.ofNat 8 (paramsOf f).id) variantA) >>= fun pkA =>
        SikePanic.decrypt P (List.replicate maxMsgBsz 0) prv ct >>= fun (m, c1Len, ok) =>
          if ok = false then M.pure (s, false) else decapsulateRest P s prv pub ct m c1Len ⟨paramsOf f, variantA, s2, []⟩ pkA)
      (fun a b _ _ => a = b) := fun s1 s2 hs1 hs2 => by
    refine sim_liftb rfl fun pkA _ => ?_
    refine sim_bind (decrypt_sim hP _ _ _) fun x y => sim_fact fun e => ?_
    subst e
    obtain ⟨m, l, ok⟩ := x
    cases ok with
    | false => exact sim_pure fun _ _ _ _ => rfl
    | true => exact drest_sim hP _ _ _ _ _ _ hs1 hs2 _
  exact key _ _ ht.left.secretBytes ht.right.secretBytes c d ht hr

/-! ### agreement of the methods -/

theorem generate_agrees (c : KEM) (ctext : List Byte) (skA : PrivateKey) (pkA pkB : PublicKey) (ptext : List Byte) :
    Agrees (SikePanic.generateCiphertext P ctext skA pkA pkB ptext c) (c.generateCiphertext P ctext skA pkA pkB ptext) := by
  rw [SikePanic.generateCiphertext, KEM.generateCiphertext]
  exact agrees_lift fun _ => agrees_lift fun _ => agrees_lift fun _ => agrees_bind (agrees_hash _ _ _) fun _ _ =>
    agrees_lift fun _ => agrees_lift fun _ => agrees_lift fun _ => agrees_last

theorem encaps_agrees (c : KEM) (ct s : List Byte) (pub : PublicKey) :
    Agrees (SikePanic.encapsulate P ct s pub c) (c.encapsulate P ct s pub) := by
  rw [SikePanic.encapsulate, KEM.encapsulate]
  split
  · rfl
  split
  · rfl
  split
  · rfl
  split
  · rfl
  change Agrees ((fun ok => if ok = false then M.pure (ct, s, false) else encapsulateRest P ct s pub) (readFull c.rng c.msg).2.2
    {c with msg := (readFull c.rng c.msg).1, rng := (readFull c.rng c.msg).2.1}) _
  rcases readFull c.rng c.msg with ⟨msg, rng, ok⟩
  simp only
  cases ok with
  | false => rfl
  | true =>
    rw [if_neg (by decide), if_neg (by decide), encapsulateRest]
    refine agrees_get (agrees_lift fun _ => agrees_lift fun _ => agrees_lift fun _ => agrees_bind (agrees_hash _ _ _) fun c' sc => ?_)
    refine agrees_get (agrees_set (agrees_lift fun _ => agrees_set (agrees_lift fun _ => agrees_bind (generate_agrees _ _ _ _ _ _) fun c'' ct' => ?_)))
    exact agrees_get (agrees_lift fun _ => agrees_bind (agrees_hash _ _ _) fun _ _ => rfl)

theorem decrypt_agrees (c : KEM) (n : List Byte) (prv : PrivateKey) (ct : List Byte) :
    Agrees (SikePanic.decrypt P n prv ct c) (c.decrypt P n prv ct) := by
  rw [SikePanic.decrypt, KEM.decrypt]
  exact agrees_lift fun _ => agrees_lift fun _ => agrees_lift fun _ => agrees_lift fun _ => agrees_lift fun _ => agrees_lift fun _ =>
    agrees_bind (agrees_hash _ _ _) fun _ _ => agrees_lift fun _ => rfl

theorem decaps_agrees (c : KEM) (s : List Byte) (prv : PrivateKey) (pub : PublicKey) (ct : List Byte) :
    Agrees (SikePanic.decapsulate P s prv pub ct c) (c.decapsulate P s prv pub ct) := by
  rw [SikePanic.decapsulate, KEM.decapsulate]
  split
  · rfl
  split
  · rfl
  split
  · rfl
  split
  · rfl
  split
  · rfl
  refine agrees_lift fun pkA => agrees_bind (decrypt_agrees _ _ _ _) fun c1 (m, l, ok) => ?_
  cases ok with
  | false => rfl
  | true =>
    simp only
    rw [if_neg (by decide), if_neg (by decide), decapsulateRest]
    refine agrees_get (agrees_lift fun _ => agrees_lift fun _ => agrees_lift fun _ => agrees_lift fun _ => agrees_bind (agrees_hash _ _ _) fun c2 r => ?_)
    refine agrees_get (agrees_lift fun _ => agrees_lift fun (k, ok) => agrees_set ?_)
    cases ok with
    | false => rfl
    | true =>
      simp only
      rw [if_neg (by decide), if_neg (by decide), decapsulateLast]
      exact agrees_get (agrees_lift fun _ => agrees_lift fun _ => agrees_lift fun _ => agrees_lift fun _ => agrees_lift fun _ => agrees_lift fun _ =>
        agrees_bind (agrees_hash _ _ _) fun _ _ => rfl)

end Lemmas.SikePanic
