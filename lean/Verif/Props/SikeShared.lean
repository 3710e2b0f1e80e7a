import Verif.Props.SikePanic
import Verif.Model.SikeShared
/-!
C130: goroutines that call `Encapsulate` on one KEM object at the same time.  Model: `Verif/Model/SikeShared.lean`; calls one after
the other are those of `Verif/Model/Sike.lean`; `sike f` is the scheme of the specification (`Verif/Spec/Sike.lean`) with the
primitives of the code.
-/
namespace Props.SikeShared
open Model Model.Sidh Model.Sha3 Model.Sike Model.SikeShared Spec Spec.Sidh Spec.Sike Lemmas.Sike Lemmas.SikePanic Props.Sike Props.SidhKeys Props.SidhCurve Lemmas.SidhNat Lemmas.Sha3

variable {P : Plat}

/-- Calls one after the other: the object and what each returned. -/
def oneByOne (P : Plat) (c : KEM) : List Args → Option (KEM × List (List Byte × List Byte × Bool))
  | [] => some (c, [])
  | a :: as => do
    let (c, r) ← c.encapsulate P a.ciphertext a.secret a.pub
    let (c, rs) ← oneByOne P c as
    some (c, r :: rs)

/-! ### one call -/

/-- Both steps of a call in a row. -/
def both (P : Plat) (c : KEM) (a : Args) : Option (KEM × Gor) := (enter c a).bind fun (c, g) => act P c g

theorem both_eq (c : KEM) (a : Args) :
    both P c a = (c.encapsulate P a.ciphertext a.secret a.pub).map fun x => (x.1, .done x.2) := by
  rw [← encaps_agrees c a.ciphertext a.secret a.pub, both, enter, SikePanic.encapsulate]
  by_cases h1 : c.allocated = false
  · rw [if_pos h1, if_pos h1]; rfl
  rw [if_neg h1, if_neg h1]
  by_cases h2 : variantSike ≠ a.pub.variant
  · rw [if_pos h2, if_pos h2]; rfl
  rw [if_neg h2, if_neg h2]
  by_cases h3 : a.secret.length < c.params.kemSize
  · rw [if_pos h3, if_pos h3]; rfl
  rw [if_neg h3, if_neg h3]
  by_cases h4 : a.ciphertext.length < c.params.ciphertextSize
  · rw [if_pos h4, if_pos h4]; rfl
  rw [if_neg h4, if_neg h4, SikePanic.M.bind]
  generalize SikePanic.draw c = z
  obtain ⟨c1, _ | _ | _⟩ := z
  · rfl
  · rfl
  · simp only [Option.bind_some, SikeShared.act, Bool.true_eq_false, if_false]
    generalize SikePanic.encapsulateRest P a.ciphertext a.secret a.pub c1 = y
    obtain ⟨c2, _ | r⟩ := y
    · rfl
    · rfl

/-- C130. A call that is not interrupted, made by any goroutine in company of any others, is the call of the other properties:
the object and the result afterwards, and a panic where that panics. -/
theorem c130_same (c : KEM) (gs : List Gor) (j : Nat) (a : Args) (h : gs[j]? = some (.called a)) :
    run P c gs [j, j] = (c.encapsulate P a.ciphertext a.secret a.pub).map fun x => (x.1, gs.set j (.done x.2)) := by
  have hl := (List.getElem?_eq_some_iff.1 h).1
  have := both_eq (P := P) c a
  rw [SikeShared.run, SikeShared.step, h]
  simp only [SikeShared.act]
  rw [both] at this
  cases he : enter c a with
  | none =>
    rw [he] at this
    cases hx : c.encapsulate P a.ciphertext a.secret a.pub with
    | none => rfl
    | some x => rw [hx] at this; cases this
  | some x =>
    obtain ⟨c1, g1⟩ := x
    rw [he] at this
    simp only [Option.bind_some] at this
    simp only [Option.map_some, Option.bind_some]
    rw [SikeShared.run, SikeShared.step, List.getElem?_set_self hl]
    simp only
    rw [this]
    cases c.encapsulate P a.ciphertext a.secret a.pub with
    | none => rfl
    | some x => simp only [Option.map_some, Option.bind_some, SikeShared.run, List.set_set]

/-! ### two calls that overlap -/

/-- What the property would need: two goroutines that have returned hold what they would hold had one called after the other,
in one order or the other. -/
def OneAfterTheOther (P : Plat) (c : KEM) (a b : Args) : Prop :=
  ∀ sched c' r0 r1, run P c [.called a, .called b] sched = some (c', [.done r0, .done r1]) →
    (∃ d, oneByOne P c [a, b] = some (d, [r0, r1])) ∨ (∃ d, oneByOne P c [b, a] = some (d, [r1, r0]))

theorem draw_eq {f : Fld} {c : KEM} (hc : KemOf f c) (hr : msgLen f ≤ c.rng.length) :
    SikePanic.draw c = ({c with msg := c.rng.take (msgLen f), rng := c.rng.drop (msgLen f)}, some true) := by
  obtain ⟨al, rng, msg, sb, pr, sh⟩ := c
  obtain ⟨h1, h2, hmsg, hsb, hsh⟩ := hc
  simp only at h1 h2 hmsg hsb hsh hr
  change (KEM.mk al (rng.drop msg.length) (goCopy msg rng) sb pr sh, some (decide (msg.length ≤ rng.length))) = _
  have e0 : goCopy msg rng = rng.take (msgLen f) := by
    rw [goCopy, hmsg, List.drop_eq_nil_of_le (by rw [hmsg]; exact hr), List.append_nil]
  rw [e0, hmsg, decide_eq_true hr]

theorem enter_eq {f : Fld} {c : KEM} (hc : KemOf f c) (hr : msgLen f ≤ c.rng.length) (a : Args) (hv : a.pub.variant = variantSike)
    (hl : ctLen f ≤ a.ciphertext.length) (hs : msgLen f ≤ a.secret.length) :
    enter c a = some ({c with msg := c.rng.take (msgLen f), rng := c.rng.drop (msgLen f)}, .drawn a) := by
  obtain ⟨k1, k2, k3, -⟩ := kemParams f
  rw [enter, if_neg (by rw [hc.allocated]; decide), if_neg (by rw [hv]; simp), if_neg (by rw [hc.params, k2]; omega),
    if_neg (by rw [hc.params, k3]; omega), draw_eq hc hr]

/-- The rest of a call is encapsulation of the message that is in the object. -/
theorem rest_eq (hP : Supported P) {f : Fld} {c : KEM} (hc : KemOf f c) (a : Args) {X Y Z : Fq f} (hpub : PubOf f variantSike a.pub X Y Z)
    (hl : a.ciphertext.length = ctLen f) (hs : msgLen f ≤ a.secret.length) :
    ∃ c', KemOf f c' ∧ c'.rng = c.rng ∧ act P c (.drawn a) = some (c', .done (((sike f).encaps c.msg (bytesOf f a.pub)).1,
      ((sike f).encaps c.msg (bytesOf f a.pub)).2 ++ a.secret.drop (msgLen f), true)) := by
  have hc0 : KemOf f {c with rng := c.msg ++ c.rng} := ⟨hc.allocated, hc.params, hc.msg, hc.secretBytes, hc.shake⟩
  have hr0 : msgLen f ≤ (c.msg ++ c.rng).length := by rw [List.length_append, hc.msg]; omega
  have et : (c.msg ++ c.rng).take (msgLen f) = c.msg := List.take_left' hc.msg
  have ed : (c.msg ++ c.rng).drop (msgLen f) = c.rng := List.drop_left' hc.msg
  obtain ⟨c', h1, h2, h3⟩ := c53_encapsulate hP f {c with rng := c.msg ++ c.rng} hc0 a.pub X Y Z hpub a.ciphertext a.secret hl hs hr0
  have hv : a.pub.variant = variantSike := (show Pub f variantSike a.pub ⟨X, Y, Z⟩ from hpub).variant
  have hb := both_eq (P := P) {c with rng := c.msg ++ c.rng} a
  rw [both, enter_eq hc0 hr0 a hv (by omega) hs, h3] at hb
  simp only [et, ed, Option.bind_some, Option.map_some] at hb h2
  exact ⟨c', h1, h2, hb⟩

/-- The message in the object stays. -/
def Keeps {α : Type} (x : List Byte) (m : SikePanic.M α) : Prop := ∀ c : KEM, c.msg = x → (m c).1.msg = x

theorem keeps_bind {α β : Type} {x : List Byte} {m : SikePanic.M α} {g : α → SikePanic.M β} (h : Keeps x m) (hg : ∀ a, Keeps x (g a)) : Keeps x (m >>= g) := by
  intro c hc
  have := h c hc
  change (SikePanic.M.bind m g c).1.msg = x
  rw [SikePanic.M.bind]
  generalize m c = z at this
  obtain ⟨c1, _ | a⟩ := z
  · exact this
  · exact hg a c1 this

theorem keeps_get {β : Type} {x : List Byte} {g : KEM → SikePanic.M β} (h : ∀ d : KEM, d.msg = x → Keeps x (g d)) : Keeps x (SikePanic.get >>= g) :=
  fun c hc => h c hc c hc

theorem keeps_set {x : List Byte} {d : KEM} (h : d.msg = x) : Keeps x (SikePanic.set d) := fun _ _ => h

theorem keeps_lift {α : Type} {x : List Byte} (v : Option α) : Keeps x (SikePanic.lift v) := fun _ h => h

theorem keeps_pure {α : Type} {x : List Byte} (a : α) : Keeps x (pure a : SikePanic.M α) := fun _ h => h

theorem keeps_hash {x : List Byte} (ins : List (List Byte)) (out : List Byte) : Keeps x (SikePanic.hash P ins out) := by
  intro c hc
  rw [SikePanic.hash]
  split
  · exact hc
  · rename_i c' o h
    simp only [KEM.hash, Option.bind_eq_bind, Option.bind_eq_some_iff, Option.some.injEq, Prod.mk.injEq] at h
    obtain ⟨_, -, _, -, rfl, -⟩ := h
    exact hc

theorem generate_keeps {x : List Byte} (ct : List Byte) (skA : PrivateKey) (pkA pkB : PublicKey) (pt : List Byte) :
    Keeps x (SikePanic.generateCiphertext P ct skA pkA pkB pt) := by
  unfold SikePanic.generateCiphertext
  refine keeps_bind (keeps_lift _) fun _ => keeps_bind (keeps_lift _) fun _ => keeps_bind (keeps_lift _) fun _ => keeps_bind (keeps_hash _ _) fun _ =>
    keeps_bind (keeps_lift _) fun _ => keeps_bind (keeps_lift _) fun _ => keeps_bind (keeps_lift _) fun _ => keeps_lift _

theorem rest_keeps (ct s : List Byte) (pub : PublicKey) (x : List Byte) : Keeps x (SikePanic.encapsulateRest P ct s pub) := by
  unfold SikePanic.encapsulateRest
  refine keeps_get fun d hd => keeps_bind (keeps_lift _) fun _ => keeps_bind (keeps_lift _) fun _ => keeps_bind (keeps_lift _) fun _ =>
    keeps_bind (keeps_hash _ _) fun _ => keeps_get fun d hd => keeps_bind (keeps_set hd) fun _ => keeps_bind (keeps_lift _) fun _ =>
    keeps_bind (keeps_set hd) fun _ => keeps_bind (keeps_lift _) fun _ => keeps_bind (generate_keeps _ _ _ _ _) fun _ => keeps_get fun d hd =>
    keeps_bind (keeps_lift _) fun _ => keeps_bind (keeps_hash _ _) fun _ => keeps_get fun d hd => keeps_pure _

/-- C130. Two goroutines on one KEM object, in whatever state it is: there is a schedule under which both return without error
and both have used the same message, the second that the source delivered; the first is used by neither. -/
theorem c130_mixed (hP : Supported P) {f : Fld} {c : KEM} (hc : KemOf f c) (hr : 2 * msgLen f ≤ c.rng.length) (a b : Args)
    {X Y Z X' Y' Z' : Fq f} (ha : PubOf f variantSike a.pub X Y Z) (hb : PubOf f variantSike b.pub X' Y' Z')
    (hla : a.ciphertext.length = ctLen f) (hsa : msgLen f ≤ a.secret.length) (hlb : b.ciphertext.length = ctLen f) (hsb : msgLen f ≤ b.secret.length) :
    ∃ sched c', run P c [.called a, .called b] sched = some (c',
      let m := (c.rng.drop (msgLen f)).take (msgLen f)
      [.done (((sike f).encaps m (bytesOf f a.pub)).1, ((sike f).encaps m (bytesOf f a.pub)).2 ++ a.secret.drop (msgLen f), true),
       .done (((sike f).encaps m (bytesOf f b.pub)).1, ((sike f).encaps m (bytesOf f b.pub)).2 ++ b.secret.drop (msgLen f), true)]) := by
  have hva : a.pub.variant = variantSike := (show Pub f variantSike a.pub ⟨X, Y, Z⟩ from ha).variant
  have hvb : b.pub.variant = variantSike := (show Pub f variantSike b.pub ⟨X', Y', Z'⟩ from hb).variant
  have e1 := enter_eq hc (by omega) a hva (by omega) hsa
  have hl1 : msgLen f ≤ (c.rng.drop (msgLen f)).length := by rw [List.length_drop]; omega
  have hc1 : KemOf f {c with msg := c.rng.take (msgLen f), rng := c.rng.drop (msgLen f)} :=
    ⟨hc.allocated, hc.params, by simp only [List.length_take]; omega, hc.secretBytes, hc.shake⟩
  have e2 := enter_eq hc1 hl1 b hvb (by omega) hsb
  simp only at e2
  have hc2 : KemOf f {c with msg := (c.rng.drop (msgLen f)).take (msgLen f), rng := (c.rng.drop (msgLen f)).drop (msgLen f)} :=
    ⟨hc.allocated, hc.params, by simp only [List.length_take]; omega, hc.secretBytes, hc.shake⟩
  obtain ⟨c3, hc3, hr3, e3⟩ := rest_eq hP hc2 a ha hla hsa
  -- the second goroutine finds the message still there
  have hm3 : c3.msg = (c.rng.drop (msgLen f)).take (msgLen f) := by
    have hk := rest_keeps (P := P) a.ciphertext a.secret a.pub _ {c with msg := (c.rng.drop (msgLen f)).take (msgLen f), rng := (c.rng.drop (msgLen f)).drop (msgLen f)} rfl
    rw [SikeShared.act] at e3
    generalize SikePanic.encapsulateRest P a.ciphertext a.secret a.pub _ = z at e3 hk
    obtain ⟨c5, _ | r⟩ := z
    · cases e3
    · cases e3; exact hk
  obtain ⟨c4, hc4, hr4, e4⟩ := rest_eq hP hc3 b hb hlb hsb
  rw [hm3] at e4
  refine ⟨[0, 1, 0, 1], c4, ?_⟩
  have s1 : step P c [.called a, .called b] 0 = some ({c with msg := c.rng.take (msgLen f), rng := c.rng.drop (msgLen f)}, [.drawn a, .called b]) := by
    show (enter c a).map _ = _
    rw [e1]; rfl
  have s2 : step P {c with msg := c.rng.take (msgLen f), rng := c.rng.drop (msgLen f)} [.drawn a, .called b] 1 =
      some ({c with msg := (c.rng.drop (msgLen f)).take (msgLen f), rng := (c.rng.drop (msgLen f)).drop (msgLen f)}, [.drawn a, .drawn b]) := by
    show (enter _ b).map _ = _
    rw [e2]; rfl
  show (step P c [.called a, .called b] 0).bind _ = _
  rw [s1]
  show (step P _ [.drawn a, .called b] 1).bind _ = _
  rw [s2]
  show ((act P _ (.drawn a)).map _).bind _ = _
  rw [e3]
  show ((act P c3 (.drawn b)).map _).bind _ = _
  rw [e4]; rfl

/-- The receiver of what goroutine 1 sends can compute the secret goroutine 0 shares with another: the two ciphertexts and
its own private key are enough. -/
theorem c130_leak (hP : Supported P) {f : Fld} {c : KEM} (hc : KemOf f c) (hr : 2 * msgLen f ≤ c.rng.length) (a b : Args)
    {X Y Z : Fq f} (ha : PubOf f variantSike a.pub X Y Z) (prv : PrivateKey) (hprv : PrivOf f variantSike prv) (pub0 : PublicKey)
    (hp0 : pub0.params = paramsOf f) (hv0 : pub0.variant = variantSike) (hb : prv.generatePublicKey pub0 = some b.pub)
    (hla : a.ciphertext.length = ctLen f) (hsa : a.secret.length = msgLen f) (hlb : b.ciphertext.length = ctLen f) (hsb : b.secret.length = msgLen f) :
    ∃ sched c' ct0 s0 ct1 s1, run P c [.called a, .called b] sched = some (c', [.done (ct0, s0, true), .done (ct1, s1, true)]) ∧
      s0 = Keccak.shake256 ((sike f).dec prv.scalar ct1 ++ ct0) (msgLen f) := by
  obtain ⟨pub, h1, h2⟩ := gen_spec hprv pub0 hp0 hv0
  rw [hb, Option.some.injEq] at h1
  subst h1
  rw [show (variantSike : W64).getLsbD 0 = false from rfl] at h2
  have hsk := hprv.scalar
  rw [if_neg (by decide)] at hsk
  obtain ⟨sched, c', h⟩ := c130_mixed hP hc hr a b ha h2 hla (by omega) hlb (by omega)
  refine ⟨sched, c', _, _, _, _, h, ?_⟩
  have lm : ((c.rng.drop (msgLen f)).take (msgLen f)).length = msgLen f := by rw [List.length_take, List.length_drop]; omega
  generalize (c.rng.drop (msgLen f)).take (msgLen f) = m at lm ⊢
  have e := bytesOf_eq (show Pub f variantSike b.pub (genF f false prv.scalar) from h2)
  have hd : (sike f).dec prv.scalar ((sike f).encaps m (bytesOf f b.pub)).1 = m := by
    rw [e]
    exact dec_enc_scheme f prv.scalar _ m hsk (coins_length f m _) lm
  rw [hd, List.drop_eq_nil_of_le (by omega), List.append_nil]
  rfl

/-- C130. The property is false of the code: whenever the first two messages the source delivers differ, two goroutines that
encapsulate to a generated key at the same time may return what no order of the calls gives. -/
theorem c130_false (hP : Supported P) {f : Fld} {c : KEM} (hc : KemOf f c) (hr : 2 * msgLen f ≤ c.rng.length)
    (hne : c.rng.take (msgLen f) ≠ (c.rng.drop (msgLen f)).take (msgLen f)) (a : Args)
    (prv : PrivateKey) (hprv : PrivOf f variantSike prv) (pub0 : PublicKey)
    (hp0 : pub0.params = paramsOf f) (hv0 : pub0.variant = variantSike) (hb : prv.generatePublicKey pub0 = some a.pub)
    (hla : a.ciphertext.length = ctLen f) (hsa : msgLen f ≤ a.secret.length) : ¬ OneAfterTheOther P c a a := by
  intro hp
  obtain ⟨pub, h1, h2⟩ := gen_spec hprv pub0 hp0 hv0
  rw [hb, Option.some.injEq] at h1
  subst h1
  rw [show (variantSike : W64).getLsbD 0 = false from rfl] at h2
  have hsk := hprv.scalar
  rw [if_neg (by decide)] at hsk
  obtain ⟨sched, c', h⟩ := c130_mixed hP hc hr a a h2 h2 hla hsa hla hsa
  obtain ⟨c1, g1, g2, g3⟩ := c53_encapsulate hP f c hc a.pub _ _ _ h2 a.ciphertext a.secret hla hsa (by omega)
  obtain ⟨c2, g4, g5, g6⟩ := c53_encapsulate hP f c1 g1 a.pub _ _ _ h2 a.ciphertext a.secret hla hsa (by rw [g2, List.length_drop]; omega)
  rw [g2] at g6
  have e := bytesOf_eq (show Pub f variantSike a.pub (genF f false prv.scalar) from h2)
  have lm : (c.rng.take (msgLen f)).length = msgLen f := by rw [List.length_take]; omega
  have lm' : ((c.rng.drop (msgLen f)).take (msgLen f)).length = msgLen f := by rw [List.length_take, List.length_drop]; omega
  have hd : ∀ m : List Byte, m.length = msgLen f → (sike f).dec prv.scalar ((sike f).encaps m (bytesOf f a.pub)).1 = m := by
    intro m hm
    rw [e]
    exact dec_enc_scheme f prv.scalar _ m hsk (coins_length f m _) hm
  have hseq : ∀ d r0 r1, oneByOne P c [a, a] = some (d, [r0, r1]) → r0 ≠ r1 := by
    intro d r0 r1 ho he
    simp only [oneByOne, g3, g6, Option.bind_eq_bind, Option.bind_some, Option.some.injEq, Prod.mk.injEq, List.cons.injEq, and_true] at ho
    apply hne
    have := congrArg (fun x => (sike f).dec prv.scalar x.1) (ho.2.1.trans (he.trans ho.2.2.symm))
    simp only [hd _ lm, hd _ lm'] at this
    exact this
  rcases hp sched c' _ _ h with ⟨d, ho⟩ | ⟨d, ho⟩
  · exact hseq d _ _ ho rfl
  · exact hseq d _ _ ho rfl

/-! ### calls that don't overlap -/

theorem run_append (js ks : List Nat) : ∀ (c : KEM) (gs : List Gor), run P c gs (js ++ ks) = (run P c gs js).bind fun x => run P x.1 x.2 ks := by
  induction js with
  | nil => intro c gs; rfl
  | cons j js ih =>
    intro c gs
    rw [List.cons_append, SikeShared.run, SikeShared.run]
    cases SikeShared.step P c gs j with
    | none => rfl
    | some x => exact ih x.1 x.2

theorem serial_aux (calls : Nat → Args) (order : List Nat) : ∀ {c c' : KEM} {rs : List (List Byte × List Byte × Bool)} {gs : List Gor},
    order.Nodup → (∀ j ∈ order, gs[j]? = some (.called (calls j))) → oneByOne P c (order.map calls) = some (c', rs) →
    ∃ gs', run P c gs (order.flatMap fun j => [j, j]) = some (c', gs') ∧ (∀ j, j ∉ order → gs'[j]? = gs[j]?) ∧
      ∀ i j : Nat, order[i]? = some j → ∃ r, gs'[j]? = some (.done r) ∧ rs[i]? = some r := by
  induction order with
  | nil =>
    intro c c' rs gs _ _ h
    cases h
    exact ⟨gs, rfl, fun _ _ => rfl, fun i j e => by simp at e⟩
  | cons k order ih =>
    intro c c' rs gs hn hg h
    rw [List.nodup_cons] at hn
    simp only [List.map_cons, oneByOne, Option.bind_eq_bind, Option.bind_eq_some_iff] at h
    obtain ⟨⟨c1, r⟩, hy, ⟨c2, rs'⟩, h, h'⟩ := h
    simp only [Option.some.injEq, Prod.mk.injEq] at h'
    obtain ⟨rfl, rfl⟩ := h'
    have hk := hg k (List.mem_cons_self ..)
    have hlt := (List.getElem?_eq_some_iff.1 hk).1
    have hrun := c130_same (P := P) c gs k _ hk
    rw [hy] at hrun
    simp only [Option.map_some] at hrun
    obtain ⟨gs', b1, b2, b3⟩ := ih (gs := gs.set k (.done r)) hn.2 (fun j hj => by
      rw [List.getElem?_set_ne (by rintro rfl; exact hn.1 hj)]
      exact hg j (List.mem_cons_of_mem _ hj)) h
    refine ⟨gs', ?_, ?_, ?_⟩
    · rw [List.flatMap_cons, run_append, hrun]; exact b1
    · intro j hj
      simp only [List.mem_cons, not_or] at hj
      rw [b2 j hj.2, List.getElem?_set_ne (Ne.symm hj.1)]
    · intro i j e
      cases i with
      | zero =>
        simp only [List.getElem?_cons_zero, Option.some.injEq] at e
        subst e
        exact ⟨r, by rw [b2 _ hn.1, List.getElem?_set_self hlt], rfl⟩
      | succ i =>
        simp only [List.getElem?_cons_succ] at e ⊢
        exact b3 i j e

/-- C130, what holds: when calls don't overlap, as with a lock around each, every goroutine gets what the calls give one after the
other in that order.  Missing from the property: calls that overlap (`c130_false`). -/
theorem c130_serial_partial (c : KEM) (calls : Nat → Args) (n : Nat) (order : List Nat) (hn : order.Nodup) (hlt : ∀ j ∈ order, j < n)
    (c' : KEM) (rs : List (List Byte × List Byte × Bool)) (h : oneByOne P c (order.map calls) = some (c', rs)) :
    ∃ gs, run P c ((List.range n).map fun j => .called (calls j)) (order.flatMap fun j => [j, j]) = some (c', gs) ∧
      ∀ i j : Nat, order[i]? = some j → ∃ r, gs[j]? = some (.done r) ∧ rs[i]? = some r := by
  obtain ⟨gs, b1, _, b3⟩ := serial_aux (P := P) calls order (gs := (List.range n).map fun j => .called (calls j)) hn (fun j hj => by
    rw [List.getElem?_map, List.getElem?_range (hlt j hj)]; rfl) h
  exact ⟨gs, b1, b3⟩

/-! ### a case -/

/-- A generated key, an object with two different messages to come, and buffers of the right length. -/
example (f : Fld) (rng : List Byte) (h : seedLen f 6 + byteLen f 6 ≤ rng.length) :
    ∃ k0 k rest c p0 pub, newPrivateKey (idOf f) variantSike = some k0 ∧ k0.generate rng = some (k, rest, true) ∧ PrivOf f variantSike k ∧
      p0.params = paramsOf f ∧ p0.variant = variantSike ∧ k.generatePublicKey p0 = some pub ∧
      allocate (idOf f) (List.replicate (msgLen f) 1 ++ List.replicate (msgLen f) 2) = some c ∧ KemOf f c ∧ 2 * msgLen f ≤ c.rng.length ∧
      c.rng.take (msgLen f) ≠ (c.rng.drop (msgLen f)).take (msgLen f) := by
  obtain ⟨k0, h1, h2⟩ := c34_new f variantSike
  obtain ⟨k, h3, h4, _⟩ := c37_function f variantSike k0 h2 rng h
  obtain ⟨c, h5, h6, h7⟩ := kem_new f (List.replicate (msgLen f) 1 ++ List.replicate (msgLen f) 2)
  obtain ⟨pub, h8, _⟩ := gen_spec h4 ⟨paramsOf f, variantSike, ⟨zeroFp2 f.words, zeroFp2 f.words, zeroFp2 f.words⟩⟩ rfl rfl
  refine ⟨k0, k, _, c, _, pub, h1, h3, h4, rfl, rfl, h8, h5, h6, ?_, ?_⟩
  · rw [h7, List.length_append, List.length_replicate, List.length_replicate]; omega
  · rw [h7]; cases f <;> decide

end Props.SikeShared
