import Verif.Model.MkemPanic
import Verif.Lemmas.SikePanic
import Verif.Props.Mkem
/-! Helper lemmas: computations on a `MultiKEM` that may panic. -/
namespace Lemmas.MkemPanic
open Model Model.Sidh Model.Sha3 Model.Sike Model.Mkem Model.MkemPanic Spec Spec.Sidh Lemmas.Sike Props.Sike Props.SidhKeys Props.SidhCurve Props.Mkem Lemmas.SidhNat
open Lemmas.Sha3 Lemmas.SidhBytes Spec.Sike

variable {P : Plat} {f : Fld} {α β γ : Type}

/-! ### agreement with the model without panics -/

/-- the result of a call, with the object afterwards, is `o` -/
def Agrees (x : MultiKEM × Option α) (o : Option (MultiKEM × α)) : Prop := x.2.map (fun a => (x.1, a)) = o

theorem agrees_bind {m : M α} {g : α → M β} {c : MultiKEM} {o : Option (MultiKEM × α)} {k : MultiKEM × α → Option (MultiKEM × β)} (h : Agrees (m c) o)
    (hk : ∀ c' a, Agrees (g a c') (k (c', a))) : Agrees ((m >>= g) c) (o >>= k) := by
  change Agrees (M.bind m g c) _
  rw [M.bind]
  unfold Agrees at h
  subst h
  rcases m c with ⟨c', _ | a⟩
  · rfl
  · exact hk c' a

theorem agrees_lift {v : Option α} {g : α → M β} {c : MultiKEM} {k : α → Option (MultiKEM × β)} (hk : ∀ a, Agrees (g a c) (k a)) :
    Agrees ((lift v >>= g) c) (v >>= k) := by
  change Agrees (M.bind (lift v) g c) _
  cases v with
  | none => rfl
  | some a => exact hk a

theorem agrees_get {g : MultiKEM → M β} {c : MultiKEM} {o : Option (MultiKEM × β)} (h : Agrees (g c c) o) : Agrees ((get >>= g) c) o := h
theorem agrees_set {g : Unit → M β} {c d : MultiKEM} {o : Option (MultiKEM × β)} (h : Agrees (g () d) o) : Agrees ((set d >>= g) c) o := h

/-- `Reset`, `Write` and `Read` in a row -/
theorem agrees_hash {ins : List (List Byte)} {out : List Byte} {g : List Byte → M β} {c : MultiKEM} {K : KEM × List Byte → Option (MultiKEM × β)}
    (h : ∀ st o, Agrees (g o {c with kem := {c.kem with shake := st}}) (K ({c.kem with shake := st}, o))) : Agrees ((absorb P ins >>= fun _ => squeeze P out >>= g) c) (c.kem.hash P ins out >>= K) := by
  change Agrees (M.bind (absorb P ins) (fun _ => M.bind (squeeze P out) g) c) _
  rw [M.bind, absorb, KEM.hash]
  cases writes P (reset c.kem.shake) ins with
  | none => rfl
  | some st =>
    simp only [Option.bind_eq_bind, Option.bind_some, M.bind, squeeze]
    cases hr : Model.Sha3.read P st out with
    | none => rfl
    | some r =>
      obtain ⟨st', o, n⟩ := r
      simp only [Option.bind_some]
      exact h _ _

theorem lift_some (a : α) (g : α → M β) : (lift (some a) >>= g) = g a := rfl
theorem lift_none (g : α → M β) : (lift none >>= g) = panic := rfl
theorem get_bind (g : MultiKEM → M β) (c : MultiKEM) : (get >>= g) c = g c c := rfl
theorem set_bind (d : MultiKEM) (g : Unit → M β) (c : MultiKEM) : (set d >>= g) c = g () d := rfl
theorem absorb_none {ins : List (List Byte)} {c : MultiKEM} (g : Unit → M β) (h : writes P (reset c.kem.shake) ins = none) : (absorb P ins >>= g) c = (c, none) := by
  change M.bind _ _ _ = _
  rw [M.bind, absorb, h]
theorem absorb_some {ins : List (List Byte)} {c : MultiKEM} {st : State} (g : Unit → M β) (h : writes P (reset c.kem.shake) ins = some st) :
    (absorb P ins >>= g) c = g () {c with kem := {c.kem with shake := st}} := by
  change M.bind _ _ _ = _
  rw [M.bind, absorb, h]
theorem squeeze_none {out : List Byte} {c : MultiKEM} (g : List Byte → M β) (h : Model.Sha3.read P c.kem.shake out = none) : (squeeze P out >>= g) c = (c, none) := by
  change M.bind _ _ _ = _
  rw [M.bind, squeeze, h]
theorem squeeze_some {out o : List Byte} {n : Nat} {c : MultiKEM} {st : State} (g : List Byte → M β) (h : Model.Sha3.read P c.kem.shake out = some (st, o, n)) :
    (squeeze P out >>= g) c = g o {c with kem := {c.kem with shake := st}} := by
  change M.bind _ _ _ = _
  rw [M.bind, squeeze, h]

theorem agrees_one (skA : PrivateKey) (i : Nat) (pkB : PublicKey) (c : MultiKEM) :
    Agrees (MkemPanic.encryptOne P skA i pkB c) ((c.encryptOne P skA i pkB).map fun d => (d, ())) := by
  rw [MkemPanic.encryptOne, MultiKEM.encryptOne]
  split
  · rfl
  rw [get_bind]
  cases h1 : skA.deriveSecret c.j pkB with
  | none => rfl
  | some j =>
  rw [lift_some, set_bind]
  simp only [Option.bind_eq_bind, Option.bind_some, KEM.hash]
  cases h2 : sliceTo j skA.params.sharedSecretSize with
  | none => rfl
  | some j1 =>
  rw [lift_some]
  simp only [Option.bind_some]
  cases h3 : writes P (reset c.kem.shake) [g2, j1] with
  | none =>
    rw [absorb_none (c := {c with j := j}) _ h3]
    cases c.cts[i]? with
    | none => rfl
    | some ct =>
      simp only [Option.bind_some]
      cases sliceTo ct skA.params.msgLen <;> rfl
  | some st =>
  rw [absorb_some (c := {c with j := j}) _ h3]
  cases h4 : c.cts[i]? with
  | none => rfl
  | some ct =>
  rw [lift_some]
  simp only [Option.bind_some]
  cases h5 : sliceTo ct skA.params.msgLen with
  | none => rfl
  | some ct1 =>
  rw [lift_some]
  simp only [Option.bind_some]
  cases h6 : Model.Sha3.read P st ct1 with
  | none => rw [squeeze_none (c := {c with j := j, kem := {c.kem with shake := st}}) _ h6]; rfl
  | some r =>
  obtain ⟨st', o, n⟩ := r
  rw [squeeze_some (c := {c with j := j, kem := {c.kem with shake := st}}) _ h6, get_bind, set_bind]
  simp only [Option.bind_some]
  cases h7 : sliceTo c.kem.msg skA.params.msgLen with
  | none => rfl
  | some msg =>
  rw [lift_some]
  simp only [Option.bind_some]
  cases xorInto (o ++ List.drop skA.params.msgLen ct) msg with
  | none => rfl
  | some ct => rfl

theorem agrees_all (skA : PrivateKey) (pubs : List PublicKey) : ∀ (i : Nat) (c : MultiKEM),
    Agrees (MkemPanic.encryptAll P skA i pubs c) ((c.encryptAll P skA i pubs).map fun d => (d, ())) := by
  induction pubs with
  | nil => intro i c; rfl
  | cons p pubs ih =>
    intro i c
    rw [MkemPanic.encryptAll, MultiKEM.encryptAll]
    have := agrees_bind (k := fun x => (x.1.encryptAll P skA (i + 1) pubs).map fun d => (d, ())) (agrees_one (P := P) skA i p c) fun c' a => ih (i + 1) c'
    rw [Option.bind_eq_bind, Option.bind_map] at this
    rw [Option.bind_eq_bind, Option.map_bind]
    exact this

/-- what `ephemeral` gives, in the form of the other model -/
theorem agrees_ephemeral (m1 : List Byte) {g : PrivateKey → M β} {c : MultiKEM} {K : KEM × List Byte → Option (MultiKEM × β)}
    (h : ∀ st s, Agrees ((lift (maskLast c.kem.params.A.secretBitLen s) >>= fun t => set {c with kem := {c.kem with secretBytes := t, shake := st}} >>= fun _ =>
      g ⟨c.kem.params, variantA, t, []⟩) {c with kem := {c.kem with secretBytes := s, shake := st}}) (K ({c.kem with shake := st}, s))) :
    Agrees ((MkemPanic.ephemeral P m1 >>= g) c) (c.kem.hash P [g1, m1] c.kem.secretBytes >>= K) := by
  rw [KEM.hash]
  change Agrees (M.bind (MkemPanic.ephemeral P m1) g c) _
  rw [M.bind, MkemPanic.ephemeral]
  cases h3 : writes P (reset c.kem.shake) [g1, m1] with
  | none => rw [absorb_none _ h3]; rfl
  | some st =>
  rw [absorb_some _ h3, get_bind]
  simp only [Option.bind_eq_bind, Option.bind_some]
  cases h6 : Model.Sha3.read P st c.kem.secretBytes with
  | none => rw [squeeze_none (c := {c with kem := {c.kem with shake := st}}) _ h6]; rfl
  | some r =>
  obtain ⟨st', o, n⟩ := r
  rw [squeeze_some (c := {c with kem := {c.kem with shake := st}}) _ h6, get_bind, set_bind]
  simp only [Option.bind_some]
  have := h st' o
  cases h7 : maskLast c.kem.params.A.secretBitLen o with
  | none => simp only [h7] at this; exact this
  | some s => simp only [h7] at this; exact this

theorem agrees_finish (x secret : List Byte) (c : MultiKEM) :
    Agrees (finish P x secret c) (do
      let s ← sliceTo secret c.kem.params.kemSize
      let (k, s) ← c.kem.hash P [g3, x] s
      some ({c with kem := k}, s ++ secret.drop c.kem.params.kemSize, true)) := by
  rw [finish]
  exact agrees_get (agrees_lift fun s => agrees_hash fun k o => rfl)

theorem assoc (m : M α) (g : α → M β) (h : β → M γ) : ((m >>= g) >>= h) = (m >>= fun a => g a >>= h) := by
  funext c
  change M.bind (M.bind m g) h c = M.bind m (fun a => M.bind (g a) h) c
  simp only [M.bind]
  rcases m c with ⟨c', _ | a⟩ <;> rfl

theorem pure_bind' (a : α) (g : α → M β) : (M.pure a >>= g) = g a := rfl

theorem agrees_encapsulate (secret : List Byte) (pub : List PublicKey) (c : MultiKEM) :
    Agrees (MkemPanic.encapsulate P secret pub c) (c.encapsulate P secret pub) := by
  rw [MkemPanic.encapsulate, MultiKEM.encapsulate]
  split
  · rfl
  split
  · rfl
  simp only [MkemPanic.draw, assoc, pure_bind']
  rw [get_bind, set_bind]
  split
  · rfl
  simp only [prepare, assoc, pure_bind']
  rw [get_bind]
  refine agrees_lift fun pkA => agrees_lift fun m1 => agrees_ephemeral m1 fun st s => agrees_lift fun s => ?_
  rw [set_bind]
  generalize hk : ({c.kem with msg := (readFull c.kem.rng c.kem.msg).1, rng := (readFull c.kem.rng c.kem.msg).2.1, secretBytes := s, shake := st} : KEM) = k
  refine agrees_lift fun pkA => ?_
  rw [get_bind]
  refine agrees_lift fun ct0 => ?_
  rw [set_bind]
  have := agrees_bind (k := fun x => do
      let s ← sliceTo secret x.1.kem.params.kemSize
      let (k, s) ← x.1.kem.hash P [g3, x.1.kem.msg] s
      some ({x.1 with kem := k}, s ++ secret.drop x.1.kem.params.kemSize, true)) (g := fun _ => get >>= fun c => finish P c.kem.msg secret)
    (agrees_all (P := P) ⟨c.kem.params, variantA, s, []⟩ pub 0 ⟨k, ct0, c.cts, c.j⟩) fun c' _ => agrees_finish _ secret c'
  rw [Option.bind_eq_bind, Option.bind_map] at this
  exact this

theorem agrees_decapsulate (secret : List Byte) (prv : PrivateKey) (pub : PublicKey) (ctext : List Byte) (c : MultiKEM) :
    Agrees (MkemPanic.decapsulate P secret prv pub ctext c) (c.decapsulate P secret prv pub ctext) := by
  rw [MkemPanic.decapsulate, MultiKEM.decapsulate]
  split
  · rfl
  split
  · rfl
  split
  · rfl
  split
  · rfl
  split
  · rfl
  refine agrees_lift fun pkA => agrees_lift fun ct0 => agrees_lift fun x => ?_
  obtain ⟨pkA, ok⟩ := x
  simp only
  split
  · rfl
  rw [decapsulateRest, get_bind]
  refine agrees_lift fun j => ?_
  rw [set_bind]
  refine agrees_lift fun j1 => agrees_lift fun m1 => agrees_hash fun st o => agrees_lift fun ctext1 => agrees_lift fun m => agrees_lift fun m1 =>
    agrees_ephemeral m1 fun st s => agrees_lift fun s => ?_
  rw [set_bind]
  refine agrees_lift fun pkA => agrees_lift fun r1 => agrees_lift fun r1 => ?_
  rw [get_bind]
  refine agrees_lift fun j => ?_
  rw [set_bind]
  refine agrees_lift fun j1 => agrees_lift fun cti1 => agrees_hash fun st o => agrees_lift fun msg => agrees_lift fun cti => agrees_lift fun ctext1 =>
    agrees_lift fun cti1 => agrees_lift fun m1 => agrees_lift fun m1 => ?_
  rw [finish]
  exact agrees_get (agrees_lift fun s => agrees_hash fun st o => rfl)

/-! ### what every call keeps -/

variable {f : Fld} {I : MultiKEM → Prop}

theorem lift_ok {v : Option α} {g : α → M β} {c : MultiKEM} (hc : I c) (h : ∀ a, v = some a → I (g a c).1) : I ((lift v >>= g) c).1 := by
  cases v with
  | none => exact hc
  | some a => exact h a rfl

theorem absorb_ok (hP : Supported P) {ins : List (List Byte)} {g : Unit → M β} {c : MultiKEM} (hs : SameParams newShake256 c.kem.shake)
    (h : ∀ st m, Absorbed st m → SameParams newShake256 st → I (g () {c with kem := {c.kem with shake := st}}).1) : I ((absorb P ins >>= g) c).1 := by
  have e : reset c.kem.shake = newShake256 := by rw [reset_eq_new hs]; rfl
  obtain ⟨s1, e1, h1, p1⟩ := writes_spec hP.good ins (new_absorbed .shake256)
  rw [absorb_some _ (by rw [e]; exact e1)]
  exact h _ _ h1 p1

theorem squeeze_ok (hP : Supported P) {out m : List Byte} {g : List Byte → M β} {c : MultiKEM} (ha : Absorbed c.kem.shake m) (hs : SameParams newShake256 c.kem.shake)
    (h : ∀ st o, o.length = out.length → SameParams newShake256 st → I (g o {c with kem := {c.kem with shake := st}}).1) : I ((squeeze P out >>= g) c).1 := by
  obtain ⟨s2, e2, h2, p2⟩ := read_absorbed hP.good ha out
  rw [squeeze_some _ e2]
  refine h _ _ ?_ ⟨p2.1.trans hs.1, p2.2.1.trans hs.2.1, p2.2.2.trans hs.2.2⟩
  simp [Spec.Keccak.spongeBytes]

theorem hash_ok (hP : Supported P) {ins : List (List Byte)} {out : List Byte} {g : List Byte → M β} {c : MultiKEM} (hs : SameParams newShake256 c.kem.shake)
    (h : ∀ st o, o.length = out.length → SameParams newShake256 st → I (g o {c with kem := {c.kem with shake := st}}).1) :
    I ((absorb P ins >>= fun _ => squeeze P out >>= g) c).1 :=
  absorb_ok hP hs fun _ _ ha hs' => squeeze_ok (c := {c with kem := {c.kem with shake := _}}) hP ha hs' fun st o ho p => h st o ho p

theorem fp2_length {out o : List Byte} {x : Fp2} {n : Nat} (h : fp2ToBytes out x n = some o) : o.length = out.length := by
  rw [fp2ToBytes] at h
  split at h
  · cases h
  · rw [← Option.some.inj h]; simp [wordsToBytes]; omega

theorem derive_length {k : PrivateKey} {ss o : List Byte} {pub : PublicKey} (h : k.deriveSecret ss pub = some o) : o.length = ss.length := by
  rw [PrivateKey.deriveSecret] at h
  split at h
  · cases h
  rw [Option.bind_eq_bind, Option.bind_eq_some_iff] at h
  obtain ⟨g, _, h⟩ := h
  rw [deriveSecretPkg] at h
  split at h <;>
  · rw [Option.bind_eq_bind, Option.bind_eq_some_iff] at h
    obtain ⟨j, _, h⟩ := h
    exact fp2_length h

theorem export_length {k : PublicKey} {out o : List Byte} (h : k.exportKey out = some o) : o.length = out.length := by
  rw [PublicKey.exportKey, Option.bind_eq_bind, Option.bind_eq_some_iff] at h
  obtain ⟨g, _, h⟩ := h
  simp only at h
  split at h
  · cases h
  simp only [Option.bind_eq_bind, Option.bind_eq_some_iff] at h
  obtain ⟨a, ha, b, hb, d, hd, h⟩ := h
  have ha := fp2_length ha
  have hb := fp2_length hb
  have hd := fp2_length hd
  rw [← Option.some.inj h]
  simp only [List.length_take, List.length_drop] at ha hb hd
  simp only [List.length_append, List.length_drop]
  omega

theorem xor_length {x y o : List Byte} (h : xorInto x y = some o) : o.length = x.length := by
  rw [xorInto] at h
  split at h
  · cases h
  · rw [← Option.some.inj h]; simp; omega

/-- an object for field f with room for n recipients -/
def Inv (f : Fld) (n : Nat) (c : MultiKEM) : Prop := MkemOf f c ∧ c.cts.length = n

variable {n : Nat}

theorem Inv.shake {c : MultiKEM} (h : Inv f n c) {st : State} (hs : SameParams newShake256 st) : Inv f n {c with kem := {c.kem with shake := st}} :=
  ⟨⟨⟨h.1.kem.1, h.1.kem.2, h.1.kem.3, h.1.kem.4, hs⟩, h.1.2, h.1.3, h.1.4⟩, h.2⟩
theorem Inv.j {c : MultiKEM} (h : Inv f n c) {j : List Byte} (hj : j.length = c.j.length) : Inv f n {c with j := j} :=
  ⟨⟨h.1.1, h.1.2, h.1.3, hj.trans h.1.4⟩, h.2⟩
theorem Inv.ct0 {c : MultiKEM} (h : Inv f n c) {x : List Byte} (hx : x.length = c.ct0.length) : Inv f n {c with ct0 := x} :=
  ⟨⟨h.1.1, hx.trans h.1.2, h.1.3, h.1.4⟩, h.2⟩
theorem Inv.sec {c : MultiKEM} (h : Inv f n c) {s : List Byte} (hs : s.length = scalarLen f) : Inv f n {c with kem := {c.kem with secretBytes := s}} :=
  ⟨⟨⟨h.1.kem.1, h.1.kem.2, h.1.kem.3, hs, h.1.kem.5⟩, h.1.2, h.1.3, h.1.4⟩, h.2⟩
theorem Inv.ct {c : MultiKEM} (h : Inv f n c) {i : Nat} {x y : List Byte} (hx : c.cts[i]? = some x) (hy : y.length = x.length) : Inv f n {c with cts := c.cts.set i y} := by
  refine ⟨⟨h.1.1, h.1.2, ?_, h.1.4⟩, by rw [← h.2]; exact List.length_set⟩
  intro z hz
  rcases List.mem_or_eq_of_mem_set hz with h' | h'
  · exact h.1.3 z h'
  · rw [h', hy]; exact h.1.3 x (List.mem_of_getElem? hx)

theorem ephemeral_ok (hP : Supported P) {m1 : List Byte} {g : PrivateKey → M β} {c : MultiKEM} (hc : MkemOf f c)
    (h1 : ∀ st s, s.length = scalarLen f → SameParams newShake256 st → I {c with kem := {c.kem with secretBytes := s, shake := st}})
    (h2 : ∀ st s, s.length = scalarLen f → SameParams newShake256 st →
      I (g ⟨c.kem.params, variantA, s, []⟩ {c with kem := {c.kem with secretBytes := s, shake := st}}).1) : I ((MkemPanic.ephemeral P m1 >>= g) c).1 := by
  simp only [MkemPanic.ephemeral, assoc, pure_bind']
  refine absorb_ok hP hc.kem.shake fun st m ha hs => ?_
  rw [get_bind]
  refine squeeze_ok (c := {c with kem := {c.kem with shake := st}}) hP ha hs fun st o ho hs => ?_
  have ho : o.length = scalarLen f := ho.trans hc.kem.secretBytes
  rw [get_bind, set_bind]
  refine lift_ok (h1 st o ho hs) fun s e => ?_
  rw [set_bind]
  exact h2 st s ((Lemmas.SikePanic.maskLast_length e).trans ho) hs

theorem one_ok (hP : Supported P) (skA : PrivateKey) (i : Nat) (pkB : PublicKey) {c : MultiKEM} (hc : Inv f n c) :
    Inv f n (MkemPanic.encryptOne P skA i pkB c).1 := by
  rw [MkemPanic.encryptOne]
  split
  · exact hc
  rw [get_bind]
  refine lift_ok hc fun j hj => ?_
  rw [set_bind]
  have hc := hc.j (derive_length hj)
  refine lift_ok hc fun j1 _ => absorb_ok hP hc.1.kem.shake fun st m ha hs => ?_
  have hc := hc.shake hs
  refine lift_ok hc fun ct e => lift_ok hc fun ct1 e1 => squeeze_ok (c := {c with kem := {c.kem with shake := st}, j := j}) hP ha hs fun st o ho hs => ?_
  have hc := hc.shake hs
  rw [get_bind, set_bind]
  have l1 := Lemmas.SikePanic.sliceTo_length e1
  have l2 : skA.params.msgLen ≤ ct.length := by
    rw [sliceTo] at e1
    split at e1
    · assumption
    · cases e1
  have l3 : (o ++ ct.drop skA.params.msgLen).length = ct.length := by
    rw [List.length_append, List.length_drop, ho, l1]; omega
  refine lift_ok (hc.ct e l3) fun msg _ => lift_ok (hc.ct e l3) fun ct' e' => ?_
  exact hc.ct e ((xor_length e').trans l3)

theorem all_ok (hP : Supported P) (skA : PrivateKey) (pubs : List PublicKey) : ∀ (i : Nat) (c : MultiKEM), Inv f n c →
    Inv f n (MkemPanic.encryptAll P skA i pubs c).1 := by
  induction pubs with
  | nil => exact fun _ _ h => h
  | cons p pubs ih =>
    intro i c hc
    rw [MkemPanic.encryptAll]
    have h1 := one_ok hP skA i p hc
    change Inv f n (M.bind _ _ _).1
    rw [M.bind]
    rcases h : MkemPanic.encryptOne P skA i p c with ⟨c', _ | a⟩
    · rw [h] at h1; exact h1
    · rw [h] at h1; exact ih _ _ h1

theorem finish_ok (hP : Supported P) (x secret : List Byte) {c : MultiKEM} (hs : SameParams newShake256 c.kem.shake) (h0 : I c)
    (h : ∀ st, SameParams newShake256 st → I {c with kem := {c.kem with shake := st}}) : I (finish P x secret c).1 := by
  rw [finish, get_bind]
  exact lift_ok h0 fun _ _ => hash_ok hP hs fun st o _ p => h st p

theorem bind_ok {m : M α} {g : α → M β} {c : MultiKEM} (h1 : I (m c).1) (h2 : ∀ d a, m c = (d, some a) → I d → I (g a d).1) : I ((m >>= g) c).1 := by
  change I (M.bind m g c).1
  rw [M.bind]
  rcases h : m c with ⟨c', _ | a⟩
  · rw [h] at h1; exact h1
  · rw [h] at h1; exact h2 _ _ h h1

theorem prepare_ok (hP : Supported P) {c : MultiKEM} (hc : Inv f n c) : Inv f n (prepare P c).1 := by
  rw [prepare, get_bind]
  refine lift_ok hc fun pkA _ => lift_ok hc fun m1 _ => ephemeral_ok hP hc.1 (fun st s l p => (hc.sec l).shake p) fun st s l p => ?_
  have hc := (hc.sec l).shake p
  refine lift_ok hc fun pkA _ => ?_
  rw [get_bind]
  refine lift_ok hc fun ct0 e => ?_
  exact hc.ct0 (export_length e)

/-- `Encapsulate` with any arguments -/
theorem encaps_ok (hP : Supported P) (secret : List Byte) (pubs : List PublicKey) {c : MultiKEM} (hc : Inv f n c) :
    Inv f n (MkemPanic.encapsulate P secret pubs c).1 := by
  rw [MkemPanic.encapsulate]
  split
  · exact hc
  split
  · exact hc
  simp only [MkemPanic.draw, assoc, pure_bind']
  rw [get_bind, set_bind]
  have hc : Inv f n {c with kem := {c.kem with msg := (readFull c.kem.rng c.kem.msg).1, rng := (readFull c.kem.rng c.kem.msg).2.1}} := by
    refine ⟨⟨⟨hc.1.kem.1, hc.1.kem.2, ?_, hc.1.kem.4, hc.1.kem.5⟩, hc.1.2, hc.1.3, hc.1.4⟩, hc.2⟩
    have := hc.1.kem.msg
    simp only [readFull, goCopy, List.length_append, List.length_take, List.length_drop]
    omega
  split
  · exact hc
  refine bind_ok (prepare_ok hP hc) fun d skA _ hd => bind_ok (all_ok hP _ _ _ _ hd) fun d _ _ hd => ?_
  rw [get_bind]
  exact finish_ok hP _ _ hd.1.kem.shake hd fun st p => hd.shake p

/-- d is c apart from fields that nothing outside a call depends on -/
def Kept (f : Fld) (c d : MultiKEM) : Prop :=
  MkemOf f d ∧ d.kem.msg = c.kem.msg ∧ d.kem.rng = c.kem.rng ∧ d.ct0 = c.ct0 ∧ d.cts = c.cts

theorem Kept.shake {c d : MultiKEM} (h : Kept f c d) {st : State} (hs : SameParams newShake256 st) : Kept f c {d with kem := {d.kem with shake := st}} :=
  ⟨⟨⟨h.1.kem.1, h.1.kem.2, h.1.kem.3, h.1.kem.4, hs⟩, h.1.2, h.1.3, h.1.4⟩, h.2⟩
theorem Kept.j {c d : MultiKEM} (h : Kept f c d) {j : List Byte} (hj : j.length = d.j.length) : Kept f c {d with j := j} :=
  ⟨⟨h.1.1, h.1.2, h.1.3, hj.trans h.1.4⟩, h.2⟩
theorem Kept.sec {c d : MultiKEM} (h : Kept f c d) {s : List Byte} (hs : s.length = scalarLen f) : Kept f c {d with kem := {d.kem with secretBytes := s}} :=
  ⟨⟨⟨h.1.kem.1, h.1.kem.2, h.1.kem.3, hs, h.1.kem.5⟩, h.1.2, h.1.3, h.1.4⟩, h.2⟩

/-- `Decapsulate` with any arguments -/
theorem decaps_ok (hP : Supported P) (secret : List Byte) (prv : PrivateKey) (pub : PublicKey) (ctext : List Byte) {c : MultiKEM} (hc : MkemOf f c) :
    Kept f c (MkemPanic.decapsulate P secret prv pub ctext c).1 := by
  have hk : Kept f c c := ⟨hc, rfl, rfl, rfl, rfl⟩
  rw [MkemPanic.decapsulate]
  split
  · exact hk
  split
  · exact hk
  split
  · exact hk
  split
  · exact hk
  split
  · exact hk
  refine lift_ok hk fun pkA _ => lift_ok hk fun ct0 _ => lift_ok hk fun (pkA, ok) _ => ?_
  simp only
  split
  · exact hk
  rw [decapsulateRest, get_bind]
  refine lift_ok hk fun j hj => ?_
  rw [set_bind]
  have hk := hk.j (derive_length hj)
  refine lift_ok hk fun j1 _ => lift_ok hk fun m1 _ => hash_ok hP hk.1.kem.shake fun st o _ hs => ?_
  have hk := hk.shake hs
  refine lift_ok hk fun ct1 _ => lift_ok hk fun m _ => lift_ok hk fun m1 _ => ephemeral_ok hP hk.1 (fun st s l p => (hk.sec l).shake p) fun st s l p => ?_
  have hk := (hk.sec l).shake p
  refine lift_ok hk fun pkA _ => lift_ok hk fun r1 _ => lift_ok hk fun r1 _ => ?_
  rw [get_bind]
  refine lift_ok hk fun j hj => ?_
  rw [set_bind]
  have hk := hk.j (derive_length hj)
  refine lift_ok hk fun j1 _ => lift_ok hk fun m1 _ => hash_ok hP hk.1.kem.shake fun st o _ hs => ?_
  have hk := hk.shake hs
  refine lift_ok hk fun _ _ => lift_ok hk fun _ _ => lift_ok hk fun _ _ => lift_ok hk fun _ _ => lift_ok hk fun _ _ => lift_ok hk fun _ _ => ?_
  exact finish_ok hP _ _ hk.1.kem.shake hk fun st p => hk.shake p

/-! ### a call abandoned in the middle -/

theorem bind_val {m : M α} {g : α → M β} {c d : MultiKEM} {a : α} (h : m c = (d, some a)) : (m >>= g) c = g a d := by
  change M.bind m g c = _
  rw [M.bind, h]
theorem bind_none {m : M α} {g : α → M β} {c d : MultiKEM} (h : m c = (d, none)) : (m >>= g) c = (d, none) := by
  change M.bind m g c = _
  rw [M.bind, h]

theorem hash_parts (hP : Supported P) {s : State} (hs : SameParams newShake256 s) (ins : List (List Byte)) (out : List Byte) :
    ∃ st st', writes P (reset s) ins = some st ∧ Model.Sha3.read P st out = some (st', H ins.flatten out.length, out.length) ∧ SameParams newShake256 st' := by
  have e : reset s = newShake256 := by rw [reset_eq_new hs]; rfl
  obtain ⟨s1, e1, h1, p1⟩ := writes_spec hP.good ins (new_absorbed .shake256)
  obtain ⟨s2, e2, h2, p2⟩ := read_absorbed hP.good h1 out
  refine ⟨s1, s2, by rw [e]; exact e1, ?_, p2.1.trans p1.1, p2.2.1.trans p1.2.1, p2.2.2.trans p1.2.2⟩
  rw [e2, p1.1, p1.2.2]; rfl

theorem lift_val {v : Option α} {a : α} (h : v = some a) (g : α → M β) : (lift v >>= g) = g a := by rw [h, lift_some]

/-- the ephemeral key and the common part -/
theorem prepare_spec (hP : Supported P) {c : MultiKEM} (hc : MkemOf f c) : ∃ d, prepare P c = (d, some (Props.Sike.ephemeral f (Mkem.coins (sike f) c.kem.msg))) ∧
    MkemOf f d ∧ d.kem.msg = c.kem.msg ∧ d.kem.rng = c.kem.rng ∧ d.cts = c.cts ∧ d.ct0.take (6 * fieldBytes f) = Mkem.ct0 (sike f) c.kem.msg := by
  obtain ⟨k1, k2, k3, k4, k5, k6, k7, k8, k9, k10, k11⟩ := kemParams f
  obtain ⟨⟨al, rng, m, sb, pr, sh⟩, ct0, cts, j⟩ := c
  obtain ⟨⟨h1, h2, lm, hsb, hsh⟩, h0, hcts, hj⟩ := hc
  simp only at h1 h2 lm hsb hsh h0 hcts hj
  subst h1 h2
  rw [prepare, get_bind]
  simp only
  rw [k6, lift_val (newPublicKey_eq f variantA), lift_val (show sliceTo m (paramsOf f).msgLen = some m by
    rw [sliceTo, if_pos (by rw [k1, lm]), List.take_of_length_le (by rw [k1, lm])])]
  obtain ⟨s1, s2, e1, e2, p2⟩ := hash_parts hP hsh [g1, m] sb
  simp only [MkemPanic.ephemeral, assoc, pure_bind']
  rw [absorb_some (c := ⟨⟨true, rng, m, sb, paramsOf f, sh⟩, ct0, cts, j⟩) _ e1, get_bind,
    squeeze_some (c := ⟨⟨true, rng, m, sb, paramsOf f, s1⟩, ct0, cts, j⟩) _ e2, get_bind, set_bind]
  simp only
  have hco : leBytes (scalarLen f) (bval (H [g1, m].flatten (scalarLen f)) % 2 ^ scalarBits f) = Mkem.coins (sike f) m := by
    simp only [List.flatten_cons, List.flatten_nil, List.append_nil]; rfl
  rw [lift_val (maskLast_spec _ _ (by rw [H_length, hsb, k5]; exact k10) (by rw [H_length, hsb, k5]; exact k11)), set_bind]
  simp only [H_length, hsb, k5, hco]
  have lr := mcoins_length f m
  rw [Mkem.ct0]
  obtain ⟨r, hr'⟩ : ∃ r, Mkem.coins (sike f) m = r := ⟨_, rfl⟩
  rw [hr'] at lr ⊢
  obtain ⟨pkA, e3, e4⟩ := gen_spec (privA f r lr) ⟨paramsOf f, variantA, ⟨zeroFp2 f.words, zeroFp2 f.words, zeroFp2 f.words⟩⟩ rfl rfl
  have e3 : (PrivateKey.mk (paramsOf f) variantA r []).generatePublicKey ⟨paramsOf f, variantA, ⟨zeroFp2 f.words, zeroFp2 f.words, zeroFp2 f.words⟩⟩ = some pkA := e3
  rw [lift_val e3, get_bind]
  simp only
  rw [lift_val (export_long e4 _ (by rw [h0]; exact pk_fits f)), set_bind]
  refine ⟨_, rfl, ⟨⟨rfl, rfl, lm, lr, p2⟩, ?_, hcts, hj⟩, rfl, rfl, rfl, ?_⟩
  · have := pk_fits f
    simp only [List.length_append, enc3_length, List.length_drop]; omega
  · rw [List.take_left' (enc3_length _)]
    exact (gen_eq f r lr).symm

theorem one_cts {skA : PrivateKey} {i : Nat} {pkB : PublicKey} {c d : MultiKEM} (h : c.encryptOne P skA i pkB = some d) : ∃ x, d.cts = c.cts.set i x := by
  rw [MultiKEM.encryptOne] at h
  split at h
  · cases h
  simp only [Option.bind_eq_bind, Option.bind_eq_some_iff] at h
  obtain ⟨_, _, _, _, _, _, _, _, _, _, _, _, x, _, h⟩ := h
  exact ⟨x, by rw [← Option.some.inj h]⟩

theorem all_cts {skA : PrivateKey} (pubs : List PublicKey) : ∀ {i : Nat} {c d : MultiKEM}, c.encryptAll P skA i pubs = some d →
    ∀ k, i + pubs.length ≤ k → d.cts[k]? = c.cts[k]? := by
  induction pubs with
  | nil => intro i c d h k _; rw [← Option.some.inj h]
  | cons p pubs ih =>
    intro i c d h k hk
    rw [MultiKEM.encryptAll, Option.bind_eq_bind, Option.bind_eq_some_iff] at h
    obtain ⟨c1, h1, h2⟩ := h
    obtain ⟨x, hx⟩ := one_cts h1
    rw [List.length_cons] at hk
    rw [ih h2 k (by omega), hx, List.getElem?_set_ne (by omega)]

theorem all_append (skA : PrivateKey) (xs ys : List PublicKey) : ∀ i, MkemPanic.encryptAll P skA i (xs ++ ys) =
    (MkemPanic.encryptAll P skA i xs >>= fun _ => MkemPanic.encryptAll P skA (i + xs.length) ys) := by
  induction xs with
  | nil => intro i; rfl
  | cons x xs ih =>
    intro i
    rw [List.cons_append, MkemPanic.encryptAll, MkemPanic.encryptAll, assoc]
    simp only [ih, List.length_cons]
    rw [show i + 1 + xs.length = i + (xs.length + 1) by omega]

/-- a recipient that can't be served -/
theorem one_bad (hP : Supported P) {skA : PrivateKey} {i : Nat} {pkB : PublicKey} {c : MultiKEM} (hc : MkemOf f c)
    (h : pkB.variant ≠ variantSike ∨ pkB.params.id ≠ skA.params.id ∨ c.cts.length ≤ i) :
    Kept f c (MkemPanic.encryptOne P skA i pkB c).1 ∧ (MkemPanic.encryptOne P skA i pkB c).2 = none := by
  have hk : Kept f c c := ⟨hc, rfl, rfl, rfl, rfl⟩
  rcases h with h | h | h
  · rw [MkemPanic.encryptOne, if_pos (Ne.symm h)]
    exact ⟨hk, rfl⟩
  · rw [MkemPanic.encryptOne]
    split
    · exact ⟨hk, rfl⟩
    rw [get_bind, PrivateKey.deriveSecret, if_pos (.inr h)]
    exact ⟨hk, rfl⟩
  · have h := List.getElem?_eq_none h
    constructor
    · rw [MkemPanic.encryptOne]
      split
      · exact hk
      rw [get_bind]
      refine lift_ok hk fun j hj => ?_
      rw [set_bind]
      have hk := hk.j (derive_length hj)
      refine lift_ok hk fun j1 _ => absorb_ok hP hk.1.kem.shake fun st m ha hs => lift_ok (hk.shake hs) fun ct e => ?_
      rw [h] at e
      cases e
    · have ha := agrees_one (P := P) skA i pkB c
      have : c.encryptOne P skA i pkB = none := by
        rw [MultiKEM.encryptOne, h]
        split
        · rfl
        cases skA.deriveSecret c.j pkB with
        | none => rfl
        | some j => simp only [Option.bind_eq_bind, Option.bind_some, Option.bind_none]; cases sliceTo j skA.params.sharedSecretSize <;> rfl
      rw [this] at ha
      unfold Agrees at ha
      simpa using ha

end Lemmas.MkemPanic
