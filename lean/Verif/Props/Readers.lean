import Verif.Spec.Source
import Verif.Lemmas.ReaderSidh
import Verif.Lemmas.ReaderCsidh
import Verif.Props.Sike
import Verif.Props.CsidhAgree
import Verif.Props.DRBG
import Verif.Lemmas.Sha3More
/-!
C125: the functions that take random bytes, on any `io.Reader`.  The functions of `Model.Reader` take the reader itself;
those of `Model.Sidh`, `Model.Sike`, `Model.Mkem` and `Model.Csidh`, which the other properties speak of, take the bytes
it delivers as a list.
-/
namespace Props.Readers
open Model Model.Sha3 Model.Sike Model.Mkem Model.Reader Spec.Source Lemmas.Reader Lemmas.ReaderSidh Lemmas.ReaderCsidh

variable {σ : Type} {R : Reader σ} {left : σ → List Byte} {idle : σ → Nat} {P : Plat}

/-! ### readers that deliver their bytes in pieces -/

/-- C125. `PrivateKey.Generate` on a reader that has the bytes `left s` to give, in whatever pieces: the key, the error
and the bytes it leaves unread are those of the list of bytes. -/
theorem c125_pieces_sidh (hs : Serves R left idle) (s : σ) (k : Sidh.PrivateKey) :
    (generate R s k).map (fun (k', ok, s') => (k', left s', ok)) = k.generate (left s) :=
  generate_serves hs s k

/-- C125. `KEM.Encapsulate`. -/
theorem c125_pieces_sike (hs : Serves R left idle) (s : σ) (c : KEM) (ct ss : List Byte) (pub : Sidh.PublicKey) :
    (encapsulate R P s c ct ss pub).map (fun (c', ct', ss', ok, s') => ({c' with rng := left s'}, ct', ss', ok)) =
      ({c with rng := left s} : KEM).encapsulate P ct ss pub :=
  encapsulate_serves hs s c ct ss pub

/-- C125. `MultiKEM.Encapsulate`. -/
theorem c125_pieces_mkem (hs : Serves R left idle) (s : σ) (c : MultiKEM) (ss : List Byte) (pubs : List Sidh.PublicKey) :
    (multiEncapsulate R P s c ss pubs).map (fun (c', ss', ok, s') => ({c' with kem := {c'.kem with rng := left s'}}, ss', ok)) =
      ({c with kem := {c.kem with rng := left s}} : MultiKEM).encapsulate P ss pubs :=
  multi_serves hs s c ss pubs

/-- C125. `GeneratePrivateKey`, `GeneratePublicKey`, `Validate` and `DeriveSecret` of dh/csidh; the buffers inside the
keys hold anything.  (`none`: the call panics for want of bytes; both sides do.) -/
theorem c125_pieces_csidh (hs : Serves R left idle) (s : σ) (w w' : List Byte) (hw : w.length = 64) (hw' : w'.length = 64) :
    (generatePrivateKey R s w).map (fun (k, ok, _, s') => (k, left s', ok)) = some (Csidh.generatePrivateKey (left s)) ∧
    (∀ prv, (generatePublicKey R prv s w).map (fun (k, _, s') => (k, left s')) = Csidh.generatePublicKey prv (left s)) ∧
    (∀ pub, (validate R pub s w).map (fun (b, _, s') => (b, left s')) = Csidh.validate pub (left s)) ∧
    (∀ out pub prv, (deriveSecret R out pub prv s w w').map (fun (o, ok, s') => (o, ok, left s')) = Csidh.deriveSecret out pub prv (left s)) := by
  refine ⟨?_, fun prv => genPub_serves hs prv s w hw, fun pub => validate_serves hs pub s w hw,
    fun out pub prv => derive_serves hs out pub prv s w w' hw hw'⟩
  obtain ⟨k, ok, b, s', h1, h2⟩ := genLoop_serves hs _ 0 (List.replicate 37 0) s w rfl hw
  rw [generatePrivateKey, h1, Csidh.generatePrivateKey, h2]
  rfl

/-! ### any reader -/

/-- C125. `PrivateKey.Generate` on any reader.  If the call returns without an error the reader has delivered exactly the
bytes the key takes, and the key is that of those bytes; with an error it has delivered fewer. -/
theorem c125_any_sidh (hl : Lawful R) (s s' : σ) (k k' : Sidh.PrivateKey) (ok : Bool) (h : generate R s k = some (k', ok, s')) :
    ∃ d, Delivers R s d s' ∧
      (ok = true → d.length = (if k.variant = Sidh.variantSike then k.S.length else 0) + k.scalar.length ∧ k.generate d = some (k', [], true)) ∧
      (ok = false → d.length < (if k.variant = Sidh.variantSike then k.S.length else 0) + k.scalar.length) := by
  obtain ⟨d, h1, -, -, -, -, h2, h3⟩ := generate_any hl s k k' ok s' h
  exact ⟨d, h1, fun g => ⟨(h2 g).1, by simpa using (h2 g).2 []⟩, fun g => (h3 g).1⟩

/-- C125. `KEM.Encapsulate` on any reader: no error, and the bytes delivered are the message; or an error, and the two
slices are as they were. -/
theorem c125_any_sike (hl : Lawful R) (s s' : σ) (c c' : KEM) (ct ss ct' ss' : List Byte) (pub : Sidh.PublicKey) (ok : Bool)
    (h : encapsulate R P s c ct ss pub = some (c', ct', ss', ok, s')) :
    ∃ d, Delivers R s d s' ∧
      (ok = true → d.length = c.msg.length ∧ ({c with rng := d} : KEM).encapsulate P ct ss pub = some ({c' with rng := []}, ct', ss', true)) ∧
      (ok = false → d.length < c.msg.length ∧ ct' = ct ∧ ss' = ss) := by
  obtain ⟨d, h1, h2, h3⟩ := encapsulate_any hl s s' c c' ct ss ct' ss' pub ok h
  exact ⟨d, h1, fun g => ⟨(h2 g).1, by simpa [src] using (h2 g).2 []⟩, h3⟩

/-- C125. `MultiKEM.Encapsulate` on any reader. -/
theorem c125_any_mkem (hl : Lawful R) (s s' : σ) (c c' : MultiKEM) (ss ss' : List Byte) (pubs : List Sidh.PublicKey) (ok : Bool)
    (h : multiEncapsulate R P s c ss pubs = some (c', ss', ok, s')) :
    ∃ d, Delivers R s d s' ∧
      (ok = true → d.length = c.kem.msg.length ∧
        ({c with kem := {c.kem with rng := d}} : MultiKEM).encapsulate P ss pubs = some ({c' with kem := {c'.kem with rng := []}}, ss', true)) ∧
      (ok = false → d.length < c.kem.msg.length ∧ ss' = ss ∧ c'.ct0 = c.ct0 ∧ c'.cts = c.cts) := by
  obtain ⟨d, h1, h2, h3⟩ := multi_any hl s s' c c' ss ss' pubs ok h
  exact ⟨d, h1, fun g => ⟨(h2 g).1, by simpa [msrc] using (h2 g).2 []⟩, h3⟩

/-- C125. The functions of dh/csidh on any reader: a call that returns gives the result of the bytes delivered, and uses
all of them. -/
theorem c125_any_csidh (hl : Lawful R) (s : σ) (w w' : List Byte) (hw : w.length = 64) (hw' : w'.length = 64) :
    (∀ k ok b s', generatePrivateKey R s w = some (k, ok, b, s') → ∃ d, Delivers R s d s' ∧ Csidh.generatePrivateKey d = (k, [], ok)) ∧
    (∀ prv k b s', generatePublicKey R prv s w = some (k, b, s') → ∃ d, Delivers R s d s' ∧ Csidh.generatePublicKey prv d = some (k, [])) ∧
    (∀ pub v b s', validate R pub s w = some (v, b, s') → ∃ d, Delivers R s d s' ∧ Csidh.validate pub d = some (v, [])) ∧
    (∀ out pub prv o ok s', deriveSecret R out pub prv s w w' = some (o, ok, s') →
      ∃ d, Delivers R s d s' ∧ Csidh.deriveSecret out pub prv d = some (o, ok, [])) := by
  refine ⟨fun k ok b s' h => ?_, fun prv k b s' h => ?_, fun pub v b s' h => ?_, fun out pub prv o ok s' h => ?_⟩
  · obtain ⟨d, h1, h2, h3⟩ := genLoop_any hl 0 _ s w _ h hw
    refine ⟨d, h1, ?_⟩
    rw [Csidh.generatePrivateKey]
    cases ok with
    | false => exact h3 rfl
    | true => simpa using h2 rfl []
  · obtain ⟨d, h1, h2⟩ := genPub_any hl prv s w _ h hw
    exact ⟨d, h1, by simpa using h2 []⟩
  · obtain ⟨d, h1, h2⟩ := validate_any hl pub s w _ h hw
    exact ⟨d, h1, by simpa using h2 []⟩
  · obtain ⟨d, h1, h2⟩ := derive_any hl out pub prv s w w' _ h hw hw'
    exact ⟨d, h1, by simpa using h2 []⟩

/-- `Generate` with enough bytes does not use what the slices hold. -/
theorem generate_full (k k1 : Sidh.PrivateKey) (d : List Byte) (hp : k1.params = k.params) (hv : k1.variant = k.variant)
    (hS : k1.S.length = k.S.length) (hsc : k1.scalar.length = k.scalar.length) (h : k.variant = Sidh.variantSike ∨ k.S = [])
    (hd : d.length = (if k.variant = Sidh.variantSike then k.S.length else 0) + k.scalar.length) : k.generate d = k1.generate d := by
  obtain ⟨p, v, sc, S⟩ := k
  obtain ⟨p1, v1, sc1, S1⟩ := k1
  simp only at hp hv hS hsc h hd
  subst hp hv
  by_cases c : v1 = Sidh.variantSike
  · rw [if_pos c] at hd
    obtain ⟨d1, d2, rfl, l1⟩ : ∃ d1 d2, d = d1 ++ d2 ∧ d1.length = S.length := ⟨d.take S.length, d.drop S.length, by simp, by simp; omega⟩
    have l2 : d2.length = sc.length := by simp at hd; omega
    have e2 : ∀ b : List Byte, d2.length = b.length → Sidh.readFull d2 b = (d2, [], true) := fun b hb => by
      simpa using sidh_readFull_app b d2 [] hb
    simp only [Sidh.PrivateKey.generate, if_pos c, sidh_readFull_app S d1 d2 l1, sidh_readFull_app S1 d1 d2 (l1.trans hS.symm),
      e2 sc l2, e2 sc1 (l2.trans hsc.symm)]
    rfl
  · have hS0 : S = [] := by rcases h with h | h; exact absurd h c; exact h
    subst hS0
    have hS1 : S1 = [] := List.length_eq_zero_iff.mp hS
    subst hS1
    rw [if_neg c] at hd
    have e2 : ∀ b : List Byte, d.length = b.length → Sidh.readFull d b = (d, [], true) := fun b hb => by
      simpa using sidh_readFull_app b d [] hb
    simp only [Sidh.PrivateKey.generate, if_neg c, e2 sc (by omega), e2 sc1 (by omega)]
    rfl

/-- C125. Trying again: after `Generate` has failed, on any reader, a second call that succeeds, on any other, makes the
key that the key object as it was before the first call makes of the bytes delivered to the second. -/
theorem c125_retry {τ : Type} {R' : Reader τ} (hl : Lawful R) (hl' : Lawful R') (s s1 : σ) (t t1 : τ) (k k1 k2 : Sidh.PrivateKey) (ok : Bool)
    (hS : k.variant = Sidh.variantSike ∨ k.S = []) (h : generate R s k = some (k1, ok, s1)) (h' : generate R' t k1 = some (k2, true, t1)) :
    ∃ d, Delivers R' t d t1 ∧ k.generate d = some (k2, [], true) := by
  obtain ⟨d0, -, a1, a2, a3, a4, -, -⟩ := generate_any hl s k k1 ok s1 h
  obtain ⟨d, b0, -, -, -, -, b1, -⟩ := generate_any hl' t k1 k2 true t1 h'
  obtain ⟨b1, b2⟩ := b1 rfl
  have b2 := b2 []
  rw [List.append_nil] at b2
  refine ⟨d, b0, ?_⟩
  rw [← b2]
  rw [a2, a3, a4] at b1
  exact generate_full k k1 d a1 a2 a3 a4 hS b1

/-! ### the readers of the library -/

/-- one call of `ReadFull` on a reader that fills every slice -/
theorem fill {I : σ → Prop} (hf : Fills R I) (s : σ) (hI : I s) (buf : List Byte) :
    ∃ d s', readFull R s buf = some (d, true, s') ∧ d.length = buf.length ∧ I s' ∧ Delivers R s d s' := by
  rw [readFull, gather]
  by_cases hb : 0 < buf.length
  · obtain ⟨d, s', h1, h2, h3⟩ := hf s buf hI
    refine ⟨d, s', ?_, h2, h3, ?_⟩
    · rw [if_pos hb, List.drop_zero, h1]
      simp only [Option.bind_eq_bind, Option.bind_some, Bool.false_eq_true, if_false, List.take_zero, List.nil_append]
      rw [gather, if_neg (by omega)]
      simp
    · have := Delivers.more h1 (.nothing s')
      rwa [List.take_of_length_le (by omega), List.append_nil] at this
  · have : buf = [] := List.length_eq_zero_iff.mp (by omega)
    subst this
    exact ⟨[], s, rfl, rfl, hI, .nothing s⟩

/-- C125. A reader that fills every slice: `Generate` succeeds. -/
theorem c125_fills_sidh {I : σ → Prop} (hf : Fills R I) (s : σ) (hI : I s) (k : Sidh.PrivateKey) (hk : k.scalar ≠ []) :
    ∃ k' s' d, generate R s k = some (k', true, s') ∧ I s' ∧ Delivers R s d s' ∧ k.generate d = some (k', [], true) := by
  have hk : k.scalar.length ≠ 0 := fun h => hk (List.length_eq_zero_iff.mp h)
  by_cases c : k.variant = Sidh.variantSike
  · obtain ⟨d1, s1, a1, a2, a3, a4⟩ := fill hf s hI k.S
    obtain ⟨d2, s2, b1, b2, b3, b4⟩ := fill hf s1 a3 k.scalar
    have e2 : Sidh.readFull d2 k.scalar = (d2, [], true) := by simpa using sidh_readFull_app k.scalar d2 [] b2
    refine ⟨{k with S := d1, scalar := d2.set (d2.length - 1) (Sidh.topByte (if Sidh.isA k.variant then k.params.A else k.params.B).secretBitLen (d2.getD (d2.length - 1) 0))},
      s2, d1 ++ d2, ?_, b3, Lemmas.Reader.Delivers.trans a4 b4, ?_⟩
    · simp only [generate, if_pos c, a1, b1, Option.bind_eq_bind, Option.bind_some, Bool.true_eq_false, if_false, b2, if_neg hk]
    · simp only [Sidh.PrivateKey.generate, if_pos c, sidh_readFull_app k.S d1 d2 a2, e2, Bool.not_true, Bool.false_eq_true, if_false, b2, if_neg hk]
  · obtain ⟨d2, s2, b1, b2, b3, b4⟩ := fill hf s hI k.scalar
    have e2 : Sidh.readFull d2 k.scalar = (d2, [], true) := by simpa using sidh_readFull_app k.scalar d2 [] b2
    refine ⟨{k with scalar := d2.set (d2.length - 1) (Sidh.topByte (if Sidh.isA k.variant then k.params.A else k.params.B).secretBitLen (d2.getD (d2.length - 1) 0))},
      s2, d2, ?_, b3, b4, ?_⟩
    · simp only [generate, if_neg c, b1, Option.bind_eq_bind, Option.bind_some, Bool.true_eq_false, if_false, b2, if_neg hk]
    · simp only [Sidh.PrivateKey.generate, if_neg c, e2, Bool.not_true, Bool.false_eq_true, if_false, b2, if_neg hk]

theorem run_snoc (cs : List DRBG.Call) (x : DRBG.Call) : ∀ c c1 rs c2 r, DRBG.run c cs = some (c1, rs) → DRBG.call c1 x = some (c2, r) →
    DRBG.run c (cs ++ [x]) = some (c2, rs ++ [r]) := by
  induction cs with
  | nil =>
    intro c c1 rs c2 r h h'
    cases h
    simp [DRBG.run, h']
  | cons y cs ih =>
    intro c c1 rs c2 r h h'
    rw [DRBG.run] at h
    simp only [Option.bind_eq_bind] at h
    obtain ⟨⟨c', r'⟩, h1, h⟩ := Option.bind_eq_some_iff.mp h
    obtain ⟨⟨c'', rs'⟩, h2, h⟩ := Option.bind_eq_some_iff.mp h
    cases h
    rw [List.cons_append, DRBG.run, h1]
    simp only [Option.bind_eq_bind, Option.bind_some, ih _ _ _ _ _ h2 h']
    rfl

/-- C125. A generator that has been initialised fills every slice, and stays so. -/
theorem c125_drbg (hw : Bool) : Fills drbg (Props.DRBG.Reached hw) := by
  intro c p hc
  obtain ⟨c', o, h1, h2, -⟩ := Props.DRBG.c26_whole_blocks_partial hw c hc p []
  obtain ⟨e, pn, cs, rs, h⟩ := hc
  refine ⟨o, c', ?_, h2, e, pn, cs ++ [.read p []], rs ++ [.bytes o p.length], ?_⟩
  · simp only [drbg, DRBG.read, h1]; rfl
  · exact run_snoc (.init e pn :: cs) _ _ _ _ _ _ h (by rw [DRBG.call, h1]; rfl)

theorem spongeBytes_length (r : Nat) (sfx : Byte) (m : List Byte) (k n : Nat) :
    (Spec.Keccak.spongeBytes Spec.Keccak.keccakF r sfx m k n).length = n := by
  simp [Spec.Keccak.spongeBytes]

/-- C125. A SHAKE object (any hash object of hash/sha3), with any history, fills every slice, and goes on to. -/
theorem c125_shake (hP : Supported P) (i : Spec.Sha3.Inst) : Fills (shake P) (fun c => ∃ h xs, callsModel P (new i) h = some (c, xs)) := by
  rintro c p ⟨h, xs, hc⟩
  obtain ⟨c0, h1, h2, h3⟩ := Lemmas.Sha3.history hP i h
  rw [hc] at h1
  cases h1
  obtain ⟨c', g1, -, -⟩ := Lemmas.Sha3.read_sim hP.good h2 p
  have hlen := spongeBytes_length c.rate c.sfx
    (Spec.Sponge.calls i.rate i.suffix i.digestLen (Spec.Sponge.Obj.absorbing []) h).1.pos.1
    (Spec.Sponge.calls i.rate i.suffix i.digestLen (Spec.Sponge.Obj.absorbing []) h).1.pos.2 p.length
  generalize Spec.Keccak.spongeBytes Spec.Keccak.keccakF c.rate c.sfx
    (Spec.Sponge.calls i.rate i.suffix i.digestLen (Spec.Sponge.Obj.absorbing []) h).1.pos.1
    (Spec.Sponge.calls i.rate i.suffix i.digestLen (Spec.Sponge.Obj.absorbing []) h).1.pos.2 p.length = o at g1 hlen
  refine ⟨o, c', ?_, hlen, h ++ [.read p], (Spec.Sponge.calls i.rate i.suffix i.digestLen (Spec.Sponge.Obj.absorbing []) h).2 ++ [.read o p.length], ?_⟩
  · simp only [shake, g1]; rfl
  · rw [Lemmas.Sha3.callsModel_append, hc]
    simp only [Option.bind_some, callsModel, callModel, g1, Option.map_some, Option.bind_eq_bind]

theorem spongeBytes_add (r : Nat) (sfx : Byte) (m : List Byte) (k n l : Nat) :
    Spec.Keccak.spongeBytes Spec.Keccak.keccakF r sfx m k n ++ Spec.Keccak.spongeBytes Spec.Keccak.keccakF r sfx m (k + n) l =
      Spec.Keccak.spongeBytes Spec.Keccak.keccakF r sfx m k (n + l) := by
  simp only [Spec.Keccak.spongeBytes, List.range_add, List.map_append, List.map_map]
  congr 1
  apply List.map_congr_left
  intro i _
  simp only [Function.comp, Nat.add_assoc]

theorem shake_delivers (hP : Supported P) {c c' : State} {d : List Byte} (h : Delivers (shake P) c d c') : ∀ o, Lemmas.Sha3.Sim c o →
    d = Spec.Keccak.spongeBytes Spec.Keccak.keccakF c.rate c.sfx o.pos.1 o.pos.2 d.length := by
  induction h with
  | nothing => intro o _; rfl
  | @more s s' s'' p p' d n e hr _ ih =>
    intro o ho
    obtain ⟨c1, g1, g2, g3⟩ := Lemmas.Sha3.read_sim hP.good ho p
    simp only [shake, g1, Option.bind_eq_bind, Option.bind_some, Option.some.injEq, Prod.mk.injEq] at hr
    obtain ⟨rfl, rfl, rfl, rfl⟩ := hr
    have := ih (.squeezing o.pos.1 (o.pos.2 + p.length)) g2
    rw [g3.1, g3.2.2] at this
    rw [List.take_of_length_le (by rw [spongeBytes_length]), List.length_append, spongeBytes_length, ← spongeBytes_add]
    congr 1

/-- C125. What a hash object into which `ws` has been written delivers as a reader, read in whatever pieces, is its output
of FIPS 202: so a key made from a SHAKE object is the key of those bytes. -/
theorem c125_shake_bytes (hP : Supported P) (i : Spec.Sha3.Inst) (ws : List (List Byte)) (c c' : State) (xs : List Spec.Sponge.Result) (d : List Byte)
    (hc : callsModel P (new i) (ws.map .write) = some (c, xs)) (h : Delivers (shake P) c d c') : d = i.out ws.flatten 0 d.length := by
  obtain ⟨c0, h1, h2, h3⟩ := Lemmas.Sha3.history hP i (ws.map .write)
  rw [hc] at h1
  cases h1
  rw [Lemmas.Sha3.calls_writes] at h2
  have := shake_delivers hP h _ h2
  rw [h3.1, h3.2.2, (Lemmas.Sha3.new_params i).1, (Lemmas.Sha3.new_params i).2.1] at this
  exact this

/-- C125. What a generator delivers as a reader is what the same calls of its `Read` return, one after another. -/
theorem c125_drbg_bytes (hw : Bool) (c c' : DRBG.CtrDrbg) (d : List Byte) (hc : Props.DRBG.Reached hw c) (h : Delivers drbg c d c') :
    ∃ bufs outs : List (List Byte), DRBG.run c (bufs.map fun b => .read b []) = some (c', outs.map fun o => .bytes o o.length) ∧
      outs.map List.length = bufs.map List.length ∧ d = outs.flatten := by
  induction h with
  | nothing => exact ⟨[], [], rfl, rfl, rfl⟩
  | @more s s' s'' p p' d n e hr _ ih =>
    obtain ⟨o, s1, g1, g2, g3⟩ := c125_drbg hw s p hc
    rw [g1] at hr
    simp only [Option.some.injEq, Prod.mk.injEq] at hr
    obtain ⟨rfl, rfl, rfl, rfl⟩ := hr
    obtain ⟨bufs, outs, h1, h2, h3⟩ := ih g3
    have g1 : DRBG.readAD s p [] = some (s1, o, p.length) := by
      simp only [drbg, DRBG.read, Option.bind_eq_bind, Option.bind_eq_some_iff] at g1
      obtain ⟨⟨x, y, z⟩, e1, e2⟩ := g1
      cases e2
      exact e1
    refine ⟨p :: bufs, o :: outs, ?_, by simp [g2, h2], ?_⟩
    · rw [List.map_cons, DRBG.run, DRBG.call, g1]
      simp only [Option.map_some, Option.bind_eq_bind, Option.bind_some, h1, List.map_cons, g2]
    · rw [List.take_of_length_le (by omega), List.flatten_cons, h3]

/-! ### what the other properties then say -/

/-- C125. The two sides of CSIDH agree, whatever readers they draw from: C75 for any readers. -/
theorem c125_csidh_agree {σ₁ σ₂ σ₃ σ₄ : Type} {R₁ : Reader σ₁} {R₂ : Reader σ₂} {R₃ : Reader σ₃} {R₄ : Reader σ₄}
    (h₁ : Lawful R₁) (h₂ : Lawful R₂) (h₃ : Lawful R₃) (h₄ : Lawful R₄) (s₁ t₁ : σ₁) (s₂ t₂ : σ₂) (s₃ t₃ : σ₃) (s₄ t₄ : σ₄)
    (skA skB : Csidh.PrivateKey) (pkA pkB : Csidh.PublicKey) (wA wB wA' wB' vA vB outA outB ssA ssB : List Byte) (okA okB : Bool)
    (lA : wA.length = 64) (lB : wB.length = 64) (lA' : wA'.length = 64) (lB' : wB'.length = 64) (mA : vA.length = 64) (mB : vB.length = 64)
    (hA : (generatePublicKey R₁ skA s₁ wA).map (fun (k, _, t) => (k, t)) = some (pkA, t₁))
    (hB : (generatePublicKey R₂ skB s₂ wB).map (fun (k, _, t) => (k, t)) = some (pkB, t₂))
    (hoA : outA.length = 64) (hoB : outB.length = 64)
    (hdA : deriveSecret R₃ outA pkB skA s₃ vB wA' = some (ssA, okA, t₃)) (hdB : deriveSecret R₄ outB pkA skB s₄ vA wB' = some (ssB, okB, t₄)) :
    okA = true ∧ okB = true ∧ ssA = ssB := by
  obtain ⟨⟨kA, bA, uA⟩, gA, eA⟩ := Option.map_eq_some_iff.mp hA
  obtain ⟨⟨kB, bB, uB⟩, gB, eB⟩ := Option.map_eq_some_iff.mp hB
  simp only [Prod.mk.injEq] at eA eB
  obtain ⟨rfl, rfl⟩ := eA
  obtain ⟨rfl, rfl⟩ := eB
  obtain ⟨a, -, a'⟩ := (c125_any_csidh h₁ s₁ wA wA lA lA).2.1 _ _ _ _ gA
  obtain ⟨b, -, b'⟩ := (c125_any_csidh h₂ s₂ wB wB lB lB).2.1 _ _ _ _ gB
  obtain ⟨c, -, c'⟩ := (c125_any_csidh h₃ s₃ vB wA' mB lA').2.2.2 _ _ _ _ _ _ hdA
  obtain ⟨d, -, d'⟩ := (c125_any_csidh h₄ s₄ vA wB' mA lB').2.2.2 _ _ _ _ _ _ hdB
  exact Props.CsidhAgree.c75_agree _ _ _ _ _ _ _ _ _ _ _ _ _ _ _ _ _ _ a' b' hoA hoB c' d'

theorem draw_ok {s s' : σ} {c c' : KEM} {d ct ss ct' ss' : List Byte} {pub : Sidh.PublicKey} (h : readFull R s c.msg = some (d, true, s'))
    (hd : d.length = c.msg.length) (he : (src c d).encapsulate P ct ss pub = some (c', ct', ss', true)) :
    ∃ c'', encapsulate R P s c ct ss pub = some (c'', ct', ss', true, s') ∧ c' = src c'' [] := by
  have e : Sidh.readFull d c.msg = (d, [], true) := by simpa using sidh_readFull_app c.msg d [] hd
  rw [encapsulate_eq] at he
  rw [encapsulate]
  simp only [src] at he
  simp only [e] at he
  split at he
  · cases he
  next g1 =>
  rw [if_neg g1]
  split at he
  · cases he
  next g2 =>
  rw [if_neg g2]
  split at he
  · cases he
  next g3 =>
  rw [if_neg g3]
  split at he
  · cases he
  next g4 =>
  rw [if_neg g4, h]
  rw [if_neg (by simp)] at he
  have := rest_src (P := P) {c with msg := d} [] ct ss pub
  simp only [src] at this
  rw [this] at he
  simp only [Option.bind_eq_bind, Option.bind_some, Bool.true_eq_false, if_false]
  cases hr : encapsulateRest P {c with msg := d} ct ss pub with
  | none => rw [hr] at he; cases he
  | some r =>
    rw [hr] at he
    cases he
    exact ⟨r.1, rfl, rfl⟩

/-- C125. `Encapsulate` with a reader that fills every slice (the generator of the library, a SHAKE object) succeeds, and
the holder of the private key gets the same secret: C53 for those readers. -/
theorem c125_sike_agree (hP : Supported P) {I : σ → Prop} (hf : Fills R I) (f : Spec.Sidh.Fld) (prv : Sidh.PrivateKey)
    (hprv : Props.SidhKeys.PrivOf f Sidh.variantSike prv) (pub0 : Sidh.PublicKey)
    (hp0 : pub0.params = Props.SidhKeys.paramsOf f) (hv0 : pub0.variant = Sidh.variantSike) :
    ∃ pub, prv.generatePublicKey pub0 = some pub ∧
      ∀ c1 c2, Props.Sike.KemOf f c1 → Props.Sike.KemOf f c2 → ∀ s, I s →
      ∀ ciphertext secret secret2 : List Byte, ciphertext.length = Props.Sike.ctLen f → Props.Sike.msgLen f ≤ secret.length → Props.Sike.msgLen f ≤ secret2.length →
      ∃ c1' c2' ct ss ss2 s', encapsulate R P s c1 ciphertext secret pub = some (c1', ct, ss, true, s') ∧
        c2.decapsulate P secret2 prv pub ct = some (c2', ss2, true) ∧ ss2.take (Props.Sike.msgLen f) = ss.take (Props.Sike.msgLen f) ∧
        I s' ∧ Props.Sike.KemOf f c1' ∧ Props.Sike.KemOf f c2' := by
  obtain ⟨pub, X, Y, Z, h1, h2, h3⟩ := Props.Sike.c53_correct hP f prv hprv pub0 hp0 hv0
  refine ⟨pub, h1, ?_⟩
  intro c1 c2 k1 k2 s hI ciphertext secret secret2 l1 l2 l3
  obtain ⟨d, s', a1, a2, a3, -⟩ := fill hf s hI c1.msg
  obtain ⟨c1', c2', ct, ss, ss2, b1, -, b3, b4, b5, b6⟩ := h3 pub pub h2 h2 (src c1 d) c2 ⟨k1.1, k1.2, k1.3, k1.4, k1.5⟩ k2
    (by show _ ≤ d.length; rw [a2, k1.msg]) ciphertext secret secret2 l1 l2 l3
  obtain ⟨c1'', e1, e2⟩ := draw_ok a1 a2 b1
  exact ⟨c1'', c2', ct, ss, ss2, s', e1, b3, b4, a3, by rw [e2] at b5; exact ⟨b5.1, b5.2, b5.3, b5.4, b5.5⟩, b6⟩

/-! ### examples -/

/-- a reader that hands out one byte at a time and reports an error when there are none left -/
def bytewise : Reader (List Byte) := ⟨fun s p => match s, p with
  | [], p => some (0, true, p, [])
  | s, [] => some (0, false, [], s)
  | b :: s, _ :: p => some (1, false, b :: p, s)⟩

/-- a reader of numbered states that delivers nothing the first time, then two bytes if there is room, the last of them with
an error -/
def fitful : Reader (List Byte × Bool) := ⟨fun (s, awake) p =>
  if awake then
    let n := min 2 (min s.length p.length)
    some (n, decide (s.length ≤ n), s.take n ++ p.drop n, (s.drop n, false))
  else some (0, false, p, (s, true))⟩

theorem bytewise_serves : Serves bytewise id (fun _ => 0) := by
  intro s p hp
  cases p with
  | nil => simp at hp
  | cons x p =>
    cases s with
    | nil => exact ⟨0, true, [], rfl, by simp, by simp, rfl, by simp, by simp⟩
    | cons b s => exact ⟨1, false, s, rfl, by simp, by simp, rfl, by simp, by simp⟩

theorem fitful_serves : Serves fitful (·.1) (fun s => if s.2 then 0 else 1) := by
  rintro ⟨s, a⟩ p hp
  cases a with
  | false => exact ⟨0, false, (s, true), rfl, by omega, by omega, rfl, by simp, by simp⟩
  | true =>
    refine ⟨min 2 (min s.length p.length), decide (s.length ≤ min 2 (min s.length p.length)), (s.drop (min 2 (min s.length p.length)), false), rfl,
      by omega, by show _ ≤ s.length; omega, rfl, ?_, ?_⟩
    · intro h; simp only [decide_eq_true_eq] at h; exact List.drop_eq_nil_of_le h
    · intro h h'; simp only [decide_eq_false_iff_not] at h'; omega

theorem bytewise_lawful : Lawful bytewise := by
  intro s p n e p' s' h
  cases s <;> cases p <;> cases h <;> simp

theorem fitful_lawful : Lawful fitful := by
  rintro ⟨s, a⟩ p n e p' s' h
  cases a with
  | false => cases h; simp
  | true => cases h; simp

/-- 45 bytes -/
def sample : List Byte := (List.range 45).map (BitVec.ofNat 8)

/-- a private key object of SIKE-p434 -/
def sampleKey : Sidh.PrivateKey := ⟨Props.SidhKeys.paramsOf .p434, Sidh.variantSike, List.replicate 28 0, List.replicate 16 0⟩

/-- The key made of 44 of 45 bytes that are handed out one at a time; the last is left. -/
example : ∃ k', generate bytewise sample sampleKey = some (k', true, [44]) ∧ k'.S = sample.take 16 ∧ k'.scalar.take 27 = (sample.drop 16).take 27 := by
  have h := c125_pieces_sidh bytewise_serves sample sampleKey
  have e : ∃ k', sampleKey.generate sample = some (k', [44], true) ∧ k'.S = sample.take 16 ∧ k'.scalar.take 27 = (sample.drop 16).take 27 :=
    ⟨_, rfl, by decide +kernel, by decide +kernel⟩
  obtain ⟨k', e1, e2⟩ := e
  rw [id, e1] at h
  obtain ⟨⟨a, b, c⟩, h1, h2⟩ := Option.map_eq_some_iff.mp h
  simp only [Prod.mk.injEq, id] at h2
  obtain ⟨rfl, rfl, rfl⟩ := h2
  exact ⟨_, h1, e2⟩

/-- The same bytes two at a time, with pauses, are not enough for two keys: the second call reports it.  A third call on a
new reader makes the key of the bytes of that reader. -/
example : ∃ k1 s1 k2 s2 k3 s3, generate fitful (sample, false) sampleKey = some (k1, true, s1) ∧ generate fitful s1 k1 = some (k2, false, s2) ∧
    generate bytewise sample k2 = some (k3, true, s3) ∧ k3.S = sample.take 16 := by
  have h := c125_pieces_sidh fitful_serves (sample, false) sampleKey
  have e : ∃ k', sampleKey.generate sample = some (k', [44], true) ∧ ∃ k'', k'.generate [44] = some (k'', [], false) ∧
      ∃ k3, k''.generate sample = some (k3, [44], true) ∧ k3.S = sample.take 16 :=
    ⟨_, rfl, _, rfl, _, rfl, by decide +kernel⟩
  obtain ⟨k1, e1, k2, e2, k3, e3, e4⟩ := e
  simp only [e1] at h
  obtain ⟨⟨a, b, s1⟩, h1, h2⟩ := Option.map_eq_some_iff.mp h
  simp only [Prod.mk.injEq] at h2
  obtain ⟨rfl, l1, rfl⟩ := h2
  have h := c125_pieces_sidh fitful_serves s1 a
  simp only [l1, e2] at h
  obtain ⟨⟨a2, b, s2⟩, g1, g2⟩ := Option.map_eq_some_iff.mp h
  simp only [Prod.mk.injEq] at g2
  obtain ⟨rfl, -, rfl⟩ := g2
  have h := c125_pieces_sidh bytewise_serves sample a2
  rw [id, e3] at h
  obtain ⟨⟨a3, b, s3⟩, f1, f2⟩ := Option.map_eq_some_iff.mp h
  simp only [Prod.mk.injEq] at f2
  obtain ⟨rfl, -, rfl⟩ := f2
  exact ⟨_, _, _, _, _, _, h1, g1, f1, e4⟩

/-- An initialised generator and a SHAKE object in use are readers that fill every slice. -/
example : (∃ c, Props.DRBG.Reached true c) ∧ ∃ c, ∃ h xs, callsModel platUnaligned (new .shake256) h = some (c, xs) ∧ h ≠ [] := by
  refine ⟨?_, ?_⟩
  · obtain ⟨c, rs, h⟩ := Props.DRBG.c25_no_panic true [] [] []
    exact ⟨c, _, _, _, _, h⟩
  · obtain ⟨c, h, -⟩ := Lemmas.Sha3.history .unaligned .shake256 [.write [1], .read [0]]
    exact ⟨c, _, _, h, by simp⟩

end Props.Readers
