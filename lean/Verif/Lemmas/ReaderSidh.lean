import Verif.Lemmas.Reader
/-!
Key generation and encapsulation of dh/sidh and kem/mkem on any reader.
-/
namespace Lemmas.ReaderSidh
open Model Model.Sidh Model.Sha3 Model.Sike Model.Mkem Model.Reader Spec.Source Lemmas.Reader

variable {σ : Type} {R : Reader σ} {P : Plat}

/-- The bytes delivered, at the head of a list. -/
theorem sidh_readFull_app (buf d rest : List Byte) (h : d.length = buf.length) : Sidh.readFull (d ++ rest) buf = (d, rest, true) := by
  rw [Sidh.readFull, goCopy, ← h, List.take_left, List.drop_left, List.drop_eq_nil_of_le (by simp [h]), List.append_nil]
  simp

/-- Too few bytes. -/
theorem sidh_readFull_short (buf d : List Byte) (h : d.length < buf.length) : ∃ b, b.length = buf.length ∧ Sidh.readFull d buf = (b, [], false) := by
  refine ⟨goCopy buf d, ?_, ?_⟩
  · rw [goCopy, List.length_append, List.length_take, List.length_drop]; omega
  · rw [Sidh.readFull, List.drop_eq_nil_of_le (by omega)]
    simp only [Prod.mk.injEq, true_and]
    exact decide_eq_false (by omega)

theorem generate_any (hl : Lawful R) (s : σ) (k k' : Sidh.PrivateKey) (ok : Bool) (s' : σ) (h : generate R s k = some (k', ok, s')) :
    ∃ d, Delivers R s d s' ∧ k'.params = k.params ∧ k'.variant = k.variant ∧ k'.S.length = k.S.length ∧ k'.scalar.length = k.scalar.length ∧
      (ok = true → d.length = (if k.variant = variantSike then k.S.length else 0) + k.scalar.length ∧ ∀ rest, k.generate (d ++ rest) = some (k', rest, true)) ∧
      (ok = false → d.length < (if k.variant = variantSike then k.S.length else 0) + k.scalar.length ∧ ∃ k'', k.generate d = some (k'', [], false)) := by
  obtain ⟨pp, v, sc, S⟩ := k
  rw [generate] at h
  simp only [Option.bind_eq_bind] at h
  -- the second half, from any state and seed
  have second : ∀ (s1 : σ) (S1 : List Byte) (r : List Byte × Bool × σ), readFull R s1 sc = some r →
      (if r.2.1 = false then some ((⟨pp, v, r.1, S1⟩ : Sidh.PrivateKey), false, r.2.2)
        else if r.1.length = 0 then none
        else some (⟨pp, v, r.1.set (r.1.length - 1) (topByte (if isA v then pp.A else pp.B).secretBitLen (r.1.getD (r.1.length - 1) 0)), S1⟩, true, r.2.2)) = some (k', ok, s') →
      ∃ d, Delivers R s1 d s' ∧ k'.params = pp ∧ k'.variant = v ∧ k'.S = S1 ∧ k'.scalar.length = sc.length ∧
        (ok = true → d.length = sc.length ∧ sc.length ≠ 0 ∧
          k' = ⟨pp, v, d.set (d.length - 1) (topByte (if isA v then pp.A else pp.B).secretBitLen (d.getD (d.length - 1) 0)), S1⟩) ∧
        (ok = false → d.length < sc.length) := by
    intro s1 S1 r hr hx
    obtain ⟨d, a1, a2, a3, a4, a5⟩ := readFull_any hl s1 sc r hr
    cases hb : r.2.1 with
    | false =>
      rw [if_pos hb] at hx
      cases hx
      exact ⟨d, a1, rfl, rfl, rfl, a2, fun h => by simp at h, fun _ => a5 hb⟩
    | true =>
      rw [if_neg (by rw [hb]; simp)] at hx
      by_cases h0 : r.1.length = 0
      · rw [if_pos h0] at hx; simp at hx
      · rw [if_neg h0] at hx
        have hd := a4 hb
        cases hx
        refine ⟨d, a1, rfl, rfl, rfl, by rw [List.length_set, a2], fun _ => ⟨by rw [← hd, a2], by omega, by rw [hd]⟩, fun h => by simp at h⟩
  by_cases hv : v = variantSike
  · simp only [hv, if_true] at h ⊢
    subst hv
    cases hr : readFull R s S with
    | none => rw [hr] at h; simp at h
    | some r =>
      rw [hr] at h
      simp only [Option.bind_some] at h
      obtain ⟨d, a1, a2, a3, a4, a5⟩ := readFull_any hl s S r hr
      cases hb : r.2.1 with
      | false =>
        rw [if_pos hb] at h
        cases h
        refine ⟨d, a1, rfl, rfl, a2, rfl, fun h => by simp at h, fun _ => ⟨by have := a5 hb; omega, ?_⟩⟩
        obtain ⟨b, -, hb'⟩ := sidh_readFull_short S d (a5 hb)
        refine ⟨⟨pp, variantSike, sc, b⟩, ?_⟩
        rw [Sidh.PrivateKey.generate]
        simp only [if_true, hb', Bool.not_false]
      | true =>
        rw [if_neg (by rw [hb]; simp)] at h
        cases hr2 : readFull R r.2.2 sc with
        | none => rw [hr2] at h; simp at h
        | some r2 =>
          rw [hr2] at h
          simp only [Option.bind_some] at h
          obtain ⟨d2, b1, b2, b3, b4, b5, b6, b7⟩ := second r.2.2 r.1 r2 hr2 h
          have hd := a4 hb
          have hdl : d.length = S.length := by rw [← hd, a2]
          refine ⟨d ++ d2, Delivers.trans a1 b1, b2, b3, by rw [b4, a2], b5, fun ho => ?_, fun ho => ?_⟩
          · obtain ⟨c1, c2, c3⟩ := b6 ho
            refine ⟨by rw [List.length_append]; omega, fun rest => ?_⟩
            rw [Sidh.PrivateKey.generate, List.append_assoc]
            simp only [if_true, sidh_readFull_app S d (d2 ++ rest) hdl, Bool.not_true, Bool.false_eq_true, if_false,
              sidh_readFull_app sc d2 rest c1]
            rw [if_neg (by omega), c3, hd]
          · refine ⟨by rw [List.length_append]; have := b7 ho; omega, ?_⟩
            obtain ⟨b, -, hb'⟩ := sidh_readFull_short sc d2 (b7 ho)
            refine ⟨⟨pp, variantSike, b, d⟩, ?_⟩
            rw [Sidh.PrivateKey.generate]
            simp only [if_true, sidh_readFull_app S d d2 hdl, Bool.not_true, Bool.false_eq_true, if_false, hb', Bool.not_false]
  · simp only [hv, if_false, Option.bind_some, Bool.true_eq_false] at h ⊢
    cases hr2 : readFull R s sc with
    | none => rw [hr2] at h; simp at h
    | some r2 =>
      rw [hr2] at h
      simp only [Option.bind_some] at h
      obtain ⟨d2, b1, b2, b3, b4, b5, b6, b7⟩ := second s S r2 hr2 h
      refine ⟨d2, b1, b2, b3, by rw [b4], b5, fun ho => ?_, fun ho => ?_⟩
      · obtain ⟨c1, c2, c3⟩ := b6 ho
        refine ⟨by omega, fun rest => ?_⟩
        rw [Sidh.PrivateKey.generate]
        simp only [hv, if_false, Bool.not_true, Bool.false_eq_true, sidh_readFull_app sc d2 rest c1]
        rw [if_neg (by omega), c3]
      · refine ⟨by have := b7 ho; omega, ?_⟩
        obtain ⟨b, -, hb'⟩ := sidh_readFull_short sc d2 (b7 ho)
        refine ⟨⟨pp, v, b, S⟩, ?_⟩
        rw [Sidh.PrivateKey.generate]
        simp only [hv, if_false, Bool.not_true, Bool.false_eq_true, hb', Bool.not_false, if_true]

theorem generate_serves {left : σ → List Byte} {idle : σ → Nat} (hs : Serves R left idle) (s : σ) (k : Sidh.PrivateKey) :
    (generate R s k).map (fun r => (r.1, left r.2.2, r.2.1)) = k.generate (left s) := by
  have step : ∀ (s1 : σ) (buf : List Byte), ∃ b o s2, readFull R s1 buf = some (b, o, s2) ∧ Sidh.readFull (left s1) buf = (b, left s2, o) := by
    intro s1 buf
    obtain ⟨s2, h1, h2⟩ := readFull_serves hs s1 buf
    exact ⟨_, _, s2, h1, by rw [Sidh.readFull, h2]⟩
  obtain ⟨pp, v, sc, S⟩ := k
  rw [generate, Sidh.PrivateKey.generate]
  by_cases hv : v = variantSike
  · obtain ⟨b1, o1, s1, h1, h1'⟩ := step s S
    simp only [hv, if_true, h1, h1', Option.bind_eq_bind, Option.bind_some]
    obtain ⟨b2, o2, s2, h2, h2'⟩ := step s1 sc
    simp only [h2, h2', Option.bind_some]
    cases o1 with
    | false => rfl
    | true =>
      simp only [Bool.true_eq_false, if_false, Bool.not_true, Bool.false_eq_true]
      cases o2 with
      | false => rfl
      | true =>
        simp only [Bool.true_eq_false, if_false, Bool.not_true, Bool.false_eq_true]
        by_cases h0 : b2.length = 0
        · rw [if_pos h0, if_pos h0]; rfl
        · rw [if_neg h0, if_neg h0]; rfl
  · simp only [hv, if_false, Option.bind_eq_bind, Option.bind_some, Bool.true_eq_false, Bool.not_true, Bool.false_eq_true]
    obtain ⟨b2, o2, s2, h2, h2'⟩ := step s sc
    simp only [h2, h2', Option.bind_some]
    cases o2 with
    | false => rfl
    | true =>
      simp only [Bool.true_eq_false, if_false, Bool.not_true, Bool.false_eq_true]
      by_cases h0 : b2.length = 0
      · rw [if_pos h0, if_pos h0]; rfl
      · rw [if_neg h0, if_neg h0]; rfl

/-! ### encapsulation -/

/-- The same object with another random source. -/
abbrev src (c : KEM) (x : List Byte) : KEM := {c with rng := x}

theorem hash_src (c : KEM) (x : List Byte) (ins : List (List Byte)) (out : List Byte) :
    (src c x).hash P ins out = (c.hash P ins out).map fun r => (src r.1 x, r.2) := by
  rw [KEM.hash, KEM.hash]
  simp only [Option.bind_eq_bind]
  cases writes P (reset c.shake) ins with
  | none => rfl
  | some st =>
    simp only [Option.bind_some]
    cases Model.Sha3.read P st out with
    | none => rfl
    | some y => rfl

theorem genCt_src (c : KEM) (x ct : List Byte) (skA : Sidh.PrivateKey) (pkA pkB : Sidh.PublicKey) (pt : List Byte) :
    (src c x).generateCiphertext P ct skA pkA pkB pt = (c.generateCiphertext P ct skA pkA pkB pt).map fun r => (src r.1 x, r.2) := by
  rw [KEM.generateCiphertext, KEM.generateCiphertext]
  simp only [Option.bind_eq_bind]
  cases skA.deriveSecret (List.replicate maxSharedSecretBsz 0) pkB with
  | none => rfl
  | some j =>
    simp only [Option.bind_some]
    cases sliceTo j skA.params.sharedSecretSize with
    | none => rfl
    | some j =>
      simp only [Option.bind_some]
      cases sliceTo (List.replicate maxMsgBsz (0 : Byte)) skA.params.msgLen with
      | none => rfl
      | some n1 =>
        simp only [Option.bind_some, hash_src]
        cases c.hash P [j] n1 with
        | none => rfl
        | some y =>
          simp only [Option.bind_some, Option.map_some]
          cases xorInto (y.2 ++ List.drop skA.params.msgLen (List.replicate maxMsgBsz 0)) pt with
          | none => rfl
          | some n =>
            simp only [Option.bind_some]
            cases pkA.exportKey ct with
            | none => rfl
            | some ct =>
              simp only [Option.bind_some]
              cases sliceTo n skA.params.msgLen with
              | none => rfl
              | some n1 =>
                simp only [Option.bind_some]
                cases copyFrom ct pkA.size n1 with
                | none => rfl
                | some z => rfl

theorem rest_src (c : KEM) (x ct ss : List Byte) (pub : Sidh.PublicKey) :
    encapsulateRest P (src c x) ct ss pub = (encapsulateRest P c ct ss pub).map fun r => (src r.1 x, r.2) := by
  rw [encapsulateRest, encapsulateRest]
  simp only [Option.bind_eq_bind]
  cases newPublicKey (BitVec.ofNat 8 c.params.id) variantA with
  | none => rfl
  | some pkA =>
    simp only [Option.bind_some]
    cases pub.exportKey (List.replicate (3 * maxSharedSecretBsz) 0) with
    | none => rfl
    | some buf =>
      simp only [Option.bind_some]
      cases sliceTo buf (3 * c.params.sharedSecretSize) with
      | none => rfl
      | some buf =>
        simp only [Option.bind_some, hash_src]
        cases c.hash P [c.msg, buf] c.secretBytes with
        | none => rfl
        | some y =>
          simp only [Option.bind_some, Option.map_some]
          cases maskLast y.1.params.A.secretBitLen y.2 with
          | none => rfl
          | some sc =>
            simp only [Option.bind_some]
            cases (⟨y.1.params, variantA, sc, []⟩ : Sidh.PrivateKey).generatePublicKey pkA with
            | none => rfl
            | some pkA =>
              simp only [Option.bind_some]
              have := genCt_src (P := P) {y.1 with secretBytes := sc} x ct ⟨y.1.params, variantA, sc, []⟩ pkA pub y.1.msg
              simp only [src] at this ⊢
              rw [this]
              cases KEM.generateCiphertext P {y.1 with secretBytes := sc} ct ⟨y.1.params, variantA, sc, []⟩ pkA pub y.1.msg with
              | none => rfl
              | some z =>
                simp only [Option.bind_some, Option.map_some]
                cases sliceTo ss z.1.params.kemSize with
                | none => rfl
                | some s1 =>
                  simp only [Option.bind_some]
                  have := hash_src (P := P) z.1 x [z.1.msg, z.2] s1
                  simp only [src] at this
                  rw [this]
                  cases z.1.hash P [z.1.msg, z.2] s1 with
                  | none => rfl
                  | some w => rfl

theorem map_bind' {α β γ : Type} (x : Option α) (f : α → Option β) (g : β → γ) : (x.bind f).map g = x.bind fun a => (f a).map g := by
  cases x <;> rfl

/-- `Encapsulate` is: checks, draw, rest. -/
theorem encapsulate_eq (c : KEM) (ct ss : List Byte) (pub : Sidh.PublicKey) : c.encapsulate P ct ss pub =
    if c.allocated = false then none
    else if variantSike ≠ pub.variant then none
    else if ss.length < c.params.kemSize then none
    else if ct.length < c.params.ciphertextSize then none
    else if (Sidh.readFull c.rng c.msg).2.2 = false then
      some ({c with msg := (Sidh.readFull c.rng c.msg).1, rng := (Sidh.readFull c.rng c.msg).2.1}, ct, ss, false)
    else (encapsulateRest P {c with msg := (Sidh.readFull c.rng c.msg).1, rng := (Sidh.readFull c.rng c.msg).2.1} ct ss pub).map fun r => (r.1, r.2.1, r.2.2, true) := by
  rw [KEM.encapsulate]
  split
  · rfl
  split
  · rfl
  split
  · rfl
  split
  · rfl
  simp only
  split
  · rfl
  rw [encapsulateRest]
  simp only [Option.bind_eq_bind, map_bind', Option.map_some]

theorem encapsulate_serves {left : σ → List Byte} {idle : σ → Nat} (hs : Serves R left idle) (s : σ) (c : KEM) (ct ss : List Byte) (pub : Sidh.PublicKey) :
    (encapsulate R P s c ct ss pub).map (fun r => (src r.1 (left r.2.2.2.2), r.2.1, r.2.2.1, r.2.2.2.1)) = (src c (left s)).encapsulate P ct ss pub := by
  obtain ⟨s2, h1, h2⟩ := readFull_serves hs s c.msg
  rw [encapsulate, encapsulate_eq]
  simp only [src]
  by_cases c1 : c.allocated = false
  · rw [if_pos c1, if_pos c1]; rfl
  rw [if_neg c1, if_neg c1]
  by_cases c2 : variantSike ≠ pub.variant
  · rw [if_pos c2, if_pos c2]; rfl
  rw [if_neg c2, if_neg c2]
  by_cases c3 : ss.length < c.params.kemSize
  · rw [if_pos c3, if_pos c3]; rfl
  rw [if_neg c3, if_neg c3]
  by_cases c4 : ct.length < c.params.ciphertextSize
  · rw [if_pos c4, if_pos c4]; rfl
  rw [if_neg c4, if_neg c4]
  have e : Sidh.readFull (left s) c.msg = (goCopy c.msg (left s), left s2, decide (c.msg.length ≤ (left s).length)) := by rw [h2]; rfl
  rw [e, h1]
  generalize goCopy c.msg (left s) = b
  generalize decide (c.msg.length ≤ (left s).length) = o
  simp only [Option.bind_eq_bind, Option.bind_some]
  cases o with
  | false => rfl
  | true =>
    simp only [Bool.true_eq_false, if_false]
    have := rest_src (P := P) {c with msg := b} (left s2) ct ss pub
    simp only [src] at this
    rw [this]
    cases encapsulateRest P {c with msg := b} ct ss pub with
    | none => rfl
    | some x => rfl

theorem encapsulate_any (hl : Lawful R) (s s' : σ) (c c' : KEM) (ct ss ct' ss' : List Byte) (pub : Sidh.PublicKey) (ok : Bool)
    (h : encapsulate R P s c ct ss pub = some (c', ct', ss', ok, s')) :
    ∃ d, Delivers R s d s' ∧
      (ok = true → d.length = c.msg.length ∧ ∀ rest, (src c (d ++ rest)).encapsulate P ct ss pub = some (src c' rest, ct', ss', true)) ∧
      (ok = false → d.length < c.msg.length ∧ ct' = ct ∧ ss' = ss) := by
  rw [encapsulate] at h
  by_cases c1 : c.allocated = false
  · rw [if_pos c1] at h; simp at h
  rw [if_neg c1] at h
  by_cases c2 : variantSike ≠ pub.variant
  · rw [if_pos c2] at h; simp at h
  rw [if_neg c2] at h
  by_cases c3 : ss.length < c.params.kemSize
  · rw [if_pos c3] at h; simp at h
  rw [if_neg c3] at h
  by_cases c4 : ct.length < c.params.ciphertextSize
  · rw [if_pos c4] at h; simp at h
  rw [if_neg c4] at h
  cases hr : readFull R s c.msg with
  | none => rw [hr] at h; simp at h
  | some r =>
    obtain ⟨d, a1, a2, a3, a4, a5⟩ := readFull_any hl s c.msg r hr
    obtain ⟨b, o, s2⟩ := r
    rw [hr] at h
    simp only [Option.bind_eq_bind, Option.bind_some] at h a1 a2 a4 a5
    cases o with
    | false =>
      simp only [if_true] at h
      cases h
      exact ⟨d, a1, fun h => by simp at h, fun _ => ⟨a5 rfl, rfl, rfl⟩⟩
    | true =>
      simp only [Bool.true_eq_false, if_false] at h
      have hb := a4 rfl
      subst hb
      cases hx : encapsulateRest P {c with msg := b} ct ss pub with
      | none => rw [hx] at h; simp at h
      | some x =>
        rw [hx] at h
        simp only [Option.bind_some, Option.some.injEq, Prod.mk.injEq] at h
        obtain ⟨e1, e2, e3, e4, e5⟩ := h
        subst e1 e2 e3 e4 e5
        refine ⟨b, a1, fun _ => ⟨a2, fun rest => ?_⟩, fun h => by simp at h⟩
        rw [encapsulate_eq]
        simp only [src]
        rw [if_neg c1, if_neg c2, if_neg c3, if_neg c4, sidh_readFull_app c.msg b rest a2]
        simp only [Bool.true_eq_false, if_false]
        have := rest_src (P := P) {c with msg := b} rest ct ss pub
        simp only [src] at this
        rw [this, hx]
        rfl

/-! ### the multi-recipient KEM -/

/-- The same object with another random source. -/
abbrev msrc (c : MultiKEM) (x : List Byte) : MultiKEM := {c with kem := src c.kem x}

theorem encryptOne_src (c : MultiKEM) (x : List Byte) (skA : Sidh.PrivateKey) (i : Nat) (pkB : Sidh.PublicKey) :
    (msrc c x).encryptOne P skA i pkB = (c.encryptOne P skA i pkB).map fun r => msrc r x := by
  rw [MultiKEM.encryptOne, MultiKEM.encryptOne]
  split
  · rfl
  simp only [Option.bind_eq_bind]
  cases skA.deriveSecret c.j pkB with
  | none => rfl
  | some j =>
    simp only [Option.bind_some]
    cases sliceTo j skA.params.sharedSecretSize with
    | none => rfl
    | some j1 =>
      simp only [Option.bind_some]
      cases c.cts[i]? with
      | none => rfl
      | some ct =>
        simp only [Option.bind_some]
        cases sliceTo ct skA.params.msgLen with
        | none => rfl
        | some ct1 =>
          simp only [Option.bind_some, hash_src]
          cases c.kem.hash P [g2, j1] ct1 with
          | none => rfl
          | some y =>
            simp only [Option.bind_some, Option.map_some]
            cases sliceTo y.1.msg skA.params.msgLen with
            | none => rfl
            | some msg =>
              simp only [Option.bind_some]
              cases xorInto (y.2 ++ ct.drop skA.params.msgLen) msg with
              | none => rfl
              | some z => rfl

theorem encryptAll_src (skA : Sidh.PrivateKey) (x : List Byte) (pubs : List Sidh.PublicKey) : ∀ (c : MultiKEM) (i : Nat),
    (msrc c x).encryptAll P skA i pubs = (c.encryptAll P skA i pubs).map fun r => msrc r x := by
  induction pubs with
  | nil => intro c i; rfl
  | cons pk rest ih =>
    intro c i
    rw [MultiKEM.encryptAll, MultiKEM.encryptAll, encryptOne_src]
    simp only [Option.bind_eq_bind]
    cases c.encryptOne P skA i pk with
    | none => rfl
    | some y => simp only [Option.map_some, Option.bind_some]; exact ih y (i + 1)

theorem multiRest_src (c : MultiKEM) (x ss : List Byte) (pubs : List Sidh.PublicKey) :
    multiRest P (msrc c x) ss pubs = (multiRest P c ss pubs).map fun r => (msrc r.1 x, r.2) := by
  rw [multiRest, multiRest]
  simp only [Option.bind_eq_bind]
  cases newPublicKey (BitVec.ofNat 8 c.kem.params.id) variantA with
  | none => rfl
  | some pkA =>
    simp only [Option.bind_some]
    cases sliceTo c.kem.msg c.kem.params.msgLen with
    | none => rfl
    | some m1 =>
      simp only [Option.bind_some, hash_src]
      cases c.kem.hash P [g1, m1] c.kem.secretBytes with
      | none => rfl
      | some y =>
        simp only [Option.bind_some, Option.map_some]
        cases maskLast y.1.params.A.secretBitLen y.2 with
        | none => rfl
        | some sc =>
          simp only [Option.bind_some]
          cases (⟨y.1.params, variantA, sc, []⟩ : Sidh.PrivateKey).generatePublicKey pkA with
          | none => rfl
          | some pkA =>
            simp only [Option.bind_some]
            cases pkA.exportKey c.ct0 with
            | none => rfl
            | some ct0 =>
              simp only [Option.bind_some]
              have := encryptAll_src (P := P) ⟨y.1.params, variantA, sc, []⟩ x pubs ⟨{y.1 with secretBytes := sc}, ct0, c.cts, c.j⟩ 0
              simp only [msrc, src] at this ⊢
              rw [this]
              cases MultiKEM.encryptAll P ⟨{y.1 with secretBytes := sc}, ct0, c.cts, c.j⟩ ⟨y.1.params, variantA, sc, []⟩ 0 pubs with
              | none => rfl
              | some z =>
                simp only [Option.bind_some, Option.map_some]
                cases sliceTo ss z.kem.params.kemSize with
                | none => rfl
                | some s1 =>
                  simp only [Option.bind_some]
                  have := hash_src (P := P) z.kem x [g3, z.kem.msg] s1
                  simp only [src] at this
                  rw [this]
                  cases z.kem.hash P [g3, z.kem.msg] s1 with
                  | none => rfl
                  | some w => rfl

/-- `MultiKEM.Encapsulate` is: checks, draw, rest. -/
theorem multi_eq (c : MultiKEM) (ss : List Byte) (pubs : List Sidh.PublicKey) : c.encapsulate P ss pubs =
    if c.kem.allocated = false then none
    else if ss.length < c.kem.params.kemSize then none
    else if (Sidh.readFull c.kem.rng c.kem.msg).2.2 = false then
      some ({c with kem := {c.kem with msg := (Sidh.readFull c.kem.rng c.kem.msg).1, rng := (Sidh.readFull c.kem.rng c.kem.msg).2.1}}, ss, false)
    else (multiRest P {c with kem := {c.kem with msg := (Sidh.readFull c.kem.rng c.kem.msg).1, rng := (Sidh.readFull c.kem.rng c.kem.msg).2.1}} ss pubs).map
      fun r => (r.1, r.2, true) := by
  rw [MultiKEM.encapsulate]
  split
  · rfl
  split
  · rfl
  simp only
  split
  · rfl
  rw [multiRest]
  simp only [Option.bind_eq_bind, map_bind', Option.map_some]

theorem multi_serves {left : σ → List Byte} {idle : σ → Nat} (hs : Serves R left idle) (s : σ) (c : MultiKEM) (ss : List Byte) (pubs : List Sidh.PublicKey) :
    (multiEncapsulate R P s c ss pubs).map (fun r => (msrc r.1 (left r.2.2.2), r.2.1, r.2.2.1)) = (msrc c (left s)).encapsulate P ss pubs := by
  obtain ⟨s2, h1, h2⟩ := readFull_serves hs s c.kem.msg
  rw [multiEncapsulate, multi_eq]
  simp only [msrc, src]
  by_cases c1 : c.kem.allocated = false
  · rw [if_pos c1, if_pos c1]; rfl
  rw [if_neg c1, if_neg c1]
  by_cases c3 : ss.length < c.kem.params.kemSize
  · rw [if_pos c3, if_pos c3]; rfl
  rw [if_neg c3, if_neg c3]
  have e : Sidh.readFull (left s) c.kem.msg = (goCopy c.kem.msg (left s), left s2, decide (c.kem.msg.length ≤ (left s).length)) := by rw [h2]; rfl
  rw [e, h1]
  generalize goCopy c.kem.msg (left s) = b
  generalize decide (c.kem.msg.length ≤ (left s).length) = o
  simp only [Option.bind_eq_bind, Option.bind_some]
  cases o with
  | false => rfl
  | true =>
    simp only [Bool.true_eq_false, if_false]
    have := multiRest_src (P := P) {c with kem := {c.kem with msg := b}} (left s2) ss pubs
    simp only [msrc, src] at this
    rw [this]
    cases multiRest P {c with kem := {c.kem with msg := b}} ss pubs with
    | none => rfl
    | some x => rfl

theorem multi_any (hl : Lawful R) (s s' : σ) (c c' : MultiKEM) (ss ss' : List Byte) (pubs : List Sidh.PublicKey) (ok : Bool)
    (h : multiEncapsulate R P s c ss pubs = some (c', ss', ok, s')) :
    ∃ d, Delivers R s d s' ∧
      (ok = true → d.length = c.kem.msg.length ∧ ∀ rest, (msrc c (d ++ rest)).encapsulate P ss pubs = some (msrc c' rest, ss', true)) ∧
      (ok = false → d.length < c.kem.msg.length ∧ ss' = ss ∧ c'.ct0 = c.ct0 ∧ c'.cts = c.cts) := by
  rw [multiEncapsulate] at h
  by_cases c1 : c.kem.allocated = false
  · rw [if_pos c1] at h; simp at h
  rw [if_neg c1] at h
  by_cases c3 : ss.length < c.kem.params.kemSize
  · rw [if_pos c3] at h; simp at h
  rw [if_neg c3] at h
  cases hr : readFull R s c.kem.msg with
  | none => rw [hr] at h; simp at h
  | some r =>
    obtain ⟨d, a1, a2, a3, a4, a5⟩ := readFull_any hl s c.kem.msg r hr
    obtain ⟨b, o, s2⟩ := r
    rw [hr] at h
    simp only [Option.bind_eq_bind, Option.bind_some] at h a1 a2 a4 a5
    cases o with
    | false =>
      simp only [if_true] at h
      cases h
      exact ⟨d, a1, fun h => by simp at h, fun _ => ⟨a5 rfl, rfl, rfl, rfl⟩⟩
    | true =>
      simp only [Bool.true_eq_false, if_false] at h
      have hb := a4 rfl
      subst hb
      cases hx : multiRest P {c with kem := {c.kem with msg := b}} ss pubs with
      | none => rw [hx] at h; simp at h
      | some x =>
        rw [hx] at h
        simp only [Option.bind_some, Option.some.injEq, Prod.mk.injEq] at h
        obtain ⟨e1, e2, e3, e4⟩ := h
        subst e1 e2 e3 e4
        refine ⟨b, a1, fun _ => ⟨a2, fun rest => ?_⟩, fun h => by simp at h⟩
        rw [multi_eq]
        simp only [msrc, src]
        rw [if_neg c1, if_neg c3, sidh_readFull_app c.kem.msg b rest a2]
        simp only [Bool.true_eq_false, if_false]
        have := multiRest_src (P := P) {c with kem := {c.kem with msg := b}} rest ss pubs
        simp only [msrc, src] at this
        rw [this, hx]
        rfl

end Lemmas.ReaderSidh
