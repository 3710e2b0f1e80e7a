import Verif.Lemmas.CsidhShared
import Verif.Props.CsidhAgree
/-!
C128: one CSIDH public key used by several goroutines at the same time.  The model is `Verif/Model/CsidhShared.lean`.
-/
namespace Props.CsidhShared
open Model Model.Csidh Spec Spec.Csidh Lemmas.CsidhField Lemmas.CsidhKeys Lemmas.CsidhShared Props.CsidhAgree
open Model.CsidhShared (Proc Call Result start run)

/-- the random source of a call -/
def source : Call → List Byte
  | .validate rng => rng
  | .derive _ _ rng => rng

/-- What the call gives when it is alone and its random source delivers `rng`; `none` is a panic. -/
def alone (pub : PublicKey) (c : Call) (rng : List Byte) : Option Result :=
  match c with
  | .validate _ => (validate pub rng).map fun x => .validated x.1 x.2
  | .derive out prv _ => (deriveSecret out pub prv rng).map fun x => .derived x.1 x.2.1 x.2.2

/-! ### one call -/

/-- what follows `Validate` -/
def next (pub : PublicKey) (c : Call) (ok : Bool) (rest : List Byte) : Proc Result :=
  match c with
  | .validate _ => .ret (.validated ok rest)
  | .derive out prv _ =>
    if ok then
      match groupAction pub.a prv rest with
      | none => .panic
      | some (a, rng) => .ret (.derived (PublicKey.exportKey ⟨a⟩ out).1 true rng)
    else .ret (.derived out false rest)

theorem start_eq (pub : PublicKey) (c : Call) : start pub c = Model.CsidhShared.validate pub (source c) (next pub c) := by
  cases c <;> rfl

/-- the end of a call, as the result of a function -/
def toOption : Proc Result → Option Result
  | .ret r => some r
  | _ => none

theorem next_final (pub : PublicKey) (c : Call) (ok : Bool) (rest : List Byte) : Final (next pub c ok rest) := by
  cases c with
  | validate => trivial
  | derive out prv rng =>
    rw [next]
    cases ok
    · trivial
    · rw [if_pos rfl]
      cases groupAction pub.a prv rest <;> trivial

theorem alone_next (pub : PublicKey) (c : Call) {rng rest : List Byte} {ok : Bool} (h : validate pub rng = some (ok, rest)) :
    alone pub c rng = toOption (next pub c ok rest) := by
  cases c with
  | validate r => rw [alone, h]; rfl
  | derive out prv r =>
    rw [alone, deriveSecret, h, next]
    cases ok
    · rfl
    · simp only [if_true]
      cases groupAction pub.a prv rest <;> rfl

theorem alone_none (pub : PublicKey) (c : Call) {rng : List Byte} (h : validate pub rng = none) : alone pub c rng = none := by
  cases c with
  | validate r => rw [alone, h]; rfl
  | derive out prv r => rw [alone, deriveSecret, h]; rfl

theorem validate_form (pub : PublicKey) : (∀ rng, validate pub rng = some (false, rng) ∧ ∀ (α : Type) (k : Bool → List Byte → Proc α), Model.CsidhShared.validate pub rng k = k false rng) ∨
    (∀ rng, validate pub rng = loop (Model.CsidhShared.judge pub.a) rng ∧ ∀ (α : Type) (k : Bool → List Byte → Proc α),
      Model.CsidhShared.validate pub rng k = Model.CsidhShared.validateLoop (Model.CsidhShared.judge pub.a) k (rng.length / 64) rng) := by
  by_cases h1 : (!isLess pub.a p) = true
  · exact Or.inl fun rng => ⟨by rw [validate, if_pos h1], fun α k => by rw [Model.CsidhShared.validate, if_pos h1]⟩
  · by_cases h2 : (equal pub.a two || equal pub.a twoNeg) = true
    · exact Or.inl fun rng => ⟨by rw [validate, if_neg h1, if_pos h2], fun α k => by rw [Model.CsidhShared.validate, if_neg h1, if_pos h2]⟩
    · exact Or.inr fun rng => ⟨by rw [validate, if_neg h1, if_neg h2, validate_loop], fun α k => by rw [Model.CsidhShared.validate, if_neg h1, if_neg h2]⟩

theorem reach_start (pub : PublicKey) (c : Call) (bs : List Byte) (q : Proc Result) (hf : Final q) (h : Reach (start pub c) bs q) :
    ∃ rng, rng.length = (source c).length ∧ alone pub c rng = toOption q := by
  rw [start_eq] at h
  rcases validate_form pub with hv | hv
  · rw [(hv _).2] at h
    obtain ⟨rfl, -⟩ := reach_final (next_final pub c _ _) h
    exact ⟨source c, rfl, alone_next pub c (hv _).1⟩
  · rw [(hv _).2] at h
    rcases reach_loop _ _ _ _ _ _ rfl hf h with ⟨b1, b2, ok, rfl, g1, g2, g3⟩ | ⟨rfl, g1, g2⟩
    · obtain ⟨rfl, -⟩ := reach_final (next_final pub c _ _) g3
      exact ⟨b1 ++ (source c).drop b1.length, by rw [List.length_append, List.length_drop]; omega, alone_next pub c (by rw [(hv _).1, g2])⟩
    · exact ⟨bs ++ (source c).drop bs.length, by rw [List.length_append, List.length_drop]; omega, alone_none pub c (by rw [(hv _).1, g2])⟩

theorem within_start (pub : PublicKey) (c : Call) : Within (2 * (source c).length) (start pub c) := by
  rw [start_eq]
  rcases validate_form pub with hv | hv
  · rw [(hv _).2]
    exact .final (next_final _ _ _ _)
  · rw [(hv _).2]
    exact within_loop _ _ (next_final pub c) _ _ rfl

theorem solo_start (pub : PublicKey) (c : Call) (B : List Byte) (hB : B.length = 64) : toOption (solo (start pub c) B).1 = alone pub c (source c) := by
  rw [start_eq]
  rcases validate_form pub with hv | hv
  · rw [(hv _).2, solo_final (next_final _ _ _ _), alone_next pub c (hv _).1]
  · rw [(hv _).2, solo_loop _ _ (next_final pub c) _ _ _ rfl hB]
    cases hl : loop (Model.CsidhShared.judge pub.a) (source c) with
    | none => rw [alone_none pub c (by rw [(hv _).1, hl])]; rfl
    | some x => rw [alone_next pub c (rest := x.2) (ok := x.1) (by rw [(hv _).1, hl])]

theorem started (pub : PublicKey) (calls : List Call) {j : Nat} {c : Call} (hc : calls[j]? = some c) : (calls.map (start pub))[j]? = some (start pub c) := by
  rw [List.getElem?_map, hc]; rfl

/-! ### the property -/

/-- C128. Any number of goroutines call `Validate` and `DeriveSecret` with the same public key object, each with its own random
source, and make their steps in any order.  A call that returns gives what it gives when it is alone, if its random source had
delivered the same number of bytes, though maybe other ones; and it panics only if it does so alone for such bytes. -/
theorem c128_alone (pub : PublicKey) (calls : List Call) (B : List Byte) (sched : List Nat) (j : Nat) (c : Call) (hc : calls[j]? = some c) :
    (∀ r, (run (B, calls.map (start pub)) sched).2[j]? = some (.ret r) → ∃ rng, rng.length = (source c).length ∧ alone pub c rng = some r) ∧
    ((run (B, calls.map (start pub)) sched).2[j]? = some .panic → ∃ rng, rng.length = (source c).length ∧ alone pub c rng = none) := by
  have hr := fun q' => (run_reach sched (B, calls.map (start pub))).2 j (start pub c) q'
  constructor
  · intro r h
    obtain ⟨bs, hb⟩ := hr _ (started pub calls hc) h
    exact reach_start pub c bs (.ret r) trivial hb
  · intro h
    obtain ⟨bs, hb⟩ := hr _ (started pub calls hc) h
    exact reach_start pub c bs .panic trivial hb

/-- C128. So with a key that was made by `GeneratePublicKey` and `DeriveSecret`, from any private keys, each call of `DeriveSecret` that
returns reports success and gives the secret that a call alone gives, whatever the others do. -/
theorem c128_secret {l : List PrivateKey} {pub : PublicKey} (m : Made l pub) (calls : List Call) (B : List Byte) (sched : List Nat) (j : Nat)
    (out : List Byte) (prv : PrivateKey) (rng : List Byte) (hc : calls[j]? = some (.derive out prv rng)) (ho : out.length = 64) (ss : List Byte) (ok : Bool) (rest : List Byte)
    (h : (run (B, calls.map (start pub)) sched).2[j]? = some (.ret (.derived ss ok rest))) :
    ok = true ∧ ∀ out' ss' rng' rest' ok', out'.length = 64 → deriveSecret out' pub prv rng' = some (ss', ok', rest') → ss = ss' := by
  obtain ⟨r, -, e⟩ := (c128_alone pub calls B sched j _ hc).1 _ h
  simp only [alone, Option.map_eq_some_iff, Prod.exists] at e
  obtain ⟨s, b, r', e, e'⟩ := e
  cases e'
  exact ⟨c76_derive m _ _ _ _ _ _ e, fun out' ss' rng' rest' ok' ho' h' => c76_secret m prv _ _ _ _ _ _ _ _ _ _ ho ho' e h'⟩

/-- C128. `Validate` accepts such a key, whatever the others do. -/
theorem c128_accepts {l : List PrivateKey} {pub : PublicKey} (m : Made l pub) (calls : List Call) (B : List Byte) (sched : List Nat) (j : Nat)
    (rng : List Byte) (hc : calls[j]? = some (.validate rng)) (ok : Bool) (rest : List Byte)
    (h : (run (B, calls.map (start pub)) sched).2[j]? = some (.ret (.validated ok rest))) : ok = true := by
  obtain ⟨r, -, e⟩ := (c128_alone pub calls B sched j _ hc).1 _ h
  simp only [alone, Option.map_eq_some_iff, Prod.exists] at e
  obtain ⟨b, r', e, e'⟩ := e
  cases e'
  exact c76_valid m _ _ _ e

/-- C128. A key that is out of range or singular is refused, whatever the others do, and `out` is left alone. -/
theorem c128_refuses (pub : PublicKey) (hp : Props.CsidhPke.Refused pub) (calls : List Call) (B : List Byte) (sched : List Nat) (j : Nat) (r : Result)
    (h : (run (B, calls.map (start pub)) sched).2[j]? = some (.ret r)) :
    (∀ rng, calls[j]? = some (.validate rng) → r = .validated false rng) ∧
    (∀ out prv rng, calls[j]? = some (.derive out prv rng) → r = .derived out false rng) := by
  have key : ∀ c, calls[j]? = some c → next pub c false (source c) = .ret r := by
    intro c hc
    obtain ⟨bs, hb⟩ := (run_reach sched (B, calls.map (start pub))).2 j _ _ (started pub calls hc) h
    rw [start_eq] at hb
    rcases validate_form pub with hv | hv
    · rw [(hv _).2] at hb
      exact (reach_final (next_final pub c _ _) hb).1.symm
    · have h1 := (Props.CsidhKeys.c68_rejects pub hp.1 hp.2 PrivateKey.zero [] []).1
      rw [(hv _).1, loop_short _ (by simp)] at h1
      cases h1
  constructor
  · intro rng hc
    cases key _ hc
    rfl
  · intro out prv rng hc
    have := key _ hc
    rw [next, if_neg (by simp)] at this
    cases this
    rfl

/-- C128. No goroutine waits for another: a call ends after at most two steps for every byte its random source has, whatever
the others do. -/
theorem c128_ends (pub : PublicKey) (calls : List Call) (B : List Byte) (sched : List Nat) (j : Nat) (c : Call) (hc : calls[j]? = some c)
    (hn : 2 * (source c).length ≤ sched.count j) :
    (∃ r, (run (B, calls.map (start pub)) sched).2[j]? = some (.ret r)) ∨ (run (B, calls.map (start pub)) sched).2[j]? = some .panic := by
  obtain ⟨q, h, hf⟩ := run_within sched (B, calls.map (start pub)) _ j _ (started pub calls hc) (within_start pub c) hn
  cases q with
  | ret r => exact Or.inl ⟨r, h⟩
  | panic => exact Or.inr h
  | write => exact hf.elim
  | read => exact hf.elim

/-- C128. A call that isn't interrupted gives what it gives alone with its own random source, whatever is left in the buffer by others. -/
theorem c128_undisturbed (pub : PublicKey) (calls : List Call) (B : List Byte) (hB : B.length = 64) (j : Nat) (c : Call) (hc : calls[j]? = some c) :
    (run (B, calls.map (start pub)) (List.replicate (2 * (source c).length) j)).2[j]?.bind toOption = alone pub c (source c) := by
  rw [run_solo _ (B, calls.map (start pub)) j _ (started pub calls hc) (within_start pub c), Option.bind_some]
  exact solo_start pub c B hB

/-! ### a case -/

open Lemmas.CsidhRun Lemmas.CsidhRunAct Lemmas.CsidhRunKeys

/-- the random bytes with which `DeriveSecret` works for the key of `keyB` and `keyA` -/
def bytes : List Byte := fpBytes (lit 4) ++ (fpBytes (lit 2) ++ (fpBytes (lit 3) ++ []))

/-- Two goroutines derive with the same key, a third one validates it. -/
def calls : List Call := [.derive (List.replicate 64 0) keyA bytes, .derive (List.replicate 64 0) keyA bytes, .validate bytes]

theorem made : Made [keyB] ⟨lit eB⟩ := .gen (publicB [])

/-- The hypotheses of c128_secret are met, and c128_ends applies: in turns all three end; the first one, without interruption, returns. -/
example (B : List Byte) : ∃ q, (run (B, calls.map (start ⟨lit eB⟩)) ((List.replicate 384 [0, 1, 2]).flatten)).2[1]? = some q ∧ Final q := by
  have hb : bytes.length = 192 := by simp [bytes, fpBytes]
  rcases c128_ends ⟨lit eB⟩ calls B ((List.replicate 384 [0, 1, 2]).flatten) 1 _ rfl (by
    rw [source, hb]; decide +kernel) with ⟨r, h⟩ | h
  · exact ⟨_, h, trivial⟩
  · exact ⟨_, h, trivial⟩

example (B : List Byte) (hB : B.length = 64) :
    (run (B, calls.map (start ⟨lit eB⟩)) (List.replicate (2 * bytes.length) 0)).2[0]?.bind toOption = some (.derived (fpBytes (lit eAB)) true []) := by
  have := c128_undisturbed ⟨lit eB⟩ calls B hB 0 _ rfl
  rw [show source (Call.derive (List.replicate 64 0) keyA bytes) = bytes from rfl] at this
  rw [this, alone, bytes, deriveA _ (by simp)]
  rfl

end Props.CsidhShared
