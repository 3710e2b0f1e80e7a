import Verif.Lemmas.Sha3Obj
import Verif.Lemmas.LeftEncode
/-! Call sequences of a fixed form, cSHAKE objects, padding injectivity. -/
namespace Lemmas.Sha3
open Model Model.Sha3 Spec.Sponge Spec.Sha3

theorem _root_.Model.Sha3.Supported.good {P : Plat} (h : Supported P) : Good P := by
  cases h
  · exact good_generic
  · exact good_unaligned

theorem new_params (i : Inst) : (new i).rate = i.rate ∧ (new i).sfx = i.suffix ∧ (new i).dsize = i.digestLen := by
  cases i <;> exact ⟨rfl, rfl, rfl⟩

theorem new_rate (i : Inst) : IsRate (new i).rate := by
  cases i <;> simp [new, new224, new256, new384, new512, newShake128, newShake256, newDesc, newState, sha3Desc, IsRate]

theorem new_absorbed (i : Inst) : Absorbed (new i) [] := by
  cases i <;> exact absorbed_new (by simp [sha3Desc, IsRate])

theorem new_eq (i : Inst) : newState (new i).rate (new i).dsize (new i).sfx = new i := by
  cases i <;> rfl

theorem callsModel_append (P : Plat) (c : State) (h k : List Call) :
    callsModel P c (h ++ k) = (callsModel P c h).bind fun (c, xs) =>
      (callsModel P c k).map fun (c, ys) => (c, xs ++ ys) := by
  induction h generalizing c with
  | nil =>
    simp only [List.nil_append, callsModel, Option.bind_some]
    cases callsModel P c k <;> simp
  | cons a h ih =>
    simp only [List.cons_append, callsModel, Option.bind_eq_bind]
    cases h1 : callModel P c a with
    | none => simp
    | some v =>
      simp only [Option.bind_some, ih]
      cases h2 : callsModel P v.1 h with
      | none => simp
      | some w =>
        simp only [Option.bind_some]
        cases callsModel P w.1 k <;> simp

theorem calls_append (r : Nat) (sfx : Byte) (d : Nat) (o : Obj) (h k : List Call) :
    calls r sfx d o (h ++ k) =
      ((calls r sfx d (calls r sfx d o h).1 k).1, (calls r sfx d o h).2 ++ (calls r sfx d (calls r sfx d o h).1 k).2) := by
  induction h generalizing o with
  | nil => rfl
  | cons a h ih => simp only [List.cons_append, calls, ih]

theorem calls_writes (r : Nat) (sfx : Byte) (d : Nat) (m : List Byte) (ws : List (List Byte)) :
    calls r sfx d (.absorbing m) (ws.map .write) =
      (.absorbing (m ++ ws.flatten), ws.map fun w => .wrote w.length false) := by
  induction ws generalizing m with
  | nil => simp [calls]
  | cons w ws ih => simp [calls, call, ih]

theorem calls_reads (r : Nat) (sfx : Byte) (d : Nat) (bufs : List (List Byte)) : ∀ (o : Obj),
    ∃ outs : List (List Byte),
      (calls r sfx d o (bufs.map .read)).2 = outs.map (fun b => .read b b.length) ∧
      outs.map List.length = bufs.map List.length ∧
      outs.flatten = Spec.Keccak.spongeBytes Spec.Keccak.keccakF r sfx o.pos.1 o.pos.2 bufs.flatten.length := by
  induction bufs with
  | nil => intro o; exact ⟨[], rfl, rfl, by simp [Spec.Keccak.spongeBytes]⟩
  | cons b bufs ih =>
    intro o
    obtain ⟨outs, h1, h2, h3⟩ := ih (.squeezing o.pos.1 (o.pos.2 + b.length))
    refine ⟨Spec.Keccak.spongeBytes Spec.Keccak.keccakF r sfx o.pos.1 o.pos.2 b.length :: outs, ?_, ?_, ?_⟩
    · simp only [List.map_cons, calls, call, h1, spongeBytes_length]
    · simp only [List.map_cons, h2, spongeBytes_length]
    · rw [List.flatten_cons, h3, List.flatten_cons, List.length_append, spongeBytes_append]; rfl

/-- What a call history from a new object leads to. -/
theorem history {P : Plat} (hP : Supported P) (i : Inst) (h : List Call) :
    ∃ c, callsModel P (new i) h = some (c, (calls i.rate i.suffix i.digestLen (.absorbing []) h).2) ∧
      Sim c (calls i.rate i.suffix i.digestLen (.absorbing []) h).1 ∧ SameParams (new i) c := by
  have := calls_sim hP.good h (c := new i) (o := .absorbing []) (new_absorbed i)
  rw [(new_params i).1, (new_params i).2.1, (new_params i).2.2] at this
  exact this

/-! ### customised objects -/

/-- The prefix absorbed by `NewCShake`, with the padding as the code computes it. -/
def codePrefix (N S : List Byte) (r : Nat) : List Byte :=
  let z := Spec.CShake.leftEncode r ++ (Spec.CShake.encodeString N ++ Spec.CShake.encodeString S)
  z ++ List.replicate (r - z.length % r) 0

theorem encodeNames_eq {N S : List Byte} (hN : N.length < 2 ^ 61) (hS : S.length < 2 ^ 61) :
    encodeNames N S = Spec.CShake.encodeString N ++ Spec.CShake.encodeString S := by
  have h1 : (BitVec.ofNat 64 (N.length * 8)).toNat = 8 * N.length := by
    rw [BitVec.toNat_ofNat, Nat.mod_eq_of_lt] <;> omega
  have h2 : (BitVec.ofNat 64 (S.length * 8)).toNat = 8 * S.length := by
    rw [BitVec.toNat_ofNat, Nat.mod_eq_of_lt] <;> omega
  rw [encodeNames, leftEncode_eq, leftEncode_eq, h1, h2, Spec.CShake.encodeString, Spec.CShake.encodeString]
  simp only [List.append_assoc]

theorem bytepad_eq {N S : List Byte} (hN : N.length < 2 ^ 61) (hS : S.length < 2 ^ 61) {r : Nat}
    (hr : 0 < r) (hr' : r < 2 ^ 64) : bytepad (encodeNames N S) r = some (codePrefix N S r) := by
  rw [bytepad, if_neg (by omega)]
  have h1 : (BitVec.ofNat 64 r).toNat = r := by rw [BitVec.toNat_ofNat, Nat.mod_eq_of_lt hr']
  simp only [leftEncode_eq, h1, encodeNames_eq hN hS, codePrefix]

/-- The simulation relation of a customised object. -/
structure CSim (c : CState) (pre : List Byte) (o : Obj) : Prop where
  sim : Sim c.st o
  init : c.initBlock = pre

theorem newCShake_spec {P : Plat} (hP : Good P) {N S : List Byte} (hN : N.length < 2 ^ 61)
    (hS : S.length < 2 ^ 61) (sfx : Byte) {id : Nat} (hid : IsRate (sha3Desc id).1) :
    ∃ c, newCShake P N S sfx id = some c ∧ c.initBlock = codePrefix N S (sha3Desc id).1 ∧
      Absorbed c.st (codePrefix N S (sha3Desc id).1) ∧ SameParams (newDesc id sfx) c.st ∧
      (∃ n e, write P (newDesc id sfx) c.initBlock = some (c.st, n, e)) := by
  have hb := hid.bounds
  have h0 : (newDesc id sfx).rate = (sha3Desc id).1 := rfl
  have h1 := bytepad_eq hN hS (r := (sha3Desc id).1) (by omega) (by omega)
  obtain ⟨c', w1, w2, w3⟩ := write_spec hP (absorbed_new (d := (sha3Desc id).2) (sfx := sfx) hid) (codePrefix N S (sha3Desc id).1)
  rw [List.nil_append] at w2
  refine ⟨⟨c', codePrefix N S (sha3Desc id).1⟩, ?_, rfl, w2, w3, _, _, w1⟩
  simp only [newCShake, h0, h1, Option.bind_eq_bind, Option.bind_some]
  have : write P (newDesc id sfx) (codePrefix N S (sha3Desc id).1) = some (c', (codePrefix N S (sha3Desc id).1).length, none) := w1
  rw [this]; rfl

def ccallsModel (P : Plat) (c : CState) : List Call → Option (CState × List Result)
  | [] => some (c, [])
  | o :: os => do
    let (c, x) ← ccallModel P c o
    let (c, xs) ← ccallsModel P c os
    some (c, x :: xs)

theorem scalls_custom (P : Plat) (c : CState) (h : List Call) :
    scallsModel P (.custom c) h = (ccallsModel P c h).map fun (c, xs) => (.custom c, xs) := by
  induction h generalizing c with
  | nil => rfl
  | cons a h ih =>
    simp only [scallsModel, scallModel, ccallsModel, Option.bind_eq_bind]
    cases h1 : ccallModel P c a with
    | none => simp
    | some v =>
      simp only [Option.map_some, Option.bind_some, ih]
      cases h2 : ccallsModel P v.1 h <;> simp

theorem scalls_plain (P : Plat) (c : State) (h : List Call) :
    scallsModel P (.plain c) h = (callsModel P c h).map fun (c, xs) => (.plain c, xs) := by
  induction h generalizing c with
  | nil => rfl
  | cons a h ih =>
    simp only [scallsModel, scallModel, callsModel, Option.bind_eq_bind]
    cases h1 : callModel P c a with
    | none => simp
    | some v =>
      simp only [Option.map_some, Option.bind_some, ih]
      cases h2 : callsModel P v.1 h <;> simp

/-- The specification of a customised object: like a plain one, but `reset` keeps the prefix. -/
def ccall (pre : List Byte) (r : Nat) (sfx : Byte) (d : Nat) (o : Obj) : Call → Obj × Result
  | .reset => (.absorbing pre, .unit)
  | k => call r sfx d o k

def ccalls (pre : List Byte) (r : Nat) (sfx : Byte) (d : Nat) (o : Obj) : List Call → Obj × List Result
  | [] => (o, [])
  | c :: cs =>
    let (o, x) := ccall pre r sfx d o c
    let (o, xs) := ccalls pre r sfx d o cs
    (o, x :: xs)

theorem ccall_sim {P : Plat} (hP : Good P) {pre : List Byte} {c : CState} {o : Obj} (h : CSim c pre o) (k : Call) :
    ∃ c', ccallModel P c k = some (c', (ccall pre c.st.rate c.st.sfx c.st.dsize o k).2) ∧
      CSim c' pre (ccall pre c.st.rate c.st.sfx c.st.dsize o k).1 ∧ SameParams c.st c'.st := by
  by_cases hk : k = .reset
  · subst hk
    have h1 := absorbed_reset (c := c.st) h.sim.rate
    obtain ⟨c', w1, w2, w3⟩ := write_spec hP h1 c.initBlock
    refine ⟨⟨c', c.initBlock⟩, ?_, ⟨?_, h.init⟩, ?_⟩
    · simp [ccallModel, creset, w1, ccall]
    · rw [List.nil_append, h.init] at w2; exact w2
    · exact SameParams.trans (b := reset c.st) ⟨rfl, rfl, rfl⟩ w3
  · obtain ⟨c', h1, h2, h3⟩ := call_sim hP h.sim k
    refine ⟨⟨c', c.initBlock⟩, ?_, ⟨?_, h.init⟩, h3⟩
    · cases k <;> first | exact absurd rfl hk | simp [ccallModel, h1, ccall]
    · cases k <;> first | exact absurd rfl hk | exact h2

theorem ccalls_sim {P : Plat} (hP : Good P) {pre : List Byte} (ks : List Call) {c : CState} {o : Obj} (h : CSim c pre o) :
    ∃ c', ccallsModel P c ks = some (c', (ccalls pre c.st.rate c.st.sfx c.st.dsize o ks).2) ∧
      CSim c' pre (ccalls pre c.st.rate c.st.sfx c.st.dsize o ks).1 ∧ SameParams c.st c'.st := by
  induction ks generalizing c o with
  | nil => exact ⟨c, rfl, h, SameParams.refl c.st⟩
  | cons k ks ih =>
    obtain ⟨c1, h1, h2, h3⟩ := ccall_sim hP h k
    obtain ⟨c2, h4, h5, h6⟩ := ih h2
    rw [h3.1, h3.2.1, h3.2.2] at h4 h5
    refine ⟨c2, ?_, h5, h3.trans h6⟩
    simp [ccallsModel, h1, h4, ccalls]

theorem ccalls_writes (pre : List Byte) (r : Nat) (sfx : Byte) (d : Nat) (m : List Byte) (ws : List (List Byte)) :
    ccalls pre r sfx d (.absorbing m) (ws.map .write) =
      (.absorbing (m ++ ws.flatten), ws.map fun w => .wrote w.length false) := by
  induction ws generalizing m with
  | nil => simp [ccalls]
  | cons w ws ih => simp [ccalls, ccall, call, ih]

theorem ccalls_append (pre : List Byte) (r : Nat) (sfx : Byte) (d : Nat) (o : Obj) (h k : List Call) :
    ccalls pre r sfx d o (h ++ k) =
      ((ccalls pre r sfx d (ccalls pre r sfx d o h).1 k).1,
        (ccalls pre r sfx d o h).2 ++ (ccalls pre r sfx d (ccalls pre r sfx d o h).1 k).2) := by
  induction h generalizing o with
  | nil => rfl
  | cons a h ih => simp only [List.cons_append, ccalls, ih]

theorem ccalls_reads (pre : List Byte) (r : Nat) (sfx : Byte) (d : Nat) (bufs : List (List Byte)) (o : Obj) :
    ccalls pre r sfx d o (bufs.map .read) = calls r sfx d o (bufs.map .read) := by
  induction bufs generalizing o with
  | nil => rfl
  | cons b bufs ih => simp [ccalls, ccall, calls, ih]

/-- Writing and reading through a customised object with rate `r`. -/
theorem custom_stream {P : Plat} (hP : Good P) {N S : List Byte} (hN : N.length < 2 ^ 61)
    (hS : S.length < 2 ^ 61) (sfx : Byte) {id : Nat} (hid : IsRate (sha3Desc id).1)
    (ws bufs : List (List Byte)) :
    ∃ c, newCShake P N S sfx id = some c ∧ ∃ (c' : Shake) (outs : List (List Byte)),
      scallsModel P (.custom c) (ws.map .write ++ bufs.map .read) =
        some (c', (ws.map fun w => .wrote w.length false) ++ outs.map fun b => .read b b.length) ∧
      outs.map List.length = bufs.map List.length ∧
      outs.flatten = Spec.Keccak.spongeBytes Spec.Keccak.keccakF (sha3Desc id).1 sfx
        (codePrefix N S (sha3Desc id).1 ++ ws.flatten) 0 bufs.flatten.length := by
  obtain ⟨c, h1, h2, h3, h4, -⟩ := newCShake_spec hP hN hS sfx hid
  refine ⟨c, h1, ?_⟩
  obtain ⟨c', h5, -, -⟩ := ccalls_sim hP (pre := codePrefix N S (sha3Desc id).1) (ws.map .write ++ bufs.map .read)
    (c := c) (o := .absorbing (codePrefix N S (sha3Desc id).1)) ⟨h3, h2⟩
  have e1 : c.st.rate = (sha3Desc id).1 := h4.1
  have e2 : c.st.sfx = sfx := h4.2.2
  rw [ccalls_append, ccalls_writes, ccalls_reads, e1, e2] at h5
  obtain ⟨outs, g1, g2, g3⟩ := calls_reads (sha3Desc id).1 sfx c.st.dsize bufs
    (.absorbing (codePrefix N S (sha3Desc id).1 ++ ws.flatten))
  refine ⟨.custom c', outs, ?_, g2, g3⟩
  rw [scalls_custom, h5, Option.map_some, ← g1]

/-- After any history a reset restores the state right after creation. -/
theorem creset_history {P : Plat} (hP : Good P) {N S : List Byte} (hN : N.length < 2 ^ 61)
    (hS : S.length < 2 ^ 61) (sfx : Byte) {id : Nat} (hid : IsRate (sha3Desc id).1) (h : List Call)
    {c0 : CState} (hc0 : newCShake P N S sfx id = some c0) :
    ∃ c xs, ccallsModel P c0 h = some (c, xs) ∧ creset P c = some c0 := by
  obtain ⟨c1, h1, h2, h3, h4, n, e, h5⟩ := newCShake_spec hP hN hS sfx hid
  rw [hc0] at h1
  obtain rfl : c0 = c1 := Option.some.inj h1
  obtain ⟨c', g1, g2, g3⟩ := ccalls_sim hP (pre := codePrefix N S (sha3Desc id).1) h (c := c0)
    (o := .absorbing (codePrefix N S (sha3Desc id).1)) ⟨h3, h2⟩
  refine ⟨c', _, g1, ?_⟩
  have hr : reset c'.st = newDesc id sfx := reset_eq_new (SameParams.trans h4 g3)
  rw [creset, hr, g2.init, ← h2, h5]
  have hi : c'.initBlock = c0.initBlock := by rw [g2.init, h2]
  cases c'; cases c0
  simp only at hi
  simp

/-! ### injectivity of encodings and padding -/

theorem codePrefix_inj {N S N' S' : List Byte} (hN : N.length < 2 ^ 61) (hS : S.length < 2 ^ 61)
    (hN' : N'.length < 2 ^ 61) (hS' : S'.length < 2 ^ 61) {r : Nat} {x x' : List Byte}
    (h : codePrefix N S r ++ x = codePrefix N' S' r ++ x') : N = N' ∧ S = S' ∧ x = x' := by
  have key : ∀ {A B : List Byte} {s t : List Byte}, A.length < 2 ^ 61 → B.length < 2 ^ 61 →
      Spec.CShake.encodeString A ++ s = Spec.CShake.encodeString B ++ t → A = B ∧ s = t := by
    intro A B s t hA hB h
    rw [Spec.CShake.encodeString, Spec.CShake.encodeString, List.append_assoc, List.append_assoc] at h
    obtain ⟨h1, h2⟩ := leftEncode_prefix (by omega) (by omega) h
    exact List.append_inj h2 (by omega)
  have h0 := h
  simp only [codePrefix, List.append_assoc] at h
  have h1 := List.append_cancel_left h
  obtain ⟨rfl, h2⟩ := key hN hN' h1
  obtain ⟨rfl, -⟩ := key hS hS' h2
  exact ⟨rfl, rfl, List.append_cancel_left h0⟩

theorem pad_inj {r : Nat} (hr : 0 < r) {s s' : Byte} (h0 : s ≠ 0) (h0' : s' ≠ 0)
    (hs : s.toNat < 128) (hs' : s'.toNat < 128)
    {m m' : List Byte} (h : Spec.Keccak.pad r s m = Spec.Keccak.pad r s' m') : s = s' ∧ m = m' := by
  -- the tails
  have form : ∀ (s : Byte) (m : List Byte), ∃ t : List Byte, Spec.Keccak.pad r s m = m ++ t ∧ 0 < t.length ∧
      (t = [s ||| 0x80] ∨ ∃ k, t = s :: (List.replicate k 0 ++ [0x80])) := by
    intro s m
    rw [Spec.Keccak.pad]
    have hq : 0 < r - m.length % r := by have := Nat.mod_lt m.length hr; omega
    split
    · exact ⟨_, rfl, by simp, Or.inl rfl⟩
    · exact ⟨_, by simp only [List.append_assoc]; rfl, by simp, Or.inr ⟨_, rfl⟩⟩
  have or_ne : ∀ s : Byte, s ≠ 0 → s.toNat < 128 → s ||| 0x80 ≠ 0x80 ∧ s ||| 0x80 ≠ 0 ∧ (s ||| 0x80) &&& 0x7f = s := by
    decide +kernel
  have main : ∀ (s s' : Byte), s ≠ 0 → s' ≠ 0 → s'.toNat < 128 → s.toNat < 128 → ∀ m m', m.length < m'.length →
      Spec.Keccak.pad r s m ≠ Spec.Keccak.pad r s' m' := by
    intro s s' h0 h0' hs' hs m m' hlt h
    obtain ⟨t, e, tl, ht⟩ := form s m
    obtain ⟨t', e', tl', ht'⟩ := form s' m'
    rw [e, e'] at h
    have hd : t = m'.drop m.length ++ t' := by
      have := congrArg (List.drop m.length) h
      rw [List.drop_left, List.drop_append_of_le_length (by omega)] at this
      exact this
    have hu : 0 < (m'.drop m.length).length := by rw [List.length_drop]; omega
    generalize m'.drop m.length = u at hd hu
    cases u with
    | nil => simp at hu
    | cons a u =>
      rcases ht with ht | ⟨k, ht⟩
      · rw [ht] at hd
        have := congrArg List.length hd
        simp only [List.length_append, List.length_cons, List.length_nil] at this; omega
      · rw [ht, List.cons_append] at hd
        injection hd with _ hd
        -- the head of t' is 0 or 0x80
        have hh : t'.head? = some 0 ∨ t'.head? = some 0x80 := by
          have e1 : t' = (List.replicate k (0 : Byte) ++ [0x80]).drop u.length := by rw [hd]; simp
          have hl : u.length ≤ k := by
            have := congrArg List.length hd
            simp at this; omega
          rw [e1, List.drop_append_of_le_length (by rw [List.length_replicate]; exact hl), List.drop_replicate]
          rcases Nat.eq_zero_or_pos (k - u.length) with hk | hk
          · rw [hk]; right; rfl
          · obtain ⟨j, hj⟩ := Nat.exists_eq_succ_of_ne_zero (Nat.pos_iff_ne_zero.mp hk)
            rw [hj]; left; rfl
        obtain ⟨o1, o2, -⟩ := or_ne s' h0' hs'
        rcases ht' with ht' | ⟨k', ht'⟩ <;> rw [ht'] at hh <;> simp only [List.head?_cons, Option.some.injEq] at hh
        · rcases hh with hh | hh
          · exact o2 hh
          · exact o1 hh
        · rcases hh with hh | hh
          · exact h0' hh
          · rw [hh] at hs'; exact absurd hs' (by decide)
  have hlen : m.length = m'.length := by
    rcases Nat.lt_trichotomy m.length m'.length with hlt | heq | hgt
    · exact absurd h (main s s' h0 h0' hs' hs m m' hlt)
    · exact heq
    · exact absurd h.symm (main s' s h0' h0 hs hs' m' m hgt)
  obtain ⟨t, e, tl, ht⟩ := form s m
  obtain ⟨t', e', tl', ht'⟩ := form s' m'
  rw [e, e'] at h
  obtain ⟨hm, ht2⟩ := List.append_inj h hlen
  refine ⟨?_, hm⟩
  rcases ht with ht | ⟨k, ht⟩ <;> rcases ht' with ht' | ⟨k', ht'⟩ <;> rw [ht, ht'] at ht2
  · injection ht2 with ht2 _; rw [← (or_ne s h0 hs).2.2, ht2, (or_ne s' h0' hs').2.2]
  · have := congrArg List.length ht2; simp at this
  · have := congrArg List.length ht2; simp at this
  · injection ht2

/-! ### evaluation on literals -/

/-- Absorbing with the modelled lane operations, for evaluating the specification on literals. -/
def absorbL (r : Nat) (p : List Byte) : Nat → Vector W64 25
  | 0 => Vector.replicate 25 0
  | n + 1 => keccakF1600 ((xorInGeneric (absorbL r p n) ((p.drop (n * r)).take r)).getD (Vector.replicate 25 0))

theorem absorbL_eq {r : Nat} (hr : IsRate r) (p : List Byte) (n : Nat) (h : n * r ≤ p.length) :
    laneBytes (absorbL r p n) = absorbN Spec.Keccak.keccakF r p n := by
  induction n with
  | zero => exact laneBytes_zero
  | succ n ih =>
    rw [Nat.add_mul, Nat.one_mul] at h
    have hl : ((p.drop (n * r)).take r).length = r := by rw [List.length_take, List.length_drop]; omega
    obtain ⟨a', h1, h2⟩ := good_generic.xorIn (absorbL r p n) ((p.drop (n * r)).take r) (by rw [hl]; exact hr)
    rw [absorbN_succ, absorbL]
    have h1' : xorInGeneric (absorbL r p n) ((p.drop (n * r)).take r) = some a' := h1
    rw [h1', Option.getD_some, laneBytes_keccakF1600, h2, ih (by omega), hl]

theorem sponge_eval {r : Nat} (hr : IsRate r) (sfx : Byte) (m : List Byte) (n : Nat) (hn : n ≤ r) :
    Spec.Keccak.spongeBytes Spec.Keccak.keccakF r sfx m 0 n =
      (laneBytes (absorbL r (Spec.Keccak.pad r sfx m) ((Spec.Keccak.pad r sfx m).length / r))).take n := by
  have hb := hr.bounds
  have h := spongeBytes_block Spec.Keccak.keccakF r sfx m 0 0 n
    (laneBytes (absorbL r (Spec.Keccak.pad r sfx m) ((Spec.Keccak.pad r sfx m).length / r))) (by omega) (by omega) (by omega)
    (by rw [absorbL_eq hr _ _ (Nat.div_mul_le_self _ _), absorb_eq]; rfl) (laneBytes_length _)
  simpa using h

end Lemmas.Sha3
