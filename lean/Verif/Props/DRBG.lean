import Verif.Lemmas.DRBG
/-!
Properties of drbg (C24-C30).  Model: `Verif/Model/DRBG.lean` over `Model/AES.lean` and `Model/AESAsm.lean`;
specification: `Verif/Spec/DRBG.lean` (SP 800-90A) over `Spec/AES.lean`.  `hw` is the value of
`utils.X86.HasAES`, which selects the cipher object.
-/
namespace Props.DRBG
open Model Model.DRBG Lemmas.DRBG
open Spec.DRBG (num State)

/-! ### C24 -/

/-- The counter step adds one modulo 2^128 to V and changes nothing else. -/
theorem c24_inc (c : CtrDrbg) (h : c.v.length = 16) :
    num (inc c).v = (num c.v + 1) % 2 ^ 128 ∧ (inc c).v.length = 16 ∧ { inc c with v := c.v } = c := by
  have h1 := incLoop_spec c.v
  rw [h, p128] at h1
  exact ⟨h1, by rw [inc]; simp only; rw [incLoop_length, h], rfl⟩

/-- `inc` applied `n` times. -/
def incs (c : CtrDrbg) : Nat → CtrDrbg
  | 0 => c
  | n + 1 => inc (incs c n)

theorem incs_num (c : CtrDrbg) (h : c.v.length = 16) (n : Nat) :
    (incs c n).v.length = 16 ∧ num (incs c n).v = (num c.v + n) % 2 ^ 128 := by
  induction n with
  | zero =>
    have := num_lt c.v
    rw [h, p128] at this
    exact ⟨h, (Nat.mod_eq_of_lt this).symm⟩
  | succ n ih =>
    obtain ⟨h1, h2, _⟩ := c24_inc _ ih.1
    refine ⟨h2, ?_⟩
    rw [incs, h1, ih.2, Nat.mod_add_mod]; congr 1

/-- 2^128 successive counter values are distinct. -/
theorem c24_distinct (c : CtrDrbg) (h : c.v.length = 16) (i j : Nat) (hij : i < j) (hj : j - i < 2 ^ 128) :
    (incs c i).v ≠ (incs c j).v := by
  intro e
  have hi := (incs_num c h i).2
  have hj' := (incs_num c h j).2
  rw [e, hj'] at hi
  omega

example : num (inc { new false with v := List.replicate 12 7 ++ [7, 0xff, 0xff, 0xff] }).v =
    num (List.replicate 11 7 ++ [7, 8, 0, 0, 0] : List Byte) := by decide

/-! ### Histories -/

/-- The generator of the standard at each call: the results. -/
def stdResults : State → List Call → List Res
  | _, [] => []
  | s, .reseed e d :: cs => .unit :: stdResults (Spec.DRBG.reseed s e d) cs
  | s, .read out ad :: cs =>
    let (o, s') := Spec.DRBG.generate s out.length ad
    .bytes o out.length :: stdResults s' cs
  | s, .init _ _ :: cs => stdResults s cs -- not used

/-- Reseed calls and reads of a whole number of blocks. -/
def Whole : Call → Prop
  | .init _ _ => False
  | .reseed _ _ => True
  | .read out _ => 16 ∣ out.length

theorem whole_run (cs : List Call) : ∀ (c : CtrDrbg) (s : State) (k : List Byte), Inv c s → Ready c.blockEnc k → (∀ x ∈ cs, Whole x) →
    (run c cs).map (·.2) = some (stdResults s cs) := by
  induction cs with
  | nil => intro c s k _ _ _; rfl
  | cons x cs ih =>
    intro c s k h hr hw
    have hx := hw x (by simp)
    have hcs : ∀ y ∈ cs, Whole y := fun y hy => hw y (by simp [hy])
    cases x with
    | init e p => exact absurd hx id
    | reseed e d =>
      obtain ⟨c', a1, a2, a3, _⟩ := reseed_eq h e d
      have := ih c' _ _ a2 a3 hcs
      rw [run, call, a1]
      simp only [Option.map_some, Option.bind_eq_bind, Option.bind_some]
      cases hrun : run c' cs with
      | none => rw [hrun] at this; simp at this
      | some y => rw [hrun, Option.map_some, Option.some.injEq] at this; simp [stdResults, this]
    | read out ad =>
      have hx : 16 ∣ out.length := hx
      obtain ⟨c', a1, a2, a3, _⟩ := readAD_eq h hr out ad
      have := ih c' _ _ a2 a3 hcs
      have hq : (out.length + 15) / 16 = out.length / 16 := by omega
      have hl : ∀ s, ((Spec.DRBG.blocks (out.length / 16) s).1).take out.length = (Spec.DRBG.blocks (out.length / 16) s).1 := by
        intro s
        rw [List.take_of_length_le (by rw [blocks_length]; omega)]
      have hg : Spec.DRBG.generate s out.length ad = ((Spec.DRBG.blocks (out.length / 16) (pre s ad)).1,
          Spec.DRBG.update (Spec.DRBG.pad48 ad) (Spec.DRBG.blocks (out.length / 16) (pre s ad)).2) := by
        rw [Spec.DRBG.generate, hq, ← pre]
        simp only [hl]
      rw [run, call, a1]
      simp only [Option.map_some, Option.bind_eq_bind, Option.bind_some]
      cases hrun : run c' cs with
      | none => rw [hrun] at this; simp at this
      | some y =>
        rw [hrun, Option.map_some, Option.some.injEq] at this
        rw [stdResults, hg]
        simp [← this, show out.length % 16 = 0 by omega]

/-- A new object has strength 0, so accepts entropy of any length. -/
theorem new_ok (hw : Bool) (e : List Byte) : (new hw).strength / 8 ≤ e.length := by
  rw [new]; simp only [Nat.zero_div]; exact Nat.zero_le _

/-! ### C25 -/

/-- A new generator, initialised with any entropy and personalization string and then used for any
sequence of Reseed and whole-block reads with any additional data, returns what SP 800-90A prescribes
(inputs padded, or cut, to 48 bytes); no call panics. -/
theorem c25_conformance (hw : Bool) (e p : List Byte) (cs : List Call) (hcs : ∀ x ∈ cs, Whole x) :
    (run (new hw) (.init e p :: cs)).map (·.2) = some (.inited true :: stdResults (Spec.DRBG.instantiate e p) cs) := by
  obtain ⟨c', a1, a2, a3, _⟩ := init_eq (new_inv hw) e p (new_ok hw e)
  have := whole_run cs c' _ _ a2 a3 hcs
  rw [run, call, a1]
  simp only [Option.map_some, Option.bind_eq_bind, Option.bind_some]
  cases hrun : run c' cs with
  | none => rw [hrun] at this; simp at this
  | some y =>
    rw [hrun, Option.map_some, Option.some.injEq] at this
    simp only [Option.bind_some, Option.map_some, this]; rfl

example : ∀ x ∈ [Call.read (List.replicate 32 0) [1, 2], .reseed (List.replicate 48 9) [], .read (List.replicate 16 0) []], Whole x := by
  intro x hx
  simp only [List.mem_cons, List.not_mem_nil, or_false] at hx
  rcases hx with rfl | rfl | rfl
  · exact ⟨2, rfl⟩
  · trivial
  · exact ⟨1, rfl⟩

/-! ### Reachable generators -/

/-- Generators met by a program that initialises a new one first. -/
def Reached (hw : Bool) (c : CtrDrbg) : Prop :=
  ∃ e p cs rs, run (new hw) (.init e p :: cs) = some (c, rs)

theorem call_inv {c : CtrDrbg} {s : State} {k : List Byte} (h : Inv c s) (hr : Ready c.blockEnc k) (hs : c.strength = 256) (x : Call) :
    ∃ c' r, call c x = some (c', r) ∧ c'.strength = 256 ∧ ∃ s' k', Inv c' s' ∧ Ready c'.blockEnc k' := by
  cases x with
  | init e p =>
    rcases Nat.lt_or_ge e.length (c.strength / 8) with he | he
    · exact ⟨c, .inited false, by rw [call, init_refused c e p he]; rfl, hs, s, k, h, hr⟩
    · obtain ⟨c', a1, a2, a3, a4⟩ := init_eq h e p he
      exact ⟨c', .inited true, by rw [call, a1]; rfl, a4, _, _, a2, a3⟩
  | reseed e d =>
    obtain ⟨c', a1, a2, a3, a4⟩ := reseed_eq h e d
    exact ⟨c', .unit, by rw [call, a1]; rfl, a4.trans hs, _, _, a2, a3⟩
  | read out ad =>
    obtain ⟨c', a1, a2, a3, a4⟩ := readAD_eq h hr out ad
    exact ⟨c', _, by rw [call, a1]; rfl, a4.trans hs, _, _, a2, a3⟩

theorem run_inv (cs : List Call) : ∀ {c : CtrDrbg} {s : State} {k : List Byte}, Inv c s → Ready c.blockEnc k → c.strength = 256 →
    ∃ c' rs, run c cs = some (c', rs) ∧ c'.strength = 256 ∧ ∃ s' k', Inv c' s' ∧ Ready c'.blockEnc k' := by
  induction cs with
  | nil => intro c s k h hr hs; exact ⟨c, [], rfl, hs, s, k, h, hr⟩
  | cons x cs ih =>
    intro c s k h hr hs
    obtain ⟨c1, r, a1, a2, s1, k1, a3, a4⟩ := call_inv h hr hs x
    obtain ⟨c2, rs, b1, b2, b3⟩ := ih a3 a4 a2
    exact ⟨c2, r :: rs, by rw [run, a1]; simp only [Option.bind_eq_bind, Option.bind_some, b1], b2, b3⟩

theorem reached_inv {hw : Bool} {c : CtrDrbg} (h : Reached hw c) :
    c.strength = 256 ∧ ∃ s k, Inv c s ∧ Ready c.blockEnc k := by
  obtain ⟨e, p, cs, rs, h⟩ := h
  obtain ⟨c', a1, a2, a3, a4⟩ := init_eq (new_inv hw) e p (new_ok hw e)
  obtain ⟨c2, rs', b1, b2, b3⟩ := run_inv cs a2 a3 a4
  rw [run, call, a1] at h
  simp only [Option.map_some, Option.bind_eq_bind, Option.bind_some, b1, Option.some.injEq, Prod.mk.injEq] at h
  rw [← h.1]
  exact ⟨b2, b3⟩

/-- No call on an initialised generator panics. -/
theorem c25_no_panic (hw : Bool) (e p : List Byte) (cs : List Call) : ∃ c rs, run (new hw) (.init e p :: cs) = some (c, rs) := by
  obtain ⟨c', a1, a2, a3, a4⟩ := init_eq (new_inv hw) e p (new_ok hw e)
  obtain ⟨c2, rs', b1, b2, b3⟩ := run_inv cs a2 a3 a4
  exact ⟨c2, .inited true :: rs', by rw [run, call, a1]; simp only [Option.map_some, Option.bind_eq_bind, Option.bind_some, b1]⟩

/-- The standard's view of a generator object: Key and V. -/
def view (c : CtrDrbg) : State := ⟨c.key, num c.v⟩

theorem view_eq {c : CtrDrbg} {s : State} (h : Inv c s) : view c = s := by
  rw [view, h.key, h.v, num_be, p128, Nat.mod_eq_of_lt h.vlt]

example (hw : Bool) : ∃ c, Reached hw c := by
  obtain ⟨c, rs, h⟩ := c25_no_panic hw [] [] [.read [0, 0, 0] [1]]
  exact ⟨c, [], [], _, rs, h⟩

/-! ### C26 -/

/-- A request of any length agrees with the standard on its whole blocks and returns the length asked for;
missing: the trailing partial block, for which the claim is false (`c26_full_false`). -/
theorem c26_whole_blocks_partial (hw : Bool) (c : CtrDrbg) (h : Reached hw c) (out ad : List Byte) :
    ∃ c' o, readAD c out ad = some (c', o, out.length) ∧ o.length = out.length ∧
      o.take (16 * (out.length / 16)) = (Spec.DRBG.generate (view c) out.length ad).1.take (16 * (out.length / 16)) := by
  obtain ⟨_, s, k, hi, hr⟩ := reached_inv h
  obtain ⟨c', a1, a2, a3, _⟩ := readAD_eq hi hr out ad
  rw [view_eq hi]
  refine ⟨c', _, a1, ?_, ?_⟩
  · rw [List.length_append, blocks_length, List.length_take, Lemmas.AES.spec_enc_length]; omega
  · rw [List.take_left' (blocks_length _ _), Spec.DRBG.generate, ← pre]
    simp only
    rw [List.take_take, Nat.min_eq_left (by omega)]
    have hp : ∀ (n m : Nat) (s : State), n ≤ m → (Spec.DRBG.blocks m s).1.take (16 * n) = (Spec.DRBG.blocks n s).1 := by
      intro n
      induction n with
      | zero => intro m s _; rfl
      | succ n ih =>
        intro m s hm
        obtain ⟨m, rfl⟩ : ∃ m', m = m' + 1 := ⟨m - 1, by omega⟩
        rw [Spec.DRBG.blocks, Spec.DRBG.blocks]
        simp only
        have hb : (Spec.DRBG.blockEncrypt (Spec.DRBG.step s)).length = 16 := rfl
        rw [show 16 * (n + 1) = 16 + 16 * n by omega, ← hb, List.take_length_add_append, hb, ih m _ (by omega)]
    rw [hp _ _ _ (by omega)]

theorem read_result (hw : Bool) (e p out ad : List Byte) :
    ∃ o, (run (new hw) [.init e p, .read out ad]).map (·.2) = some [.inited true, .bytes o out.length] := by
  obtain ⟨c1, a1, a2, a3, a4⟩ := init_eq (new_inv hw) e p (new_ok hw e)
  obtain ⟨c2, b1, _⟩ := readAD_eq a2 a3 out ad
  have : ∀ o, readAD c1 out ad = some (c2, o, out.length) →
      (run (new hw) [.init e p, .read out ad]).map (·.2) = some [.inited true, .bytes o out.length] := by
    intro o h
    rw [run, call, a1]
    simp only [Option.map_some, Option.bind_eq_bind, Option.bind_some]
    rw [run, call, h]; rfl
  exact ⟨_, this _ b1⟩

/-- C26 is false: seventeen bytes from a generator initialised with empty inputs are not the first
seventeen bytes of the standard's output. -/
theorem c26_full_false : ∃ o n, (run (new false) [.init [] [], .read (List.replicate 17 0) []]).map (·.2) = some [.inited true, .bytes o n] ∧
    o ≠ (Spec.DRBG.generate (Spec.DRBG.instantiate [] []) 17 []).1 := by
  have h32 := c25_conformance false [] [] [.read (List.replicate 32 0) []] (by
    intro x hx; simp only [List.mem_cons, List.not_mem_nil, or_false] at hx; rw [hx]; exact ⟨2, rfl⟩)
  have hg : (Spec.DRBG.generate (Spec.DRBG.instantiate [] []) 17 []).1 = (Spec.DRBG.generate (Spec.DRBG.instantiate [] []) 32 []).1.take 17 := by
    rw [Spec.DRBG.generate, Spec.DRBG.generate]
    simp only
    rw [List.take_take]; rfl
  rw [hg]
  have key : ∀ r, (run (new false) [.init [] [], .read (List.replicate 32 0) []]).map (·.2) = some r →
      ∀ a b n, r = [.inited true, .bytes b n] →
      (run (new false) [.init [] [], .read (List.replicate 17 0) []]).map (·.2) = some [.inited true, .bytes a 17] → a ≠ b.take 17 := by
    intro r hr a b n hb ha
    have h1 : ((run (new false) [.init [] [], .read (List.replicate 32 0) []]).map (·.2)).map (fun r => match r with
        | [_, .bytes o _] => o.take 17
        | _ => []) ≠ ((run (new false) [.init [] [], .read (List.replicate 17 0) []]).map (·.2)).map (fun r => match r with
        | [_, .bytes o _] => o
        | _ => []) := by decide +kernel
    rw [hr, ha, hb] at h1
    intro e
    apply h1
    simp [e]
  obtain ⟨o, h17⟩ := read_result false [] [] (List.replicate 17 0) []
  exact ⟨o, 17, h17, key _ h32 _ _ _ rfl h17⟩

/-! ### C27 -/

theorem nth_block (n : Nat) : ∀ (s : State) (i : Nat), s.v < 2 ^ 128 → i < n →
    ((Spec.DRBG.blocks n s).1.drop (16 * i)).take 16 = Spec.AES.encrypt s.key (Spec.DRBG.be 16 ((s.v + i + 1) % 2 ^ 128)) := by
  induction n with
  | zero => intro s i _ h; omega
  | succ n ih =>
    intro s i hs hi
    rw [Spec.DRBG.blocks]
    simp only
    have hb : (Spec.DRBG.blockEncrypt (Spec.DRBG.step s)).length = 16 := by
      rw [Spec.DRBG.blockEncrypt]; exact Lemmas.AES.spec_enc_length _ _
    cases i with
    | zero => rw [Nat.mul_zero, List.drop_zero, List.take_left' hb]; rfl
    | succ i =>
      rw [show 16 * (i + 1) = 16 + 16 * i by omega, ← hb, List.drop_length_add_append, hb, ih _ i (step_lt s) (by omega), Spec.DRBG.step]
      simp only
      congr 2; omega

/-- The whole 16-byte blocks of one request are pairwise distinct, up to 2^128 of them; missing: the
trailing partial block (`c27_tail_repeats`). -/
theorem c27_distinct_partial (hw : Bool) (c : CtrDrbg) (h : Reached hw c) (out ad : List Byte) (hlen : out.length / 16 ≤ 2 ^ 128)
    (i j : Nat) (hij : i < j) (hj : j < out.length / 16) :
    ∃ c' o n, readAD c out ad = some (c', o, n) ∧ (o.drop (16 * i)).take 16 ≠ (o.drop (16 * j)).take 16 := by
  obtain ⟨_, s, k, hi, hr⟩ := reached_inv h
  obtain ⟨c', a1, a2, a3, _⟩ := readAD_eq hi hr out ad
  refine ⟨c', _, _, a1, ?_⟩
  have hv : (pre s ad).v < 2 ^ 128 := by
    rw [pre]
    split
    · exact hi.vlt
    · obtain ⟨d, _, e2, _⟩ := update_eq hi _ (pad48_length ad)
      exact e2.vlt
  have hl := blocks_length (out.length / 16) (pre s ad)
  have hcut : ∀ i, i < out.length / 16 → ∀ t : List Byte, ((((Spec.DRBG.blocks (out.length / 16) (pre s ad)).1 ++ t).drop (16 * i)).take 16 : List Byte) =
      (((Spec.DRBG.blocks (out.length / 16) (pre s ad)).1.drop (16 * i)).take 16) := by
    intro i hi t
    rw [List.drop_append_of_le_length (by omega), List.take_append_of_le_length (by rw [List.length_drop]; omega)]
  rw [hcut i (by omega), hcut j hj, nth_block _ _ i hv (by omega), nth_block _ _ j hv hj]
  intro e
  have e := congrArg (Spec.AES.decrypt (pre s ad).key) e
  rw [Lemmas.AES.spec_dec_enc _ _ (be_length 16 _), Lemmas.AES.spec_dec_enc _ _ (be_length 16 _)] at e
  have hm : ∀ x, x % 2 ^ 128 < 256 ^ 16 := fun x => by rw [p128]; exact Nat.mod_lt _ (by decide)
  have e := be_inj (hm _) (hm _) e
  omega

/-- The trailing partial block of any request of at least one block repeats the start of the block before
it: the claim without the exception is false for every such request. -/
theorem c27_tail_repeats (hw : Bool) (c : CtrDrbg) (h : Reached hw c) (out ad : List Byte) (hlen : 16 ≤ out.length) :
    ∃ c' o n, readAD c out ad = some (c', o, n) ∧
      o.drop (16 * (out.length / 16)) = (o.drop (16 * (out.length / 16 - 1))).take (out.length % 16) := by
  obtain ⟨_, s, k, hi, hr⟩ := reached_inv h
  obtain ⟨c', a1, a2, a3, _⟩ := readAD_eq hi hr out ad
  refine ⟨c', _, _, a1, ?_⟩
  have hv : (pre s ad).v < 2 ^ 128 := by
    rw [pre]
    split
    · exact hi.vlt
    · obtain ⟨d, _, e2, _⟩ := update_eq hi _ (pad48_length ad)
      exact e2.vlt
  have hl := blocks_length (out.length / 16) (pre s ad)
  rw [if_neg (by omega), blocks_v _ _ hv, List.drop_left' hl, List.drop_append_of_le_length (by omega),
    List.take_append_of_le_length (by rw [List.length_drop]; omega)]
  have hn := nth_block (out.length / 16) (pre s ad) (out.length / 16 - 1) hv (by omega)
  rw [List.take_of_length_le (by rw [List.length_drop]; omega)] at hn
  rw [hn]
  congr 4; omega

/-- A request shorter than one block has no whole block: its bytes come from encrypting V, not V + 1, and,
without additional data, under the key of the cipher object, the one before the last update. -/
theorem c26_short (hw : Bool) (e p out : List Byte) (hlen : out.length < 16) :
    ∃ o, (run (new hw) [.init e p, .read out []]).map (·.2) = some [.inited true, .bytes o out.length] ∧
      o = (Spec.AES.encrypt (List.replicate 32 0) (Spec.DRBG.be 16 (Spec.DRBG.instantiate e p).v)).take out.length := by
  obtain ⟨c1, a1, a2, a3, a4⟩ := init_eq (new_inv hw) e p (new_ok hw e)
  obtain ⟨c2, b1, _⟩ := readAD_eq a2 a3 out []
  rw [if_pos (by omega), preKey, if_pos rfl, pre, if_pos rfl, show out.length / 16 = 0 by omega, show out.length % 16 = out.length by omega] at b1
  refine ⟨_, ?_, rfl⟩
  rw [run, call, a1]
  simp only [Option.map_some, Option.bind_eq_bind, Option.bind_some]
  rw [run, call, b1]; rfl

/-! ### C28 -/

/-- An initialised generator refuses an Init with fewer than 32 bytes of entropy, and is unchanged, whatever
happened to it before; with 32 or more it accepts.  Missing: new objects, and Reseed, which has no result to
refuse with. -/
theorem c28_refused_partial (hw : Bool) (c : CtrDrbg) (h : Reached hw c) (e p : List Byte) :
    (e.length < 32 → call c (.init e p) = some (c, .inited false)) ∧
    (32 ≤ e.length → ∃ c', call c (.init e p) = some (c', .inited true)) := by
  obtain ⟨hs, s, k, hi, hr⟩ := reached_inv h
  constructor
  · intro he
    rw [call, init_refused c e p (by rw [hs]; exact he)]; rfl
  · intro he
    obtain ⟨c', a1, _⟩ := init_eq hi e p (by rw [hs]; exact he)
    exact ⟨c', by rw [call, a1]; rfl⟩

/-- C28 is false: a new generator accepts entropy of every length, none included, and so does Reseed. -/
theorem c28_full_false (hw : Bool) (e p : List Byte) :
    (∃ c', call (new hw) (.init e p) = some (c', .inited true)) ∧
    ∀ c, Reached hw c → ∃ c', call c (.reseed e p) = some (c', .unit) ∧
      view c' = Spec.DRBG.update (Spec.DRBG.seed e p) (view c) := by
  constructor
  · obtain ⟨c1, a1, _⟩ := init_eq (new_inv hw) e p (new_ok hw e)
    exact ⟨c1, by rw [call, a1]; rfl⟩
  · intro c h
    obtain ⟨hs, s, k, hi, hr⟩ := reached_inv h
    obtain ⟨c', a1, a2, _⟩ := reseed_eq hi e p
    exact ⟨c', by rw [call, a1]; rfl, by rw [view_eq hi, view_eq a2, Spec.DRBG.reseed]⟩

/-! ### C29 -/

/-- Two generators with the same Key, V, strength and cipher key give the same results for every later
sequence of calls. -/
theorem run_det (cs : List Call) : ∀ {c d : CtrDrbg} {s : State} {k : List Byte}, Inv c s → Ready c.blockEnc k → Inv d s → Ready d.blockEnc k →
    c.strength = d.strength → (run c cs).map (·.2) = (run d cs).map (·.2) := by
  induction cs with
  | nil => intros; rfl
  | cons x cs ih =>
    intro c d s k hc hck hd hdk hs
    have fin : ∀ c' d' r, call c x = some (c', r) → call d x = some (d', r) → (run c' cs).map (·.2) = (run d' cs).map (·.2) →
        (run c (x :: cs)).map (·.2) = (run d (x :: cs)).map (·.2) := by
      intro c' d' r h1 h2 h3
      rw [run, run, h1, h2]
      simp only [Option.bind_eq_bind, Option.bind_some]
      revert h3
      cases run c' cs <;> cases run d' cs <;> simp
    cases x with
    | init e p =>
      rcases Nat.lt_or_ge e.length (c.strength / 8) with he | he
      · exact fin c d (.inited false) (by rw [call, init_refused c e p he]; rfl) (by rw [call, init_refused d e p (hs ▸ he)]; rfl)
          (ih hc hck hd hdk hs)
      · obtain ⟨c', a1, a2, a3, a4⟩ := init_eq hc e p he
        obtain ⟨d', b1, b2, b3, b4⟩ := init_eq hd e p (hs ▸ he)
        exact fin c' d' (.inited true) (by rw [call, a1]; rfl) (by rw [call, b1]; rfl) (ih a2 a3 b2 b3 (a4.trans b4.symm))
    | reseed e p =>
      obtain ⟨c', a1, a2, a3, a4⟩ := reseed_eq hc e p
      obtain ⟨d', b1, b2, b3, b4⟩ := reseed_eq hd e p
      exact fin c' d' .unit (by rw [call, a1]; rfl) (by rw [call, b1]; rfl) (ih a2 a3 b2 b3 (a4.trans (hs.trans b4.symm)))
    | read out ad =>
      obtain ⟨c', a1, a2, a3, a4⟩ := readAD_eq hc hck out ad
      obtain ⟨d', b1, b2, b3, b4⟩ := readAD_eq hd hdk out ad
      have hret : ∀ o, readAD c out ad = some (c', o, out.length) → readAD d out ad = some (d', o, out.length) →
          (run c (.read out ad :: cs)).map (·.2) = (run d (.read out ad :: cs)).map (·.2) := by
        intro o h1 h2
        exact fin c' d' (.bytes o out.length) (by rw [call, h1]; rfl) (by rw [call, h2]; rfl) (ih a2 a3 b2 b3 (a4.trans (hs.trans b4.symm)))
      exact hret _ a1 b1

/-- Everything after an accepted Init of a used generator depends on its history only through Key and V,
whichever the platform; missing: independence of Key and V themselves, which is false (`c29_full_false`). -/
theorem c29_history_partial (hw hw' : Bool) (c d : CtrDrbg) (hc : Reached hw c) (hd : Reached hw' d) (hv : view c = view d)
    (e p : List Byte) (cs : List Call) : 32 ≤ e.length →
    (run c (.init e p :: cs)).map (·.2) = (run d (.init e p :: cs)).map (·.2) := by
  intro he
  obtain ⟨hs, s, k, hi, hr⟩ := reached_inv hc
  obtain ⟨hs', s', k', hi', hr'⟩ := reached_inv hd
  rw [view_eq hi, view_eq hi'] at hv
  subst hv
  obtain ⟨c', a1, a2, a3, a4⟩ := init_eq hi e p (by rw [hs]; exact he)
  obtain ⟨d', b1, b2, b3, b4⟩ := init_eq hi' e p (by rw [hs']; exact he)
  have := run_det cs a2 a3 b2 b3 (a4.trans b4.symm)
  rw [run, run, call, call, a1, b1]
  simp only [Option.map_some, Option.bind_eq_bind, Option.bind_some]
  revert this
  cases run c' cs <;> cases run d' cs <;> simp

/-- C29 is false: after Init with 32 zero bytes twice, the next 16 bytes are not those after once. -/
theorem c29_full_false :
    ∃ a b, a ≠ b ∧
      (run (new false) [.init (List.replicate 32 0) [], .read (List.replicate 16 0) []]).map (·.2) = some [.inited true, .bytes a 16] ∧
      (run (new false) [.init (List.replicate 32 0) [], .init (List.replicate 32 0) [], .read (List.replicate 16 0) []]).map (·.2) =
        some [.inited true, .inited true, .bytes b 16] := by
  obtain ⟨a, ha⟩ := read_result false (List.replicate 32 0) [] (List.replicate 16 0) []
  obtain ⟨c1, a1, a2, a3, a4⟩ := init_eq (new_inv false) (List.replicate 32 0) [] (new_ok false _)
  obtain ⟨c2, b1, b2, b3, b4⟩ := init_eq a2 (List.replicate 32 0) [] (by rw [a4]; decide)
  obtain ⟨c3, d1, _⟩ := readAD_eq b2 b3 (List.replicate 16 0) []
  obtain ⟨b, hb⟩ : ∃ b, (run (new false) [.init (List.replicate 32 0) [], .init (List.replicate 32 0) [], .read (List.replicate 16 0) []]).map (·.2) =
        some [.inited true, .inited true, .bytes b 16] := by
    have : ∀ o, readAD c2 (List.replicate 16 0) [] = some (c3, o, 16) →
        (run (new false) [.init (List.replicate 32 0) [], .init (List.replicate 32 0) [], .read (List.replicate 16 0) []]).map (·.2) =
        some [.inited true, .inited true, .bytes o 16] := by
      intro o h
      rw [run, call, a1]
      simp only [Option.map_some, Option.bind_eq_bind, Option.bind_some]
      rw [run, call, b1]
      simp only [Option.map_some, Option.bind_eq_bind, Option.bind_some]
      rw [run, call, h]; rfl
    exact ⟨_, this _ d1⟩
  refine ⟨a, b, ?_, ha, hb⟩
  have hne : ((run (new false) [.init (List.replicate 32 0) [], .read (List.replicate 16 0) []]).map (·.2)).map (·.getLast?) ≠
      ((run (new false) [.init (List.replicate 32 0) [], .init (List.replicate 32 0) [], .read (List.replicate 16 0) []]).map (·.2)).map (·.getLast?) := by
    decide +kernel
  rw [ha, hb] at hne
  intro e
  exact hne (by rw [e]; rfl)

/-! ### C30 -/

/-- After a request Key and V are CTR_DRBG_Update of the ones at the end of generation: the key in force
during generation and V advanced by the number of whole blocks. -/
theorem c30_update (hw : Bool) (c : CtrDrbg) (h : Reached hw c) (out ad : List Byte) :
    ∃ c' o, call c (.read out ad) = some (c', .bytes o out.length) ∧
      ∃ s1 : State, s1 = (if ad = [] then view c else Spec.DRBG.update (Spec.DRBG.pad48 ad) (view c)) ∧
        view c' = Spec.DRBG.update (Spec.DRBG.pad48 ad) ⟨s1.key, (s1.v + out.length / 16) % 2 ^ 128⟩ := by
  obtain ⟨_, s, k, hi, hr⟩ := reached_inv h
  obtain ⟨c', a1, a2, a3, _⟩ := readAD_eq hi hr out ad
  have hv : (pre s ad).v < 2 ^ 128 := by
    rw [pre]
    split
    · exact hi.vlt
    · obtain ⟨d, _, e2, _⟩ := update_eq hi _ (pad48_length ad)
      exact e2.vlt
  refine ⟨c', _, by rw [call, a1]; rfl, pre s ad, by rw [view_eq hi, pre], ?_⟩
  rw [view_eq a2]
  congr 1
  rw [← blocks_v _ _ hv, ← blocks_key (out.length / 16) (pre s ad)]

/-- The same calls give the same results on every platform, whatever the lengths. -/
theorem c30_platform (e p : List Byte) (cs : List Call) :
    (run (new true) (.init e p :: cs)).map (·.2) = (run (new false) (.init e p :: cs)).map (·.2) := by
  obtain ⟨c', a1, a2, a3, a4⟩ := init_eq (new_inv true) e p (new_ok true e)
  obtain ⟨d', b1, b2, b3, b4⟩ := init_eq (new_inv false) e p (new_ok false e)
  have := run_det cs a2 a3 b2 b3 (a4.trans b4.symm)
  rw [run, run, call, call, a1, b1]
  simp only [Option.map_some, Option.bind_eq_bind, Option.bind_some]
  revert this
  cases run c' cs <;> cases run d' cs <;> simp

end Props.DRBG
