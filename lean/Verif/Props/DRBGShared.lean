import Verif.Props.DRBG
import Verif.Lemmas.DRBGShared
import Verif.Lemmas.Slices
/-!
Goroutines that read from one generator at the same time (C129).  Model: `Verif/Model/DRBGShared.lean`, where a
schedule picks which goroutine runs its next statement; the sequential generator is `Verif/Model/DRBG.lean`.
`Reached hw c`: c is a generator that some program has initialised and used; `hw` selects the cipher object.
-/
namespace Props.DRBGShared
open Model Model.DRBGShared Lemmas.DRBG Lemmas.DRBGShared
open Model.DRBG (CtrDrbg Call Res new)
open Props.DRBG (Reached reached_inv)

theorem reached_ok {hw : Bool} {c : CtrDrbg} (h : Reached hw c) : Ok c := by
  obtain ⟨_, s, k, hi, hr⟩ := reached_inv h
  exact ⟨by rw [hi.v, be_length], by rw [hi.key]; exact hi.klen, hi.tmp, k, hr⟩

theorem readLoop_length (n : Nat) : ∀ {c c' : CtrDrbg} {out out' : List Byte} {i : Nat},
    16 * (i + n) ≤ out.length → Model.DRBG.readLoop c out i n = some (c', out') → out'.length = out.length := by
  induction n with
  | zero => intro c c' out out' i _ h; cases h; rfl
  | succ n ih =>
    intro c c' out out' i hl h
    simp only [Model.DRBG.readLoop, Option.bind_eq_bind, Option.bind_eq_some_iff] at h
    obtain ⟨b, -, t, ht, h⟩ := h
    have := Lemmas.Slices.encrypt_length ht
    have hl2 : (out.take (16 * i) ++ t).length = out.length := by
      rw [List.length_append, this, List.length_drop, List.length_take]; omega
    rw [ih (by rw [hl2]; omega) h, hl2]

/-- A call whose statements run in a row, with nothing in between, is the call of the sequential generator:
same object afterwards, same bytes, and a panic where that panics. -/
theorem c129_same (c : CtrDrbg) (out ad : List Byte) :
    execAll c out (readAD out.length ad) = (Model.DRBG.readAD c out ad).map fun x => (x.1, x.2.1) := by
  rw [readAD, execAll_append, Model.DRBG.readAD, seed_eq]
  have hp : execAll c out (if 0 < ad.length then update (seed ad) else []) =
      (Model.DRBG.readPre c ad (seed ad)).map (·, out) := by
    rw [Model.DRBG.readPre]
    split
    · exact update_same c out _ (seed_length ad)
    · rfl
  rw [hp]
  simp only [Option.bind_eq_bind]
  cases Model.DRBG.readPre c ad (seed ad) with
  | none => rfl
  | some c =>
    simp only [Option.map_some, Option.bind_some]
    rw [execAll_append, readLoop_same]
    cases hl : Model.DRBG.readLoop c out 0 (out.length / 16) with
    | none => rfl
    | some x =>
      obtain ⟨c, out'⟩ := x
      have hlen := readLoop_length _ (by omega) hl
      simp only [Option.bind_some]
      rw [execAll_append]
      simp only [execAll, exec, Nat.mul_zero, List.drop_zero, List.take_zero, List.nil_append]
      cases c.blockEnc.encrypt c.tmpBlk c.v with
      | none => rfl
      | some t =>
        simp only [Option.map_some, Option.bind_some]
        rw [execAll_append, update_same _ _ _ (seed_length ad), hlen]
        cases Model.DRBG.update { c with tmpBlk := t } (seed ad) with
        | none => rfl
        | some c => rfl

/-- Whatever the schedule and the number of goroutines, nothing panics and every buffer keeps its length. -/
theorem c129_no_panic (hw : Bool) (c : CtrDrbg) (h : Reached hw c) (calls : List (List Byte × List Byte)) (sched : List Nat) :
    ∃ c' gs, run c (calls.map fun x => start x.1 x.2) sched = some (c', gs) ∧
      gs.map (·.out.length) = calls.map (·.1.length) := by
  obtain ⟨c', gs, a1, _, _, a4⟩ := run_ok sched (gs := calls.map fun x => start x.1 x.2) (reached_ok h) (by
    intro g hg s hs
    obtain ⟨x, _, rfl⟩ := List.mem_map.1 hg
    exact readAD_fits _ _ s hs)
  refine ⟨c', gs, a1, a4.trans ?_⟩
  rw [List.map_map]; rfl

/-- What the property would need: when two goroutines have returned, each holds what it would hold had one
called after the other, in one order or the other. -/
def OneAfterTheOther (c : CtrDrbg) (out ad : List Byte) : Prop :=
  ∀ sched c' g0 g1, run c [start out ad, start out ad] sched = some (c', [g0, g1]) → g0.rest = [] → g1.rest = [] →
    ∃ d r0 r1 n0 n1, Model.DRBG.run c [.read out ad, .read out ad] = some (d, [.bytes r0 n0, .bytes r1 n1]) ∧
      ((g0.out = r0 ∧ g1.out = r1) ∨ (g0.out = r1 ∧ g1.out = r0))

/-- For every generator in use, every length and all additional data there is a schedule, with both goroutines
taking turns, under which both return and hold the same bytes. -/
theorem c129_repeats (hw : Bool) (c : CtrDrbg) (h : Reached hw c) (out ad : List Byte) :
    ∃ sched c' o, run c [start out ad, start out ad] sched = some (c', [⟨o, []⟩, ⟨o, []⟩]) ∧ o.length = out.length := by
  obtain ⟨c', o, a1, _, a3⟩ := lockstep (readAD out.length ad) (reached_ok h) (readAD_fits _ _)
  exact ⟨_, c', o, a1, a3⟩

/-- Two 16-byte reads, one after the other, on a generator initialised with zeros. -/
theorem differ : ((Model.DRBG.run (new false) (.init (List.replicate 32 0) [] :: [.read (List.replicate 16 0) [], .read (List.replicate 16 0) []])).map (·.2)).map
    (fun rs => decide (rs[1]? = rs[2]?)) = some false := by decide +kernel

/-- The property is false of the code, on every platform: a generator in use and a schedule under which two
goroutines get the same 16 bytes, where one call after the other gives different ones. -/
theorem c129_false (hw : Bool) : ∃ c, Reached hw c ∧ ¬ OneAfterTheOther c (List.replicate 16 0) [] := by
  obtain ⟨c, rs, hc⟩ := Props.DRBG.c25_no_panic hw (List.replicate 32 0) [] []
  have hreach : Reached hw c := ⟨_, _, _, _, hc⟩
  refine ⟨c, hreach, fun hp => ?_⟩
  obtain ⟨sched, c', o, hr, -⟩ := c129_repeats hw c hreach (List.replicate 16 0) []
  obtain ⟨d, r0, r1, n0, n1, hs, ho⟩ := hp sched c' _ _ hr rfl rfl
  have hd := differ
  have hq : (Model.DRBG.run (new hw) (.init (List.replicate 32 0) [] :: [.read (List.replicate 16 0) [], .read (List.replicate 16 0) []])).map (·.2) =
      (Model.DRBG.run (new false) (.init (List.replicate 32 0) [] :: [.read (List.replicate 16 0) [], .read (List.replicate 16 0) []])).map (·.2) := by
    cases hw
    · rfl
    · exact Props.DRBG.c30_platform _ _ _
  rw [← hq, Model.DRBG.run] at hd
  rw [Model.DRBG.run] at hc
  simp only [Option.bind_eq_bind] at hd hc
  cases hi : Model.DRBG.call (new hw) (.init (List.replicate 32 0) []) with
  | none => rw [hi] at hc; cases hc
  | some x =>
    rw [hi] at hc hd
    simp only [Model.DRBG.run, Option.bind_some, Option.some.injEq, Prod.mk.injEq] at hc
    rw [Option.bind_some, hc.1, hs] at hd
    simp only [Option.bind_some, Option.map_some, Option.some.injEq, decide_eq_false_iff_not, List.getElem?_cons_succ, List.getElem?_cons_zero] at hd
    have hl := hs
    apply hd
    simp only [Model.DRBG.run, Model.DRBG.call, Option.bind_eq_bind, Option.bind_eq_some_iff, Option.map_eq_some_iff] at hl
    obtain ⟨⟨c1, b1⟩, ⟨⟨y1, y2, y3⟩, hy, hy'⟩, ⟨c2, b2⟩, ⟨⟨c3, b3⟩, ⟨⟨z1, z2, z3⟩, hz, hz'⟩, hl⟩, hl'⟩ := hl
    have e0 : n0 = 16 ∧ n1 = 16 := by
      obtain ⟨_, s, k, hi1, hr1⟩ := reached_inv hreach
      obtain ⟨c4, f1, f2, f3, _⟩ := readAD_eq hi1 hr1 (List.replicate 16 0) []
      rw [f1] at hy
      simp only [Option.some.injEq, Prod.mk.injEq] at hy hy' hz' hl'
      obtain ⟨rfl, -, rfl⟩ := hy
      rw [← hy'.1] at hz
      obtain ⟨c5, g1, _⟩ := readAD_eq f2 f3 (List.replicate 16 0) []
      rw [g1] at hz
      simp only [Option.some.injEq, Prod.mk.injEq] at hz
      obtain ⟨-, -, rfl⟩ := hz
      obtain ⟨⟨w1, w2⟩, hw1, hw2⟩ := hl
      cases hw1
      simp only [Option.some.injEq, Prod.mk.injEq] at hw2
      rw [← hw2.2, ← hy'.2, ← hz'.2] at hl'
      simp only [List.cons.injEq, Res.bytes.injEq] at hl'
      exact ⟨hl'.2.1.2.symm, hl'.2.2.1.2.symm⟩
    rcases ho with ⟨p, q⟩ | ⟨p, q⟩
    · simp only at p q; rw [← p, ← q, e0.1, e0.2]
    · simp only at p q; rw [← p, ← q, e0.1, e0.2]

/-- Goroutine j's call, uninterrupted, for each j of `order`. -/
def oneByOne (calls : List (List Byte × List Byte)) (order : List Nat) : List Nat :=
  order.flatMap fun j => List.replicate (readAD (calls.getD j ([], [])).1.length (calls.getD j ([], [])).2).length j

theorem serial_aux (calls : List (List Byte × List Byte)) (order : List Nat) : ∀ {c c' : CtrDrbg} {rs : List Res} {gs : List Gor},
    order.Nodup → (∀ j ∈ order, gs[j]? = some (start (calls.getD j ([], [])).1 (calls.getD j ([], [])).2)) →
    Model.DRBG.run c (order.map fun j => .read (calls.getD j ([], [])).1 (calls.getD j ([], [])).2) = some (c', rs) →
    ∃ gs', run c gs (oneByOne calls order) = some (c', gs') ∧ (∀ j, j ∉ order → gs'[j]? = gs[j]?) ∧
      ∀ i j : Nat, order[i]? = some j → ∃ o, gs'[j]? = some ⟨o, []⟩ ∧ rs[i]? = some (.bytes o o.length) := by
  induction order with
  | nil =>
    intro c c' rs gs _ _ h
    cases h
    exact ⟨gs, rfl, fun _ _ => rfl, fun i j e => by simp at e⟩
  | cons k order ih =>
    intro c c' rs gs hn hg h
    rw [List.nodup_cons] at hn
    simp only [List.map_cons, Model.DRBG.run, Model.DRBG.call, Option.bind_eq_bind, Option.bind_eq_some_iff, Option.map_eq_some_iff] at h
    obtain ⟨⟨c1, r⟩, ⟨⟨y1, y2, y3⟩, hy, hy'⟩, ⟨c2, rs'⟩, h, h'⟩ := h
    have hcount : y3 = y2.length := by
      rw [Model.DRBG.readAD] at hy
      simp only [Option.bind_eq_bind, Option.bind_eq_some_iff, Option.some.injEq, Prod.mk.injEq] at hy
      obtain ⟨_, -, _, -, _, -, _, -, -, e1, e2⟩ := hy
      rw [← e2, ← e1]
    simp only [Prod.mk.injEq] at hy'
    obtain ⟨rfl, rfl⟩ := hy'
    simp only [Option.some.injEq, Prod.mk.injEq] at h'
    obtain ⟨rfl, rfl⟩ := h'
    have hk := hg k (List.mem_cons_self ..)
    have hlt := (List.getElem?_eq_some_iff.1 hk).1
    have hrun := run_alone k _ c gs _ hk
    rw [c129_same, hy] at hrun
    simp only [Option.map_some] at hrun
    obtain ⟨gs', b1, b2, b3⟩ := ih (gs := gs.set k ⟨y2, []⟩) hn.2 (fun j hj => by
      rw [List.getElem?_set_ne (by rintro rfl; exact hn.1 hj)]
      exact hg j (List.mem_cons_of_mem _ hj)) h
    refine ⟨gs', ?_, ?_, ?_⟩
    · rw [oneByOne, List.flatMap_cons, run_append, hrun]; exact b1
    · intro j hj
      simp only [List.mem_cons, not_or] at hj
      rw [b2 j hj.2, List.getElem?_set_ne (Ne.symm hj.1)]
    · intro i j e
      cases i with
      | zero =>
        simp only [List.getElem?_cons_zero, Option.some.injEq] at e
        subst e
        refine ⟨y2, ?_, ?_⟩
        · rw [b2 _ hn.1, List.getElem?_set_self hlt]
        · rw [List.getElem?_cons_zero, hcount]
      | succ i =>
        simp only [List.getElem?_cons_succ] at e
        rw [List.getElem?_cons_succ]
        exact b3 i j e

/-- What holds: when no call is interrupted by another, as with a lock around each, every goroutine gets the bytes
that the sequential generator delivers to the calls in that order, and the object ends in the same state.
Missing from the property: schedules that interleave calls (`c129_false`). -/
theorem c129_serial_partial (hw : Bool) (c : CtrDrbg) (h : Reached hw c) (calls : List (List Byte × List Byte)) (order : List Nat)
    (hn : order.Nodup) (hlt : ∀ j ∈ order, j < calls.length) :
    ∃ c' rs gs, Model.DRBG.run c (order.map fun j => .read (calls.getD j ([], [])).1 (calls.getD j ([], [])).2) = some (c', rs) ∧
      run c (calls.map fun x => start x.1 x.2) (oneByOne calls order) = some (c', gs) ∧
      ∀ i j : Nat, order[i]? = some j → ∃ o, gs[j]? = some ⟨o, []⟩ ∧ rs[i]? = some (.bytes o o.length) := by
  obtain ⟨hs, s, k, hi, hr⟩ := reached_inv h
  obtain ⟨c', rs, a1, _⟩ := Props.DRBG.run_inv (order.map fun j => Call.read (calls.getD j ([], [])).1 (calls.getD j ([], [])).2) hi hr hs
  obtain ⟨gs, b1, _, b3⟩ := serial_aux calls order (gs := calls.map fun x => start x.1 x.2) hn (fun j hj => by
    rw [List.getElem?_map, List.getD_eq_getElem?_getD, List.getElem?_eq_getElem (hlt j hj)]; rfl) a1
  exact ⟨c', rs, gs, a1, b1, b3⟩

/-! ### cases -/

/-- A generator in use exists on every platform. -/
example (hw : Bool) : ∃ c, Reached hw c := by
  obtain ⟨c, rs, hc⟩ := Props.DRBG.c25_no_panic hw (List.replicate 32 0) [] [.read (List.replicate 5 0) []]
  exact ⟨c, _, _, _, _, hc⟩

/-- Three goroutines in the order 2, 0, 1. -/
example : [2, 0, 1].Nodup ∧ ∀ j ∈ [2, 0, 1], j < [([1, 2, 3], []), (List.replicate 40 0, [7]), ([], ([] : List Byte))].length := by decide

/-- A call on 40 bytes has two whole blocks, a remainder and an update. -/
example : (readAD 40 []).length = 21 ∧ (readAD 40 [7]).length = 33 := by decide

end Props.DRBGShared
