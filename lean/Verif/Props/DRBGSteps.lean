import Mathlib.Data.List.Forall2
import Verif.Lemmas.DRBGSteps
import Verif.Props.DRBGSeed
/-!
C121: the steps of the generator.  `runT` (`Verif/Model/DRBGSteps.lean`) is a sequence of calls together with the list of everything an
observer sees of drbg/ctr_drbg.go: outcomes of conditions, lengths of copies, calls of the block cipher.  `outer` leaves out the conditions
inside the increment of the counter.
-/
namespace Props.DRBGSteps
open Model Model.DRBG Model.DRBG.Steps Model.Steps Lemmas.Steps Lemmas.DRBG Lemmas.DRBGSteps Props.DRBG

/-- The same call with strings of the same lengths. -/
def SameShape : Call → Call → Prop
  | .init e p, .init e' p' => e.length = e'.length ∧ p.length = p'.length
  | .reseed e d, .reseed e' d' => e.length = e'.length ∧ d.length = d'.length
  | .read out ad, .read out' ad' => out.length = out'.length ∧ ad.length = ad'.length
  | _, _ => False

/-- Recording the steps changes no result. -/
theorem c121_value (c : CtrDrbg) (h : List Call) : (runT c h).val = run c h := runT_val h c

/-- The full statement: the steps depend on the calls made and on lengths only. -/
def StepsHideAll : Prop := ∀ (hw : Bool) (h h' : List Call), List.Forall₂ SameShape h h' → (∃ e p cs, h = .init e p :: cs) →
  (runT (new hw) h).log = (runT (new hw) h').log

theorem seedLog_congr {e e' o o' : List Byte} (h : e.length = e'.length) (ho : o.length = o'.length) : seedLog e o = seedLog e' o' := by
  rw [seedLog, seedLog, h, ho]

theorem callLog_congr {x y : Call} (h : SameShape x y) (n : Nat) : callLog n x = callLog n y := by
  cases x <;> cases y <;> first | exact absurd h id | skip
  · obtain ⟨h1, h2⟩ := h
    rw [callLog, callLog, h1, seedLog_congr h1 h2]
  · obtain ⟨h1, h2⟩ := h
    rw [callLog, callLog, seedLog_congr h1 h2]
  · obtain ⟨h1, h2⟩ := h
    rw [callLog, callLog, h1, h2]

theorem run_outer {cs cs' : List Call} (hs : List.Forall₂ SameShape cs cs') : ∀ {c c' : CtrDrbg} {s s' : Spec.DRBG.State} {k k' : List Byte},
    Inv c s → Ready c.blockEnc k → c.strength = 256 → Inv c' s' → Ready c'.blockEnc k' → c'.strength = 256 →
    (runT c cs).log.filter outer = (runT c' cs').log.filter outer := by
  induction hs with
  | nil => intros; rfl
  | @cons x y cs cs' hxy _ ih =>
    intro c c' s s' k k' h1 h2 h3 h4 h5 h6
    obtain ⟨c1, r1, a1, a2, s1, k1, a3, a4⟩ := call_inv h1 h2 h3 x
    obtain ⟨c2, r2, b1, b2, s2, k2, b3, b4⟩ := call_inv h4 h5 h6 y
    obtain ⟨d1, q1, e1, -⟩ := run_inv cs a3 a4 a2
    obtain ⟨d2, q2, e2, -⟩ := run_inv cs' b3 b4 b2
    rw [runT, runT, log_some ((callT_val _ _).trans a1), log_some ((callT_val _ _).trans b1), log_some ((runT_val _ _).trans e1),
      log_some ((runT_val _ _).trans e2), List.filter_append, List.filter_append, List.filter_append, List.filter_append,
      callT_outer h1 a1, callT_outer h4 b1, ih a3 a4 a2 b3 b4 b2, h3, h6, callLog_congr hxy]
    rfl

/-- C121, what holds: two generators, on hardware with or without AES instructions, given entropy, data and requests of the same lengths,
take the same steps except inside the increment of the counter.  Missing: the increment (`c121_full_false`). -/
theorem c121_steps_partial (hw hw' : Bool) (e e' p p' : List Byte) (he : e.length = e'.length) (hp : p.length = p'.length) (cs cs' : List Call)
    (hs : List.Forall₂ SameShape cs cs') :
    (runT (new hw) (.init e p :: cs)).log.filter outer = (runT (new hw') (.init e' p' :: cs')).log.filter outer := by
  obtain ⟨c1, a1, a2, a3, a4⟩ := init_eq (new_inv hw) e p (new_ok hw e)
  obtain ⟨c2, b1, b2, b3, b4⟩ := init_eq (new_inv hw') e' p' (new_ok hw' e')
  obtain ⟨d1, q1, e1, -⟩ := run_inv cs a2 a3 a4
  obtain ⟨d2, q2, e2, -⟩ := run_inv cs' b2 b3 b4
  have f1 : call (new hw) (.init e p) = some (c1, .inited true) := by rw [call, a1]; rfl
  have f2 : call (new hw') (.init e' p') = some (c2, .inited true) := by rw [call, b1]; rfl
  rw [runT, runT, log_some ((callT_val _ _).trans f1), log_some ((callT_val _ _).trans f2), log_some ((runT_val _ _).trans e1),
    log_some ((runT_val _ _).trans e2), List.filter_append, List.filter_append, List.filter_append, List.filter_append,
    callT_outer (new_inv hw) f1, callT_outer (new_inv hw') f2, run_outer hs a2 a3 a4 b2 b3 b4,
    show (new hw).strength = (new hw').strength from rfl, callLog_congr (show SameShape (.init e p) (.init e' p') from ⟨he, hp⟩)]
  rfl

theorem incLoopT_carry (n : Nat) : ∀ v, ∀ x ∈ (incLoopT v n).log, outer x = false := by
  intro v x hx
  have := incLoopT_outer n v
  rw [List.filter_eq_nil_iff] at this
  simpa using this x hx

theorem read_log {c : CtrDrbg} {s : Spec.DRBG.State} {k : List Byte} (h : Inv c s) (hr : Ready c.blockEnc k) {out : List Byte} (ho : 16 ≤ out.length) :
    ∃ rest, (callT c (.read out [])).log = [.test false, .test true] ++ (incT c).log ++ .setKey :: rest := by
  obtain ⟨b, b1, -, -⟩ := iter h
  obtain ⟨n, hn⟩ : ∃ n, out.length / 16 = n + 1 := ⟨out.length / 16 - 1, by omega⟩
  have key : ∀ (α : Type) (m : T Ev α) (f : α → T Ev (CtrDrbg × Res)), (∃ r1, m.log = [.test false, .test true] ++ (incT c).log ++ .setKey :: r1) →
      ∃ r2, (m >>= f).log = [.test false, .test true] ++ (incT c).log ++ .setKey :: r2 := by
    rintro α m f ⟨r1, h1⟩
    obtain ⟨r, hr⟩ := log_bind_ex m f
    exact ⟨r1 ++ r, by rw [hr, h1]; simp⟩
  have key' : ∀ (α : Type) (m : T Ev α) (f : α → T Ev (CtrDrbg × List Byte × Nat)), (∃ r1, m.log = [.test true] ++ (incT c).log ++ .setKey :: r1) →
      ∃ r2, (m >>= f).log = [.test true] ++ (incT c).log ++ .setKey :: r2 := by
    rintro α m f ⟨r1, h1⟩
    obtain ⟨r, hr⟩ := log_bind_ex m f
    exact ⟨r1 ++ r, by rw [hr, h1]; simp⟩
  rw [callT]
  apply key
  rw [readADT]
  have hpre : ∀ sb, (readPreT c [] sb).val = some c := fun sb => rfl
  have hplog : ∀ sb, (readPreT c [] sb).log = [.test false] := fun sb => rfl
  simp only
  rw [log_some (hpre _), hplog]
  suffices hh : ∃ r1, (readLoopT c out 0 (out.length / 16)).log = [.test true] ++ (incT c).log ++ .setKey :: r1 by
    obtain ⟨r2, h2⟩ := key' _ _ _ hh
    rw [h2]
    exact ⟨r2, by simp⟩
  rw [hn, readLoopT, log_some (val_tell _), log_some (incT_val c), log_some ((val_lift _ _).trans b1)]
  exact ⟨_, by rw [List.append_assoc]; rfl⟩

theorem takeWhile_carry {l r : List Ev} (h : ∀ x ∈ l, outer x = false) : (l ++ .setKey :: r).takeWhile (fun x => !outer x) = l := by
  rw [List.takeWhile_append_of_pos (by intro x hx; rw [h x hx]; rfl)]
  rw [List.takeWhile_cons]
  simp [outer]

/-- C121. What the steps of a request of at least one block give away: how many bytes at the end of V, the secret counter, are 0xff. -/
theorem c121_reveals (hw hw' : Bool) (c c' : CtrDrbg) (h : Reached hw c) (h' : Reached hw' c') (out out' : List Byte) (ho : 16 ≤ out.length)
    (ho' : 16 ≤ out'.length) (e : (callT c (.read out [])).log = (callT c' (.read out' [])).log) : trailing c.v = trailing c'.v := by
  obtain ⟨_, s, k, hi, hr⟩ := reached_inv h
  obtain ⟨_, s', k', hi', hr'⟩ := reached_inv h'
  obtain ⟨r, e1⟩ := read_log hi hr ho
  obtain ⟨r', e2⟩ := read_log hi' hr' ho'
  rw [e1, e2, List.append_assoc, List.append_assoc] at e
  have e := congrArg (List.takeWhile fun x => !outer x) (List.append_cancel_left e)
  rw [takeWhile_carry (by rw [incT_log]; exact incLoopT_carry _ _), takeWhile_carry (by rw [incT_log]; exact incLoopT_carry _ _)] at e
  exact incT_reveals (by rw [hi.v, be_length]) (by rw [hi'.v, be_length]) e

theorem updateT_log {c c1 : CtrDrbg} {d : List Byte} (h : update c d = some c1) :
    (updateT c d).log = [.test false] ++ ((updateLoopT c 0 3).log ++ (loopLog 48 ++ ([.copy 32, .copy 16] ++ []))) := by
  rw [update] at h
  split at h
  · cases h
  rename_i hd
  simp only [Option.bind_eq_bind, Option.bind_eq_some_iff] at h
  obtain ⟨c1, h1, h2⟩ := h
  rw [updateT, log_some (val_tell _), if_neg hd, log_some (show (updateLoopT c 0 3).val = some c1 by rw [updateLoopT_val, h1]), log_some (val_tell _)]
  simp only
  rw [log_some (val_tell _), decide_eq_false hd]
  rfl

theorem init_log (hw : Bool) {e e' p p' : List Byte} (he : e.length = e'.length) (hp : p.length = p'.length) :
    (callT (new hw) (.init e p)).log = (callT (new hw) (.init e' p')).log := by
  have key : ∀ e p : List Byte, (callT (new hw) (.init e p)).log = [.test false] ++ (seedLog e p ++ ([.setKey] ++
      (match (new hw).blockEnc.setKey (new hw).key with
       | none => []
       | some b => ([.test false] ++ ((updateLoopT { new hw with strength := 256, blockEnc := b } 0 3).log ++ (loopLog 48 ++ ([.copy 32, .copy 16] ++ []))))))) := by
    intro e p
    obtain ⟨c1, a1, -⟩ := init_eq (new_inv hw) e p (new_ok hw e)
    rw [callT, log_some ((initT_val _ _ _).trans a1)]
    rw [init, if_neg (Nat.not_lt.mpr (new_ok hw e))] at a1
    simp only [Option.bind_eq_bind, Option.bind_eq_some_iff] at a1
    obtain ⟨b, h1, c2, h2, -⟩ := a1
    rw [initT, log_some (val_tell _), if_neg (Nat.not_lt.mpr (new_ok hw e)), log_some (val_tell _)]
    simp only
    rw [log_some ((val_lift _ _).trans h1), log_some ((updateT_val _ _).trans h2), updateT_log h2, h1]
    rw [decide_eq_false (Nat.not_lt.mpr (new_ok hw e))]
    simp only [pure, T.log, List.append_nil]
    rfl
  rw [key, key, seedLog_congr he hp]

theorem seed_nil {e : List Byte} (h : e.length = 48) : Spec.DRBG.seed e [] = e := by
  have h1 : Spec.DRBG.pad48 e = e := by
    rw [Spec.DRBG.pad48, List.take_of_length_le (by omega), h]
    exact List.append_nil _
  rw [Spec.DRBG.seed, h1, show Spec.DRBG.pad48 [] = List.replicate e.length 0 by rw [h]; rfl, zipWith_zero]

/-- With suitable entropy V is any string of 16 equal bytes. -/
theorem reach_v (hw : Bool) (b : Byte) : ∃ (e : List Byte) (c : CtrDrbg), e.length = 48 ∧ init (new hw) e [] = some (c, true) ∧ c.v = List.replicate 16 b := by
  let X := (Spec.DRBG.blocks 3 ⟨List.replicate 32 0, 0⟩).1
  have hX : X.length = 48 := blocks_length 3 _
  have hl : (X.map (· ^^^ b)).length = 48 := by rw [List.length_map, hX]
  obtain ⟨c, a1, a2, -⟩ := init_eq (new_inv hw) (X.map (· ^^^ b)) [] (new_ok hw _)
  refine ⟨X.map (· ^^^ b), c, hl, a1, ?_⟩
  have hz : List.zipWith (· ^^^ ·) X (X.map (· ^^^ b)) = List.replicate 48 b := by
    rw [← hX]
    clear_value X
    clear a1 a2 hl hX
    induction X with
    | nil => rfl
    | cons x X ih =>
      rw [List.map_cons, List.zipWith_cons_cons, ih, List.length_cons, List.replicate_succ, ← BitVec.xor_assoc, BitVec.xor_self, BitVec.zero_xor]
  rw [a2.v, seed_nil hl, spec_update]
  simp only
  rw [show (Spec.DRBG.blocks 3 ⟨List.replicate 32 0, 0⟩).1 = X from rfl, hz, List.drop_replicate]
  have := be_num (List.replicate (48 - 32) b)
  rwa [List.length_replicate] at this

/-- C121, the full claim is false: there are two strings of 48 bytes of entropy such that the steps of a request for 16 bytes differ. -/
theorem c121_full_false (hw : Bool) : ∃ e e' : List Byte, e.length = 48 ∧ e'.length = 48 ∧
    (runT (new hw) [.init e [], .read (List.replicate 16 0) []]).log ≠ (runT (new hw) [.init e' [], .read (List.replicate 16 0) []]).log := by
  obtain ⟨e, c, h1, h2, h3⟩ := reach_v hw 0
  obtain ⟨e', c', h1', h2', h3'⟩ := reach_v hw 0xff
  refine ⟨e, e', h1, h1', fun h => ?_⟩
  have f1 : call (new hw) (.init e []) = some (c, .inited true) := by rw [call, h2]; rfl
  have f2 : call (new hw) (.init e' []) = some (c', .inited true) := by rw [call, h2']; rfl
  have r1 : Reached hw c := ⟨e, [], [], [.inited true], by rw [run, f1]; rfl⟩
  have r2 : Reached hw c' := ⟨e', [], [], [.inited true], by rw [run, f2]; rfl⟩
  obtain ⟨g1, s, k, hi, hr⟩ := reached_inv r1
  obtain ⟨g2, s', k', hi', hr'⟩ := reached_inv r2
  obtain ⟨d, x, e1, -⟩ := call_inv hi hr g1 (.read (List.replicate 16 0) [])
  obtain ⟨d', x', e1', -⟩ := call_inv hi' hr' g2 (.read (List.replicate 16 0) [])
  have l1 : ∀ (c : CtrDrbg) (d : CtrDrbg) (x : Res), call c (.read (List.replicate 16 0) []) = some (d, x) →
      (runT c [.read (List.replicate 16 0) []]).log = (callT c (.read (List.replicate 16 0) [])).log := by
    intro c d x hc
    rw [runT, log_some ((callT_val _ _).trans hc)]
    exact List.append_nil _
  have v1 : ∀ (c d : CtrDrbg) (x : Res), call c (.read (List.replicate 16 0) []) = some (d, x) → (runT c [.read (List.replicate 16 0) []]).val = some (d, [x]) := by
    intro c d x hc
    rw [runT_val, run, hc]; rfl
  rw [runT, runT, log_some ((callT_val _ _).trans f1), log_some ((callT_val _ _).trans f2), log_some (v1 _ _ _ e1), log_some (v1 _ _ _ e1'),
    l1 _ _ _ e1, l1 _ _ _ e1', init_log hw (h1.trans h1'.symm) rfl] at h
  have h := List.append_cancel_left h
  simp only [pure, T.log, List.append_nil] at h
  have := c121_reveals hw hw c c' r1 r2 _ _ (by simp) (by simp) h
  rw [h3, h3'] at this
  exact absurd this (by decide)

theorem c121_not_hidden : ¬ StepsHideAll := by
  intro h
  obtain ⟨e, e', h1, h2, h3⟩ := c121_full_false true
  exact h3 (h true _ _ (.cons ⟨h1.trans h2.symm, rfl⟩ (.cons ⟨rfl, rfl⟩ .nil)) ⟨_, _, _, rfl⟩)

/-- Hypotheses met. -/
example : List.Forall₂ SameShape [.read (List.replicate 40 0) [1, 2], .reseed (List.replicate 48 9) []]
    [.read (List.replicate 40 1) [3, 4], .reseed (List.replicate 48 8) []] :=
  .cons ⟨rfl, rfl⟩ (.cons ⟨rfl, rfl⟩ .nil)
example (hw : Bool) : ∃ e c, init (new hw) e [] = some (c, true) ∧ trailing c.v = 16 := by
  obtain ⟨e, c, -, h2, h3⟩ := reach_v hw 0xff
  exact ⟨e, c, h2, by rw [h3]; decide⟩

/-- The steps of an increment with one carry. -/
example : (incLoopT (List.replicate 15 7 ++ [0xff]) 16).log = [.carry true, .carry true, .carry true, .carry false] := by decide +kernel

end Props.DRBGSteps
