import Verif.Lemmas.DRBG
import Verif.Lemmas.Steps
import Verif.Model.DRBGSteps
/-
The recorded functions of the generator have the values of Model/DRBG.lean; what their steps are.
-/
namespace Lemmas.DRBGSteps
open Model Model.DRBG Model.DRBG.Steps Model.Steps Lemmas.Steps Lemmas.DRBG

/-! ### values -/

theorem incLoopT_val (n : Nat) : ∀ v, (incLoopT v n).val = some (incLoop v n) := by
  induction n with
  | zero => intro v; rfl
  | succ n ih =>
    intro v
    rw [incLoopT, incLoop, val_tell_bind]
    split
    · exact ih _
    · rfl

theorem incT_val (c : CtrDrbg) : (incT c).val = some (inc c) := by
  rw [incT, val_bind, incLoopT_val]; rfl

theorem updateLoopT_val (n : Nat) : ∀ c k, (updateLoopT c k n).val = updateLoop c k n := by
  induction n with
  | zero => intro c k; rfl
  | succ n ih =>
    intro c k
    rw [updateLoopT, updateLoop, val_tell_bind, val_bind, incT_val, Option.bind_some, val_bind, val_lift]
    change Option.bind _ _ = Option.bind _ _
    congr 1; funext b
    rw [val_bind, val_lift]
    change Option.bind _ _ = Option.bind _ _
    congr 1; funext t
    exact ih _ _

theorem updateT_val (c : CtrDrbg) (data : List Byte) : (updateT c data).val = update c data := by
  rw [updateT, update, val_tell_bind]
  split
  · rfl
  · rw [val_bind, updateLoopT_val]
    rfl

theorem initT_val (c : CtrDrbg) (e p : List Byte) : (initT c e p).val = init c e p := by
  rw [initT, init, val_tell_bind]
  split
  · rfl
  · rw [val_tell_bind]
    simp only
    rw [val_bind, val_lift]
    change Option.bind _ _ = Option.bind _ _
    congr 1; funext b
    rw [val_bind, updateT_val]
    rfl

theorem reseedT_val (c : CtrDrbg) (e d : List Byte) : (reseedT c e d).val = reseed c e d := by
  rw [reseedT, reseed, val_tell_bind, val_bind, updateT_val]
  rfl

theorem readLoopT_val (n : Nat) : ∀ c out i, (readLoopT c out i n).val = readLoop c out i n := by
  induction n with
  | zero => intro c out i; rfl
  | succ n ih =>
    intro c out i
    rw [readLoopT, readLoop, val_tell_bind, val_bind, incT_val, Option.bind_some, val_bind, val_lift]
    change Option.bind _ _ = Option.bind _ _
    congr 1; funext b
    rw [val_bind, val_lift]
    change Option.bind _ _ = Option.bind _ _
    congr 1; funext t
    exact ih _ _ _

theorem readPreT_val (c : CtrDrbg) (ad sb : List Byte) : (readPreT c ad sb).val = readPre c ad sb := by
  rw [readPreT, readPre, val_tell_bind]
  split
  · rw [val_tell_bind, updateT_val]
  · rfl

theorem readADT_val (c : CtrDrbg) (out ad : List Byte) : (readADT c out ad).val = readAD c out ad := by
  rw [readADT, readAD]
  simp only
  rw [val_bind, readPreT_val]
  change Option.bind _ _ = Option.bind _ _
  congr 1; funext c
  rw [val_bind, readLoopT_val]
  change Option.bind _ _ = Option.bind _ _
  congr 1; funext r
  rw [val_bind, val_lift]
  change Option.bind _ _ = Option.bind _ _
  congr 1; funext t
  rw [val_tell_bind, val_bind, updateT_val]
  rfl

theorem callT_val (c : CtrDrbg) (x : Call) : (callT c x).val = call c x := by
  cases x with
  | init e p =>
    rw [callT, call, val_bind, initT_val]
    cases init c e p <;> rfl
  | reseed e d =>
    rw [callT, call, val_bind, reseedT_val]
    cases reseed c e d <;> rfl
  | read out ad =>
    rw [callT, call, val_bind, readADT_val]
    cases readAD c out ad <;> rfl

theorem runT_val (xs : List Call) : ∀ c, (runT c xs).val = run c xs := by
  induction xs with
  | nil => intro c; rfl
  | cons x xs ih =>
    intro c
    rw [runT, run, val_bind, callT_val]
    change Option.bind _ _ = Option.bind _ _
    congr 1; funext r
    rw [val_bind, ih]
    rfl

/-! ### steps -/

theorem log_some {α β : Type} {m : T Ev α} {f : α → T Ev β} {a : α} (h : m.val = some a) : (m >>= f).log = m.log ++ (f a).log := by
  obtain ⟨v, l⟩ := m
  change v = some a at h
  subst h
  rfl

/-- Not a condition of `inc`. -/
def outer : Ev → Bool
  | .carry _ => false
  | _ => true

theorem incLoopT_outer (n : Nat) : ∀ v, (incLoopT v n).log.filter outer = [] := by
  induction n with
  | zero => intro v; rfl
  | succ n ih =>
    intro v
    rw [incLoopT, log_some (val_tell _)]
    rw [List.filter_append]
    split
    · rw [ih]; rfl
    · rfl

theorem incT_outer (c : CtrDrbg) : (incT c).log.filter outer = [] := by
  rw [incT, log_some (incLoopT_val _ _), List.filter_append, incLoopT_outer]; rfl

/-- What is seen, apart from `inc`, of a loop over `n` blocks. -/
def blocksLog (n : Nat) : List Ev := (List.replicate n [.test true, .setKey, .encrypt]).flatten ++ [.test false]

theorem blocksLog_succ (n : Nat) : blocksLog (n + 1) = [.test true, .setKey, .encrypt] ++ blocksLog n := by
  rw [blocksLog, List.replicate_succ, List.flatten_cons, List.append_assoc, ← blocksLog]

theorem updateLoopT_outer (n : Nat) : ∀ (c c' : CtrDrbg) (k : Nat), updateLoop c k n = some c' → (updateLoopT c k n).log.filter outer = blocksLog n := by
  induction n with
  | zero => intro c c' k _; rfl
  | succ n ih =>
    intro c c' k h
    rw [updateLoop] at h
    simp only [Option.bind_eq_bind, Option.bind_eq_some_iff] at h
    obtain ⟨b, h1, t, h2, h3⟩ := h
    rw [updateLoopT, log_some (val_tell _), log_some (incT_val c), log_some ((val_lift _ _).trans h1),
      log_some ((val_lift _ _).trans h2), List.filter_append, List.filter_append, List.filter_append, List.filter_append,
      incT_outer, ih _ _ _ h3, blocksLog_succ]
    rfl

theorem readLoopT_outer (n : Nat) : ∀ (c : CtrDrbg) (out : List Byte) (r : CtrDrbg × List Byte) (i : Nat), readLoop c out i n = some r →
    (readLoopT c out i n).log.filter outer = blocksLog n := by
  induction n with
  | zero => intro c out r i _; rfl
  | succ n ih =>
    intro c out r i h
    rw [readLoop] at h
    simp only [Option.bind_eq_bind, Option.bind_eq_some_iff] at h
    obtain ⟨b, h1, t, h2, h3⟩ := h
    rw [readLoopT, log_some (val_tell _), log_some (incT_val c), log_some ((val_lift _ _).trans h1),
      log_some ((val_lift _ _).trans h2), List.filter_append, List.filter_append, List.filter_append, List.filter_append,
      incT_outer, ih _ _ _ _ h3, blocksLog_succ]
    rfl

/-- What is seen, apart from `inc`, of `update`. -/
def updateLog : List Ev := [.test false] ++ blocksLog 3 ++ loopLog 48 ++ [.copy 32, .copy 16]

theorem updateT_outer {c c' : CtrDrbg} {data : List Byte} (h : update c data = some c') : (updateT c data).log.filter outer = updateLog := by
  rw [update] at h
  split at h
  · cases h
  rename_i hd
  simp only [Option.bind_eq_bind, Option.bind_eq_some_iff] at h
  obtain ⟨c1, h1, h2⟩ := h
  rw [updateT, log_some (val_tell _), if_neg hd, log_some (show (updateLoopT c 0 3).val = some c1 by rw [updateLoopT_val, h1]), log_some (val_tell _)]
  simp only
  rw [log_some (val_tell _), List.filter_append, List.filter_append, updateLoopT_outer _ _ _ _ h1, decide_eq_false hd]
  rfl

theorem filter_loopLog (n : Nat) : (loopLog n).filter outer = loopLog n := by
  rw [loopLog, List.filter_append, List.filter_replicate]
  rfl

theorem filter_seedLog (e o : List Byte) : (seedLog e o).filter outer = seedLog e o := by
  rw [seedLog, List.filter_append, filter_loopLog]
  rfl

/-- What is seen, apart from `inc`, of a call on a generator of this strength; only lengths count. -/
def callLog (strength : Nat) : Call → List Ev
  | .init e p => if e.length < strength / 8 then [.test true] else [.test false] ++ seedLog e p ++ [.setKey] ++ updateLog
  | .reseed e d => seedLog e d ++ updateLog
  | .read out ad =>
    (if 0 < ad.length then [.test true, .copy (min ad.length 48)] ++ updateLog else [.test false]) ++ blocksLog (out.length / 16) ++
      [.encrypt, .copy (out.length % 16)] ++ updateLog

theorem readLoop_length (n : Nat) : ∀ (c : CtrDrbg) (s : Spec.DRBG.State) (out : List Byte), Inv c s → 16 * n ≤ out.length →
    ∃ r, readLoop c out 0 n = some r ∧ r.2.length = out.length := by
  intro c s out h hn
  obtain ⟨c', e, -⟩ := readLoop_eq n c s out 0 h (by omega)
  refine ⟨_, e, ?_⟩
  simp only [List.length_append, blocks_length, List.length_take, List.length_drop]
  omega

theorem readPre_inv {c c' : CtrDrbg} {s : Spec.DRBG.State} (h : Inv c s) {ad sb : List Byte} (hs : sb.length = 48)
    (e : readPre c ad sb = some c') : ∃ s', Inv c' s' := by
  rw [readPre] at e
  split at e
  · obtain ⟨c1, e1, e2, -⟩ := update_eq h sb hs
    cases e1.symm.trans e
    exact ⟨_, e2⟩
  · cases e
    exact ⟨s, h⟩

theorem callT_outer {c : CtrDrbg} {s : Spec.DRBG.State} (hi : Inv c s) {x : Call} {r : CtrDrbg × Res} (h : call c x = some r) :
    (callT c x).log.filter outer = callLog c.strength x := by
  cases x with
  | init e p =>
    rw [call, Option.map_eq_some_iff] at h
    obtain ⟨q, h, -⟩ := h
    rw [callT, log_some ((initT_val c e p).trans h), List.filter_append]
    rw [show (pure (q.1, Res.inited q.2) : T Ev (CtrDrbg × Res)).log.filter outer = [] from rfl, List.append_nil, callLog]
    rw [init] at h
    rw [initT, log_some (val_tell _)]
    by_cases hc : e.length < c.strength / 8
    · rw [if_pos hc, if_pos hc, decide_eq_true hc]; rfl
    · rw [if_neg hc] at h
      rw [if_neg hc, if_neg hc, decide_eq_false hc, log_some (val_tell _)]
      simp only [Option.bind_eq_bind, Option.bind_eq_some_iff] at h
      obtain ⟨b, h1, c1, h2, -⟩ := h
      simp only
      rw [log_some ((val_lift _ _).trans h1), log_some ((updateT_val _ _).trans h2), List.filter_append, List.filter_append, List.filter_append,
        List.filter_append, updateT_outer h2, show (tell (seedLog e p)).log = seedLog e p from rfl, filter_seedLog]
      simp only [List.append_assoc]
      rfl
  | reseed e d =>
    rw [call, Option.map_eq_some_iff] at h
    obtain ⟨q, h, -⟩ := h
    rw [callT, log_some ((reseedT_val c e d).trans h), List.filter_append]
    rw [show (pure (q, Res.unit) : T Ev (CtrDrbg × Res)).log.filter outer = [] from rfl, List.append_nil, callLog]
    rw [reseed] at h
    simp only [Option.bind_eq_bind, Option.bind_eq_some_iff] at h
    obtain ⟨c1, h2, -⟩ := h
    rw [reseedT, log_some (val_tell _), log_some ((updateT_val _ _).trans h2), List.filter_append, List.filter_append, updateT_outer h2,
      show (tell (seedLog e d)).log = seedLog e d from rfl, filter_seedLog]
    rw [show (pure { c1 with counter := 1 } : T Ev CtrDrbg).log.filter outer = [] from rfl, List.append_nil]
  | read out ad =>
    rw [call, Option.map_eq_some_iff] at h
    obtain ⟨q, h, -⟩ := h
    rw [callT, log_some ((readADT_val c out ad).trans h), List.filter_append]
    rw [show (pure (q.1, Res.bytes q.2.1 q.2.2) : T Ev (CtrDrbg × Res)).log.filter outer = [] from rfl, List.append_nil, callLog]
    rw [readAD] at h
    rw [readADT]
    simp only [Option.bind_eq_bind, Option.bind_eq_some_iff] at h ⊢
    have hsb : (if 0 < ad.length then ad.take 48 ++ List.replicate (48 - (ad.take 48).length) 0 else List.replicate 48 (0 : Byte)).length = 48 := by
      split
      · rw [List.length_append, List.length_replicate, List.length_take]; omega
      · exact List.length_replicate
    generalize (if 0 < ad.length then ad.take 48 ++ List.replicate (48 - (ad.take 48).length) 0 else List.replicate 48 (0 : Byte)) = sb at h hsb ⊢
    obtain ⟨c1, h1, c2, h2, t, h3, c3, h4, -⟩ := h
    obtain ⟨s1, hi1⟩ := readPre_inv hi hsb h1
    obtain ⟨r, hr, hl⟩ := readLoop_length (out.length / 16) c1 s1 out hi1 (by omega)
    have hr2 : c2 = r := Option.some.inj (h2.symm.trans hr)
    subst hr2
    rw [log_some ((readPreT_val _ _ _).trans h1), log_some ((readLoopT_val _ _ _ _).trans h2), log_some ((val_lift _ _).trans h3),
      log_some (val_tell _), log_some ((updateT_val _ _).trans h4), List.filter_append, List.filter_append, List.filter_append,
      List.filter_append, List.filter_append, readLoopT_outer _ _ _ _ _ h2, updateT_outer h4, hl]
    have hp : (readPreT c ad sb).log.filter outer =
        if 0 < ad.length then [.test true, .copy (min ad.length 48)] ++ updateLog else [.test false] := by
      rw [readPre] at h1
      rw [readPreT, log_some (val_tell _), List.filter_append]
      by_cases ha : 0 < ad.length
      · rw [if_pos ha] at h1
        rw [if_pos ha, if_pos ha, decide_eq_true ha, log_some (val_tell _), List.filter_append, updateT_outer h1]
        rfl
      · rw [if_neg ha, if_neg ha, decide_eq_false ha]
        rfl
    rw [hp]
    simp only [List.append_assoc]
    rfl

/-! ### `inc` -/

/-- The number of bytes 0xff at the end. -/
def trailing (v : List Byte) : Nat := (v.reverse.takeWhile (· == 0xff)).length

theorem incLoopT_append (l r : List Byte) : ∀ n, n ≤ l.length → (incLoopT (l ++ r) n).log = (incLoopT l n).log := by
  intro n
  induction n generalizing l with
  | zero => intro _; rfl
  | succ n ih =>
    intro hn
    have hg : (l ++ r).getD n 0 = l.getD n 0 := by
      rw [List.getD_eq_getElem?_getD, List.getD_eq_getElem?_getD, List.getElem?_append_left (by omega)]
    rw [incLoopT, incLoopT, log_some (val_tell _), log_some (val_tell _), hg]
    congr 1
    split
    · rw [List.set_append_left _ _ (by omega), ih _ (by rw [List.length_set]; omega)]
    · rfl

theorem incLoopT_length (v : List Byte) : (incLoopT v v.length).log.length = if trailing v = v.length then 2 * v.length + 1 else 2 * trailing v + 2 := by
  induction v using snocInd with
  | h0 => rfl
  | h1 l b ih =>
    have hg : (l ++ [b]).getD l.length 0 = b := by simp
    have hs : ∀ x, (l ++ [b]).set l.length x = l ++ [x] := by
      intro x; rw [List.set_append_right _ _ (Nat.le_refl _)]; simp
    have ht : trailing (l ++ [b]) = if b = 0xff then trailing l + 1 else 0 := by
      rw [trailing, List.reverse_append, List.reverse_singleton, List.singleton_append, List.takeWhile_cons]
      by_cases hb : b = 0xff
      · subst hb; simp [trailing]
      · rw [if_neg (by simpa using hb), if_neg hb]; rfl
    rw [List.length_append, List.length_singleton, incLoopT, log_some (val_tell _), hg, hs, hs, ht]
    by_cases hb : b = 0xff
    · rw [if_pos hb, if_pos hb, List.length_append, incLoopT_append _ _ _ (Nat.le_refl _), ih]
      change 2 + _ = _
      split
      · rename_i h; rw [if_pos (by omega)]; omega
      · rename_i h; rw [if_neg (by omega)]; omega
    · rw [if_neg hb, if_neg hb, if_neg (by omega)]
      rfl

theorem trailing_le (v : List Byte) : trailing v ≤ v.length := by
  have := (List.takeWhile_sublist (l := v.reverse) (· == 0xff)).length_le
  rwa [List.length_reverse] at this

theorem incT_log (c : CtrDrbg) : (incT c).log = (incLoopT c.v 16).log := by
  rw [incT, log_some (incLoopT_val _ _)]
  exact List.append_nil _

/-- The number of steps of `inc` tells how many bytes at the end of V are 0xff. -/
theorem incT_reveals {c c' : CtrDrbg} (h : c.v.length = 16) (h' : c'.v.length = 16) (e : (incT c).log = (incT c').log) :
    trailing c.v = trailing c'.v := by
  have e1 := incLoopT_length c.v
  have e2 := incLoopT_length c'.v
  rw [h, ← incT_log, e] at e1
  rw [h', ← incT_log, e1] at e2
  have := trailing_le c.v
  have := trailing_le c'.v
  split at e2 <;> split at e2 <;> omega

end Lemmas.DRBGSteps
