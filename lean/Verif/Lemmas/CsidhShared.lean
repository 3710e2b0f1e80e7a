import Verif.Model.CsidhShared
import Verif.Lemmas.ReaderCsidh
/-
Helper lemmas for goroutines that share a CSIDH public key.
-/
namespace Lemmas.CsidhShared
open Model Model.Csidh Model.CsidhShared

variable {α : Type}

/-! ### one call among others -/

/-- `Reach q bs q'`: the call q gets to q' and has read the bytes bs meanwhile, whatever was written by others. -/
inductive Reach : Proc α → List Byte → Proc α → Prop
  | refl (q : Proc α) : Reach q [] q
  | write {i : Nat} {b : Byte} {k : Proc α} {bs : List Byte} {q : Proc α} (h : Reach k bs q) : Reach (.write i b k) bs q
  | read {i : Nat} {b : Byte} {k : Byte → Proc α} {bs : List Byte} {q : Proc α} (h : Reach (k b) bs q) : Reach (.read i k) (b :: bs) q

theorem reach_act (B : List Byte) {q q' : Proc α} {bs : List Byte} (h : Reach (act B q).2 bs q') : ∃ bs', Reach q bs' q' := by
  cases q with
  | ret a => exact ⟨bs, h⟩
  | panic => exact ⟨bs, h⟩
  | write i b k => exact ⟨bs, .write h⟩
  | read i k => exact ⟨_ :: bs, .read h⟩

theorem run_reach : ∀ (sched : List Nat) (s : List Byte × List (Proc α)), (run s sched).2.length = s.2.length ∧
    ∀ (j : Nat) q q', s.2[j]? = some q → (run s sched).2[j]? = some q' → ∃ bs, Reach q bs q'
  | [], s => ⟨rfl, fun j q q' h h' => ⟨[], by rw [show (run s []).2 = s.2 from rfl, h] at h'; cases h'; exact .refl q⟩⟩
  | t :: sched, s => by
    obtain ⟨h1, h2⟩ := run_reach sched (step s t)
    have hr : run s (t :: sched) = run (step s t) sched := rfl
    rw [hr]
    cases ht : s.2[t]? with
    | none =>
      have : step s t = s := by rw [step, ht]
      rw [this] at h1 h2 ⊢
      exact ⟨h1, h2⟩
    | some x =>
      have hs : step s t = ((act s.1 x).1, s.2.set t (act s.1 x).2) := by rw [step, ht]
      refine ⟨by rw [h1, hs, List.length_set], fun j q q' hq hq' => ?_⟩
      by_cases e : t = j
      · subst e
        rw [ht] at hq
        cases hq
        obtain ⟨bs, hb⟩ := h2 t (act s.1 x).2 q' (by
          rw [hs]
          simp only
          rw [List.getElem?_set_self (List.getElem?_eq_some_iff.mp ht).1]) hq'
        exact reach_act s.1 hb
      · exact h2 j q q' (by rw [hs]; simp only; rw [List.getElem?_set_ne e, hq]) hq'

/-- the call has ended -/
def Final : Proc α → Prop
  | .ret _ => True
  | .panic => True
  | _ => False

theorem reach_write : ∀ {w : List Byte} {i : Nat} {k q : Proc α} {bs : List Byte}, Final q → Reach (writeBuf w i k) bs q → Reach k bs q
  | [], _, _, _, _, _, h => h
  | _ :: _, _, _, _, _, hf, h => by
    cases h with
    | refl => exact hf.elim
    | write h => exact reach_write hf h

theorem reach_read : ∀ {n i : Nat} {k : List Byte → Proc α} {q : Proc α} {bs : List Byte}, Final q → Reach (readBuf n i k) bs q →
    ∃ b1 b2, bs = b1 ++ b2 ∧ b1.length = n ∧ Reach (k b1) b2 q
  | 0, _, _, _, bs, _, h => ⟨[], bs, rfl, rfl, h⟩
  | n + 1, i, k, q, bs, hf, h => by
    cases h with
    | refl => exact hf.elim
    | @read _ b _ bs _ h =>
      obtain ⟨b1, b2, rfl, hl, h⟩ := reach_read hf h
      exact ⟨b :: b1, b2, rfl, by simp [hl], h⟩

theorem reach_final {q q' : Proc α} {bs : List Byte} (hf : Final q) (h : Reach q bs q') : q' = q ∧ bs = [] := by
  cases h with
  | refl => exact ⟨rfl, rfl⟩
  | write => exact hf.elim
  | read => exact hf.elim

/-! ### the loop, alone -/

/-- the loop of `Validate`, for any judgement -/
def loop (f : Fp → Bool × Bool) (rng : List Byte) : Option (Bool × List Byte) :=
  match _hr : randFp rng with
  | none => none
  | some (x, rest) => if (f x).1 then some ((f x).2, rest) else loop f rest
termination_by rng.length
decreasing_by exact randFp_length rng _ _ _hr

theorem loop_eq (f : Fp → Bool × Bool) (rng : List Byte) : loop f rng =
    match randFp rng with
    | none => none
    | some (x, rest) => if (f x).1 then some ((f x).2, rest) else loop f rest := by
  rw [loop]
  split <;> simp_all

theorem loop_unique {τ : Type} (V : List Byte → Option (Bool × List Byte)) (g : Fp → Bool × Bool × τ) (f : Fp → Bool × Bool)
    (hs : ∀ (rng rest : List Byte) (x : Fp), randFp rng = some (x, rest) → V rng = if (g x).1 then some ((g x).2.1, rest) else V rest)
    (h0 : ∀ rng, randFp rng = none → V rng = none) (hj : ∀ x, f x = ((g x).1, (g x).2.1)) : ∀ (n : Nat) (rng : List Byte), rng.length ≤ n → V rng = loop f rng := by
  intro n
  induction n with
  | zero =>
    intro rng hn
    have : randFp rng = none := by rw [randFp, dif_pos (by omega)]
    rw [h0 _ this, loop_eq, this]
  | succ n ih =>
    intro rng hn
    rw [loop_eq]
    cases hr : randFp rng with
    | none => rw [h0 _ hr]
    | some r =>
      obtain ⟨x, rest⟩ := r
      have hl := randFp_length rng _ _ hr
      rw [hs _ _ _ hr, ih rest (by omega)]
      simp only [hj]

theorem judge_eq (a : Fp) : ∀ x, judge a x = ((Model.Reader.checkPoint a x).1, (Model.Reader.checkPoint a x).2.1) := fun _ => rfl

theorem validate_loop (a : Fp) (rng : List Byte) : Csidh.validateLoop a rng = loop (judge a) rng :=
  loop_unique (Csidh.validateLoop a) (Model.Reader.checkPoint a) (judge a) (Lemmas.ReaderCsidh.validateLoop_step a) (Lemmas.ReaderCsidh.validateLoop_none a) (judge_eq a) _ rng (Nat.le_refl _)

theorem rand_block (b X : List Byte) (hb : b.length = 64) : randFp (b ++ X) = if isLess (candidate b) p then some (candidate b, X) else randFp X := by
  rw [randFp, dif_neg (by rw [List.length_append]; omega), List.take_left' hb, List.drop_left' hb]

theorem loop_short (f : Fp → Bool × Bool) {X : List Byte} (h : X.length < 64) : loop f X = none := by
  rw [loop_eq, randFp, dif_pos h]

theorem loop_block (f : Fp → Bool × Bool) (b X : List Byte) (hb : b.length = 64) : loop f (b ++ X) =
    if isLess (candidate b) p then (if (f (candidate b)).1 then some ((f (candidate b)).2, X) else loop f X) else loop f X := by
  rw [loop_eq, rand_block b X hb]
  by_cases h : isLess (candidate b) p
  · rw [if_pos h, if_pos h]
  · rw [if_neg h, if_neg h, ← loop_eq]

theorem reach_loop (f : Fp → Bool × Bool) (k : Bool → List Byte → Proc α) : ∀ (n : Nat) (rng : List Byte) (bs : List Byte) (q : Proc α), n = rng.length / 64 → Final q →
    Reach (CsidhShared.validateLoop f k n rng) bs q →
    (∃ b1 b2 ok, bs = b1 ++ b2 ∧ b1.length ≤ rng.length ∧ (∀ X, loop f (b1 ++ X) = some (ok, X)) ∧ Reach (k ok (rng.drop b1.length)) b2 q) ∨
    (q = .panic ∧ bs.length ≤ rng.length ∧ loop f (bs ++ rng.drop bs.length) = none)
  | 0, rng, bs, q, hn, hf, h => by
    obtain ⟨rfl, rfl⟩ := reach_final (by trivial) (reach_write hf h)
    exact Or.inr ⟨rfl, Nat.zero_le _, loop_short f (by simp; omega)⟩
  | n + 1, rng, bs, q, hn, hf, h => by
    obtain ⟨b1, b2, rfl, hl, h⟩ := reach_read hf (reach_write hf h)
    have hlen : 64 ≤ rng.length := by omega
    have rec_ : Reach (CsidhShared.validateLoop f k n (rng.drop 64)) b2 q → (∀ X, loop f (b1 ++ X) = loop f X) →
        (∃ c1 c2 ok, b1 ++ b2 = c1 ++ c2 ∧ c1.length ≤ rng.length ∧ (∀ X, loop f (c1 ++ X) = some (ok, X)) ∧ Reach (k ok (rng.drop c1.length)) c2 q) ∨
        (q = .panic ∧ (b1 ++ b2).length ≤ rng.length ∧ loop f ((b1 ++ b2) ++ rng.drop (b1 ++ b2).length) = none) := by
      intro h hX
      rcases reach_loop f k n (rng.drop 64) b2 q (by rw [List.length_drop]; omega) hf h with ⟨c1, c2, ok, rfl, g1, g2, g3⟩ | ⟨rfl, g1, g2⟩
      · rw [List.length_drop] at g1
        rw [List.drop_drop] at g3
        refine Or.inl ⟨b1 ++ c1, c2, ok, by simp, by rw [List.length_append]; omega, fun X => by rw [List.append_assoc, hX, g2], ?_⟩
        rw [List.length_append, hl]
        exact g3
      · rw [List.length_drop] at g1
        rw [List.drop_drop] at g2
        refine Or.inr ⟨rfl, by rw [List.length_append]; omega, ?_⟩
        rw [List.append_assoc, hX, List.length_append, hl]
        exact g2
    by_cases hv : isLess (candidate b1) p
    · simp only [if_pos hv] at h
      by_cases hd : (f (candidate b1)).1
      · simp only [if_pos hd] at h
        exact Or.inl ⟨b1, b2, _, rfl, by omega, fun X => by rw [loop_block f b1 X hl, if_pos hv, if_pos hd], by rw [hl]; exact h⟩
      · simp only [if_neg hd] at h
        exact rec_ h fun X => by rw [loop_block f b1 X hl, if_pos hv, if_neg hd]
    · simp only [if_neg hv] at h
      exact rec_ h fun X => by rw [loop_block f b1 X hl, if_neg hv]

/-! ### a call ends after enough steps -/

/-- the call ends after at most n steps, whatever it reads -/
inductive Within : Nat → Proc α → Prop
  | final {n : Nat} {q : Proc α} (h : Final q) : Within n q
  | write {n i : Nat} {b : Byte} {k : Proc α} (h : Within n k) : Within (n + 1) (.write i b k)
  | read {n i : Nat} {k : Byte → Proc α} (h : ∀ b, Within n (k b)) : Within (n + 1) (.read i k)

theorem within_mono {n m : Nat} {q : Proc α} (h : Within n q) : n ≤ m → Within m q := by
  induction h generalizing m with
  | final h => exact fun _ => .final h
  | write _ ih =>
    intro hm
    obtain ⟨m, rfl⟩ : ∃ m', m = m' + 1 := ⟨m - 1, by omega⟩
    exact .write (ih (by omega))
  | read _ ih =>
    intro hm
    obtain ⟨m, rfl⟩ : ∃ m', m = m' + 1 := ⟨m - 1, by omega⟩
    exact .read fun b => ih b (by omega)

theorem within_writes {k : Proc α} {n : Nat} (h : Within n k) : ∀ (w : List Byte) (i : Nat), Within (n + w.length) (writeBuf w i k)
  | [], _ => h
  | _ :: w, i => .write (within_writes h w (i + 1))

theorem within_reads {n : Nat} : ∀ (m i : Nat) {k : List Byte → Proc α}, (∀ bs, Within n (k bs)) → Within (n + m) (readBuf m i k)
  | 0, _, _, h => h []
  | m + 1, i, _, h => .read fun b => within_reads m (i + 1) fun bs => h (b :: bs)

theorem within_loop (f : Fp → Bool × Bool) (k : Bool → List Byte → Proc α) (hk : ∀ ok r, Final (k ok r)) : ∀ (n : Nat) (rng : List Byte), n = rng.length / 64 →
    Within (2 * rng.length) (CsidhShared.validateLoop f k n rng)
  | 0, rng, _ => within_mono (within_writes (k := .panic) (.final (n := 0) trivial) rng 0) (by omega)
  | n + 1, rng, hn => by
    have ih := within_loop f k hk n (rng.drop 64) (by rw [List.length_drop]; omega)
    have hl : (rng.take 64).length = 64 := by rw [List.length_take]; omega
    refine within_mono (within_writes (within_reads (n := 2 * (rng.drop 64).length) 64 0 fun bs => ?_) (rng.take 64) 0) (by rw [List.length_drop, hl]; omega)
    simp only
    split
    · split
      · exact .final (hk _ _)
      · exact ih
    · exact ih

theorem within_act (B : List Byte) {n : Nat} {q : Proc α} (h : Within (n + 1) q) : Within n (act B q).2 := by
  cases h with
  | final h =>
    cases q with
    | ret => exact .final trivial
    | panic => exact .final trivial
    | write => exact h.elim
    | read => exact h.elim
  | write h => exact h
  | read h => exact h _

theorem run_within : ∀ (sched : List Nat) (s : List Byte × List (Proc α)) (n j : Nat) (q : Proc α), s.2[j]? = some q → Within n q → n ≤ sched.count j →
    ∃ q', (run s sched).2[j]? = some q' ∧ Final q'
  | [], s, n, j, q, hj, hw, hn => by
    have : n = 0 := by simpa using hn
    subst this
    cases hw with
    | final h => exact ⟨q, hj, h⟩
  | t :: sched, s, n, j, q, hj, hw, hn => by
    have hr : run s (t :: sched) = run (step s t) sched := rfl
    rw [hr]
    by_cases e : t = j
    · subst e
      rw [List.count_cons_self] at hn
      have hs : (step s t).2[t]? = some (act s.1 q).2 := by
        rw [step, hj]
        simp only
        rw [List.getElem?_set_self (List.getElem?_eq_some_iff.mp hj).1]
      exact run_within sched _ (n - 1) t _ hs (within_act s.1 (within_mono hw (by omega))) (by omega)
    · rw [List.count_cons_of_ne e] at hn
      have hs : (step s t).2[j]? = some q := by
        rw [step]
        split
        · exact hj
        · simp only
          rw [List.getElem?_set_ne e, hj]
      exact run_within sched _ n j q hs hw hn

/-! ### a call that is not disturbed -/

/-- how the call ends, and the buffer -/
def solo : Proc α → List Byte → Proc α × List Byte
  | .ret a, B => (.ret a, B)
  | .panic, B => (.panic, B)
  | .write i b k, B => solo k (B.set i b)
  | .read i k, B => solo (k (B.getD i 0)) B

theorem solo_act (B : List Byte) (q : Proc α) : solo (act B q).2 (act B q).1 = solo q B := by
  cases q <;> rfl

theorem solo_final {q : Proc α} (h : Final q) (B : List Byte) : solo q B = (q, B) := by
  cases q with
  | ret => rfl
  | panic => rfl
  | write => exact h.elim
  | read => exact h.elim

theorem run_solo : ∀ (n : Nat) (s : List Byte × List (Proc α)) (j : Nat) (q : Proc α), s.2[j]? = some q → Within n q →
    (run s (List.replicate n j)).2[j]? = some (solo q s.1).1
  | 0, s, j, q, hj, hw => by
    cases hw with
    | final h => rw [solo_final h]; exact hj
  | n + 1, s, j, q, hj, hw => by
    have hr : run s (List.replicate (n + 1) j) = run (step s j) (List.replicate n j) := rfl
    have hs : step s j = ((act s.1 q).1, s.2.set j (act s.1 q).2) := by rw [step, hj]
    rw [hr, ← solo_act s.1 q]
    have := run_solo n (step s j) j (act s.1 q).2 (by
      rw [hs]; simp only; rw [List.getElem?_set_self (List.getElem?_eq_some_iff.mp hj).1]) (within_act s.1 hw)
    rw [this, hs]

theorem solo_write (k : Proc α) : ∀ (w pre B : List Byte), solo (writeBuf w pre.length k) (pre ++ B) = solo k (pre ++ (w ++ B.drop w.length)) ∨ B.length < w.length
  | [], pre, B => Or.inl (by simp [writeBuf])
  | b :: w, pre, [] => Or.inr (by simp)
  | b :: w, pre, x :: B => by
    rcases solo_write k w (pre ++ [b]) B with h | h
    · left
      rw [writeBuf, solo, List.set_append_right _ _ (Nat.le_refl _), Nat.sub_self, List.set_cons_zero]
      simp only [List.length_append, List.length_cons, List.length_nil, List.append_assoc, List.cons_append, List.nil_append] at h
      rw [h]
      simp
    · exact Or.inr (by simp; omega)

theorem solo_read : ∀ (bs pre post : List Byte) (k : List Byte → Proc α), solo (readBuf bs.length pre.length k) (pre ++ (bs ++ post)) = solo (k bs) (pre ++ (bs ++ post))
  | [], pre, post, k => rfl
  | b :: bs, pre, post, k => by
    have := solo_read bs (pre ++ [b]) post fun l => k (b :: l)
    simp only [List.length_append, List.length_cons, List.length_nil, List.append_assoc, List.cons_append, List.nil_append] at this
    rw [List.length_cons, readBuf, solo]
    have hg : (pre ++ (b :: bs ++ post)).getD pre.length 0 = b := by
      rw [List.getD_eq_getElem?_getD, List.getElem?_append_right (Nat.le_refl _), Nat.sub_self]
      rfl
    rw [hg]
    exact this

theorem solo_block {w B : List Byte} (hw : w.length = 64) (hB : B.length = 64) (k : List Byte → Proc α) : solo (writeBuf w 0 (readBuf 64 0 k)) B = solo (k w) w := by
  rcases solo_write (readBuf 64 0 k) w [] B with h | h
  · have h2 := solo_read w [] [] k
    rw [hw, List.append_nil] at h2
    rw [List.drop_eq_nil_of_le (by omega), List.append_nil] at h
    exact h.trans h2
  · omega

theorem solo_panic (w : List Byte) : ∀ (i : Nat) (B : List Byte), (solo (writeBuf w i (.panic : Proc α)) B).1 = .panic := by
  induction w with
  | nil => intro i B; rfl
  | cons b w ih => intro i B; exact ih _ _

theorem solo_loop (f : Fp → Bool × Bool) (k : Bool → List Byte → Proc α) (hk : ∀ ok r, Final (k ok r)) : ∀ (n : Nat) (rng B : List Byte), n = rng.length / 64 → B.length = 64 →
    (solo (CsidhShared.validateLoop f k n rng) B).1 = match loop f rng with
      | none => .panic
      | some (ok, rest) => k ok rest
  | 0, rng, B, hn, _ => by
    rw [loop_short f (by omega)]
    exact solo_panic rng 0 B
  | n + 1, rng, B, hn, hB => by
    have hl : (rng.take 64).length = 64 := by rw [List.length_take]; omega
    have ih := solo_loop f k hk n (rng.drop 64) (rng.take 64) (by rw [List.length_drop]; omega) hl
    have hb := loop_block f (rng.take 64) (rng.drop 64) hl
    rw [List.take_append_drop] at hb
    rw [CsidhShared.validateLoop, solo_block hl hB, hb]
    simp only
    by_cases hv : isLess (candidate (rng.take 64)) p
    · rw [if_pos hv, if_pos hv]
      by_cases hd : (f (candidate (rng.take 64))).1
      · rw [if_pos hd, if_pos hd, solo_final (hk _ _)]
      · rw [if_neg hd, if_neg hd]; exact ih
    · rw [if_neg hv, if_neg hv]; exact ih

end Lemmas.CsidhShared
