import Verif.Model.DRBGShared
import Verif.Lemmas.DRBG
/-
Helper lemmas for a generator shared by goroutines.
-/
namespace Lemmas.DRBGShared
open Model Model.DRBGShared Lemmas.DRBG
open Model.DRBG (CtrDrbg)

/-! ### a call without interruption -/

theorem execAll_append (ss ts : List Stmt) : ∀ (c : CtrDrbg) (out : List Byte),
    execAll c out (ss ++ ts) = (execAll c out ss).bind fun x => execAll x.1 x.2 ts := by
  induction ss with
  | nil => intro c out; rfl
  | cons s ss ih =>
    intro c out
    rw [List.cons_append, execAll, execAll]
    cases exec c out s with
    | none => rfl
    | some x => exact ih x.1 x.2

theorem updateLoop_same (n : Nat) : ∀ (c : CtrDrbg) (out : List Byte) (k : Nat),
    execAll c out (updateLoop k n) = (Model.DRBG.updateLoop c k n).map (·, out) := by
  induction n with
  | zero => intro c out k; rfl
  | succ n ih =>
    intro c out k
    simp only [updateLoop, Model.DRBG.updateLoop, execAll, exec, Option.bind_eq_bind, Option.bind_some]
    cases (Model.DRBG.inc c).blockEnc.setKey (Model.DRBG.inc c).key with
    | none => rfl
    | some b =>
      simp only [Option.map_some, Option.bind_some]
      cases b.encrypt ((Model.DRBG.inc c).tmpBlk.drop (16 * k)) (Model.DRBG.inc c).v with
      | none => rfl
      | some t => exact ih _ _ _

theorem update_same (c : CtrDrbg) (out data : List Byte) (h : data.length = 48) :
    execAll c out (update data) = (Model.DRBG.update c data).map (·, out) := by
  rw [update, execAll_append, updateLoop_same, Model.DRBG.update, if_neg (by omega)]
  cases Model.DRBG.updateLoop c 0 3 with
  | none => rfl
  | some c => rfl

theorem readLoop_same (n : Nat) : ∀ (c : CtrDrbg) (out : List Byte) (i : Nat),
    execAll c out (readLoop i n) = Model.DRBG.readLoop c out i n := by
  induction n with
  | zero => intro c out k; rfl
  | succ n ih =>
    intro c out i
    simp only [readLoop, Model.DRBG.readLoop, execAll, exec, Option.bind_eq_bind, Option.bind_some]
    cases (Model.DRBG.inc c).blockEnc.setKey (Model.DRBG.inc c).key with
    | none => rfl
    | some b =>
      simp only [Option.map_some, Option.bind_some]
      cases b.encrypt (out.drop (16 * i)) (Model.DRBG.inc c).v with
      | none => rfl
      | some t => exact ih _ _ _

theorem seed_length (ad : List Byte) : (seed ad).length = 48 := by
  rw [seed, List.length_append, List.length_replicate, List.length_take]; omega

theorem seed_eq (ad : List Byte) :
    (if 0 < ad.length then ad.take 48 ++ List.replicate (48 - (ad.take 48).length) 0 else List.replicate 48 0) = seed ad := by
  split
  · rfl
  · rw [List.eq_nil_of_length_eq_zero (by omega : ad.length = 0)]; rfl

/-! ### what every statement keeps -/

/-- Array sizes, and a cipher with some key. -/
structure Ok (c : CtrDrbg) : Prop where
  v : c.v.length = 16
  key : c.key.length = 32
  tmp : c.tmpBlk.length = 48
  ready : ∃ k, Ready c.blockEnc k

/-- The statement stays within a buffer of `n` bytes and within the arrays. -/
def Fits (n : Nat) : Stmt → Prop
  | .encOut i => 16 * i + 16 ≤ n
  | .encTmp k => k < 3
  | .xor data => data.length = 48
  | _ => True

theorem enc_length {b : Model.DRBG.IAES} {k : List Byte} (h : Ready b k) {dst src : List Byte} (hd : 16 ≤ dst.length) (hs : src.length = 16) :
    ∃ t, b.encrypt dst src = some t ∧ t.length = dst.length := by
  refine ⟨_, h.encrypt dst hd hs, ?_⟩
  rw [List.length_append, List.length_drop, show (Spec.AES.encrypt k src).length = 16 from rfl]
  omega

theorem exec_ok {c : CtrDrbg} (h : Ok c) (out : List Byte) (s : Stmt) (hs : Fits out.length s) :
    ∃ c' out', exec c out s = some (c', out') ∧ Ok c' ∧ out'.length = out.length := by
  obtain ⟨hv, hk, ht, k, hr⟩ := h
  cases s with
  | inc => exact ⟨_, _, rfl, ⟨by rw [Model.DRBG.inc]; simp only; rw [incLoop_length, hv], hk, ht, k, hr⟩, rfl⟩
  | setKey =>
    obtain ⟨b, h1, h2⟩ := setKey_ready hr.keyable hk
    exact ⟨{ c with blockEnc := b }, out, by rw [exec, h1]; rfl, ⟨hv, hk, ht, _, h2⟩, rfl⟩
  | encOut i =>
    have hs : 16 * i + 16 ≤ out.length := hs
    obtain ⟨t, h1, h2⟩ := enc_length hr (dst := out.drop (16 * i)) (by rw [List.length_drop]; omega) hv
    refine ⟨_, _, by rw [exec, h1]; rfl, ⟨hv, hk, ht, k, hr⟩, ?_⟩
    rw [List.length_append, h2, List.length_drop, List.length_take]; omega
  | encTmp j =>
    have hs : j < 3 := hs
    obtain ⟨t, h1, h2⟩ := enc_length hr (dst := c.tmpBlk.drop (16 * j)) (by rw [List.length_drop]; omega) hv
    refine ⟨{ c with tmpBlk := c.tmpBlk.take (16 * j) ++ t }, out, by rw [exec, h1]; rfl, ⟨hv, hk, ?_, k, hr⟩, rfl⟩
    simp only
    rw [List.length_append, h2, List.length_drop, List.length_take]; omega
  | copyOut =>
    refine ⟨_, _, rfl, ⟨hv, hk, ht, k, hr⟩, ?_⟩
    rw [List.length_append, List.length_take, List.length_take]; omega
  | xor data =>
    have hs : data.length = 48 := hs
    exact ⟨_, _, rfl, ⟨hv, hk, by simp only; rw [List.length_zipWith, ht, hs]; rfl, k, hr⟩, rfl⟩
  | copyKey => exact ⟨_, _, rfl, ⟨hv, by simp only; rw [List.length_take, ht]; rfl, ht, k, hr⟩, rfl⟩
  | copyV => exact ⟨_, _, rfl, ⟨by simp only; rw [List.length_drop, ht], hk, ht, k, hr⟩, rfl⟩
  | count => exact ⟨_, _, rfl, ⟨hv, hk, ht, k, hr⟩, rfl⟩

/-! ### the statements of a call fit -/

theorem updateLoop_fits (m n : Nat) : ∀ k, k + m ≤ 3 → ∀ s ∈ updateLoop k m, Fits n s := by
  induction m with
  | zero => intro k _ s hs; cases hs
  | succ m ih =>
    intro k hk s hs
    simp only [updateLoop, List.mem_cons] at hs
    rcases hs with rfl | rfl | rfl | hs
    · trivial
    · trivial
    · show k < 3; omega
    · exact ih (k + 1) (by omega) s hs

theorem update_fits (n : Nat) (data : List Byte) (h : data.length = 48) : ∀ s ∈ update data, Fits n s := by
  intro s hs
  simp only [update, List.mem_append, List.mem_cons, List.not_mem_nil, or_false] at hs
  rcases hs with hs | rfl | rfl | rfl
  · exact updateLoop_fits 3 n 0 (Nat.le_refl _) s hs
  · exact h
  · trivial
  · trivial

theorem readLoop_fits (n m : Nat) : ∀ i, 16 * (i + m) ≤ n → ∀ s ∈ readLoop i m, Fits n s := by
  induction m with
  | zero => intro i _ s hs; cases hs
  | succ m ih =>
    intro i hi s hs
    simp only [readLoop, List.mem_cons] at hs
    rcases hs with rfl | rfl | rfl | hs
    · trivial
    · trivial
    · show 16 * i + 16 ≤ n; omega
    · exact ih (i + 1) (by omega) s hs

theorem readAD_fits (n : Nat) (ad : List Byte) : ∀ s ∈ readAD n ad, Fits n s := by
  intro s hs
  simp only [readAD, List.mem_append, List.mem_cons, List.not_mem_nil, or_false] at hs
  rcases hs with hs | hs | (rfl | rfl) | hs | rfl
  · split at hs
    · exact update_fits n _ (seed_length ad) s hs
    · cases hs
  · exact readLoop_fits n _ 0 (by omega) s hs
  · show 0 < 3; omega
  · trivial
  · exact update_fits n _ (seed_length ad) s hs
  · trivial

/-! ### any schedule -/

/-- Every goroutine's remaining statements fit its buffer. -/
def AllFit (gs : List Gor) : Prop := ∀ g ∈ gs, ∀ s ∈ g.rest, Fits g.out.length s

theorem step_ok {c : CtrDrbg} {gs : List Gor} (h : Ok c) (hg : AllFit gs) (j : Nat) :
    ∃ c' gs', step c gs j = some (c', gs') ∧ Ok c' ∧ AllFit gs' ∧ gs'.map (·.out.length) = gs.map (·.out.length) := by
  rw [step]
  split
  · rename_i out s ss hj
    have hm := List.mem_of_getElem? hj
    obtain ⟨c', out', h1, h2, h3⟩ := exec_ok h out s (hg _ hm s (List.mem_cons_self ..))
    refine ⟨c', gs.set j ⟨out', ss⟩, by rw [h1]; rfl, h2, ?_, ?_⟩
    · intro g hgm t ht
      rcases List.mem_or_eq_of_mem_set hgm with hgm | rfl
      · exact hg g hgm t ht
      · show Fits out'.length t
        rw [h3]; exact hg _ hm t (List.mem_cons_of_mem _ ht)
    · apply List.ext_getElem?
      intro i
      rw [List.getElem?_map, List.getElem?_map, List.getElem?_set]
      split
      · rename_i e
        subst e
        split
        · rw [hj]; simp only [Option.map_some, h3]
        · rename_i hl; rw [List.getElem?_eq_none (by omega)]
      · rfl
  · exact ⟨c, gs, rfl, h, hg, rfl⟩

theorem run_ok (js : List Nat) : ∀ {c : CtrDrbg} {gs : List Gor}, Ok c → AllFit gs →
    ∃ c' gs', run c gs js = some (c', gs') ∧ Ok c' ∧ AllFit gs' ∧ gs'.map (·.out.length) = gs.map (·.out.length) := by
  induction js with
  | nil => intro c gs h hg; exact ⟨c, gs, rfl, h, hg, rfl⟩
  | cons j js ih =>
    intro c gs h hg
    obtain ⟨c1, gs1, a1, a2, a3, a4⟩ := step_ok h hg j
    obtain ⟨c2, gs2, b1, b2, b3, b4⟩ := ih a2 a3
    exact ⟨c2, gs2, by rw [run, a1]; exact b1, b2, b3, b4.trans a4⟩

theorem run_append (js ks : List Nat) : ∀ (c : CtrDrbg) (gs : List Gor),
    run c gs (js ++ ks) = (run c gs js).bind fun x => run x.1 x.2 ks := by
  induction js with
  | nil => intro c gs; rfl
  | cons j js ih =>
    intro c gs
    rw [List.cons_append, run, run]
    cases step c gs j with
    | none => rfl
    | some x => exact ih x.1 x.2

/-- Goroutine j alone, for as many steps as it has statements left. -/
theorem run_alone (j : Nat) (ss : List Stmt) : ∀ (c : CtrDrbg) (gs : List Gor) (out : List Byte),
    gs[j]? = some ⟨out, ss⟩ →
    run c gs (List.replicate ss.length j) = (execAll c out ss).map fun x => (x.1, gs.set j ⟨x.2, []⟩) := by
  induction ss with
  | nil =>
    intro c gs out hj
    simp only [List.length_nil, List.replicate_zero, run, execAll, Option.map_some, Option.some.injEq, Prod.mk.injEq, true_and]
    apply List.ext_getElem?
    intro i
    rw [List.getElem?_set]
    split
    · rename_i e
      subst e
      have := (List.getElem?_eq_some_iff.1 hj).1
      rw [if_pos this, hj]
    · rfl
  | cons s ss ih =>
    intro c gs out hj
    rw [List.length_cons, List.replicate_succ, run, step, hj, execAll]
    simp only
    cases exec c out s with
    | none => rfl
    | some x =>
      have hl := (List.getElem?_eq_some_iff.1 hj).1
      simp only [Option.map_some, Option.bind_some]
      rw [ih x.1 (gs.set j ⟨x.2, ss⟩) x.2 (by rw [List.getElem?_set, if_pos rfl, if_pos hl])]
      simp only [List.set_set]

/-! ### lockstep -/

/-- A statement changes the object or the buffer, not both; what it does to either depends only on what both read. -/
theorem exec_twice {c c1 : CtrDrbg} {out out1 : List Byte} {s : Stmt} (h : exec c out s = some (c1, out1)) :
    (out1 = out ∧ ∀ c2 out2, exec c1 out s = some (c2, out2) → out2 = out) ∨ (c1 = c ∧ exec c1 out s = some (c1, out1)) := by
  have key : ∀ {o : Option CtrDrbg} {x : CtrDrbg × List Byte}, o.map (·, out) = some x → x.2 = out := by
    intro o x e; cases o with
    | none => cases e
    | some y => cases e; rfl
  cases s with
  | inc => left; cases h; exact ⟨rfl, fun _ _ e => by cases e; rfl⟩
  | setKey =>
    left
    rw [exec] at h
    cases hb : c.blockEnc.setKey c.key with
    | none => rw [hb] at h; cases h
    | some b =>
      rw [hb] at h; cases h
      refine ⟨rfl, fun c2 out2 e => ?_⟩
      rw [exec] at e
      cases hb2 : b.setKey c.key with
      | none => simp only [hb2] at e; cases e
      | some b2 => simp only [hb2] at e; cases e; rfl
  | encOut i =>
    right
    have h' := h
    rw [exec] at h
    cases ht : c.blockEnc.encrypt (out.drop (16 * i)) c.v with
    | none => rw [ht] at h; cases h
    | some t => rw [ht] at h; cases h; exact ⟨rfl, h'⟩
  | encTmp k =>
    left
    rw [exec] at h
    cases hb : c.blockEnc.encrypt (c.tmpBlk.drop (16 * k)) c.v with
    | none => rw [hb] at h; cases h
    | some b =>
      rw [hb] at h; cases h
      refine ⟨rfl, fun c2 out2 e => ?_⟩
      rw [exec, Option.map_eq_some_iff] at e
      obtain ⟨_, _, e⟩ := e
      cases e; rfl
  | copyOut => right; cases h; exact ⟨rfl, rfl⟩
  | xor data => left; cases h; exact ⟨rfl, fun _ _ e => by cases e; rfl⟩
  | copyKey => left; cases h; exact ⟨rfl, fun _ _ e => by cases e; rfl⟩
  | copyV => left; cases h; exact ⟨rfl, fun _ _ e => by cases e; rfl⟩
  | count => left; cases h; exact ⟨rfl, fun _ _ e => by cases e; rfl⟩

/-- The two goroutines take turns, `n` statements each. -/
def turns : Nat → List Nat
  | 0 => []
  | n + 1 => 0 :: 1 :: turns n

theorem lockstep (ss : List Stmt) : ∀ {c : CtrDrbg} {out : List Byte}, Ok c → (∀ s ∈ ss, Fits out.length s) →
    ∃ c' o, run c [⟨out, ss⟩, ⟨out, ss⟩] (turns ss.length) = some (c', [⟨o, []⟩, ⟨o, []⟩]) ∧ Ok c' ∧ o.length = out.length := by
  induction ss with
  | nil => intro c out h _; exact ⟨c, out, rfl, h, rfl⟩
  | cons s ss ih =>
    intro c out h hf
    obtain ⟨c1, o1, a1, a2, a3⟩ := exec_ok h out s (hf s (List.mem_cons_self ..))
    obtain ⟨c2, o2, b1, b2, b3⟩ := exec_ok a2 out s (hf s (List.mem_cons_self ..))
    have e : o2 = o1 := by
      rcases exec_twice a1 with ⟨e1, e2⟩ | ⟨e1, e2⟩
      · rw [e1, e2 _ _ b1]
      · rw [b1] at e2; cases e2; rfl
    subst e
    obtain ⟨c3, o3, d1, d2, d3⟩ := ih b2 (fun t ht => by rw [a3]; exact hf t (List.mem_cons_of_mem _ ht))
    refine ⟨c3, o3, ?_, d2, d3.trans a3⟩
    have s1 : step c [⟨out, s :: ss⟩, ⟨out, s :: ss⟩] 0 = some (c1, [⟨o2, ss⟩, ⟨out, s :: ss⟩]) := by
      show (exec c out s).map _ = _
      rw [a1]; rfl
    have s2 : step c1 [⟨o2, ss⟩, ⟨out, s :: ss⟩] 1 = some (c2, [⟨o2, ss⟩, ⟨o2, ss⟩]) := by
      show (exec c1 out s).map _ = _
      rw [b1]; rfl
    show (step c [⟨out, s :: ss⟩, ⟨out, s :: ss⟩] 0).bind (fun x => (step x.1 x.2 1).bind fun y => run y.1 y.2 (turns ss.length)) = _
    rw [s1]
    show (step c1 [⟨o2, ss⟩, ⟨out, s :: ss⟩] 1).bind _ = _
    rw [s2]
    exact d1

end Lemmas.DRBGShared
