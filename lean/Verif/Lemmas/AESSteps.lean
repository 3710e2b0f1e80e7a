import Verif.Lemmas.Steps
import Verif.Lemmas.AESKey
import Verif.Model.AESSteps
/-
The recorded functions of the portable AES have the values of Model/AES.lean; what their steps have in common and what they give away.
-/
namespace Lemmas.AESSteps
open Model Model.AES Model.AES.Steps Model.Steps Lemmas.Steps Lemmas.AES

/-! ### values -/

theorem midRoundsT_val (mid : Quad → Quad) (ml : Nat → Quad → List Ev) (xk : List W32) (n : Nat) :
    ∀ s k, (midRoundsT mid ml xk s k n).val = midRounds mid xk s k n := by
  induction n with
  | zero => intro s k; rfl
  | succ n ih =>
    intro s k
    rw [midRoundsT, midRounds, val_tell_bind, val_bind, val_lift]
    change Option.bind _ _ = Option.bind _ _
    congr 1; funext kq
    exact ih _ _

theorem cryptBlockT_val (mid last : Quad → Quad) (ml ll : Nat → Quad → List Ev) (xk : List W32) (src : List Byte) :
    (cryptBlockT mid last ml ll xk src).val = cryptBlock mid last xk src := by
  rw [cryptBlockT, cryptBlock, val_bind, val_lift]
  change Option.bind _ _ = Option.bind _ _
  congr 1; funext s
  rw [val_bind, val_lift]
  change Option.bind _ _ = Option.bind _ _
  congr 1; funext k0
  rw [val_bind, midRoundsT_val]
  change Option.bind _ _ = Option.bind _ _
  congr 1; funext r
  rw [val_bind, val_lift]
  rfl

theorem encryptT_val (c : AES) (dst src : List Byte) : (encryptT c dst src).val = c.encrypt dst src := by
  rw [encryptT, AES.encrypt, val_tell_bind]
  by_cases h1 : src.length < 16
  · rw [if_pos h1, if_pos (Or.inl h1)]; rfl
  · rw [if_neg h1, val_tell_bind]
    by_cases h2 : dst.length < 16
    · rw [if_pos h2, if_pos (Or.inr h2)]; rfl
    · rw [if_neg h2, if_neg (by omega), val_bind, cryptBlockT_val]; rfl

theorem decryptT_val (c : AES) (dst src : List Byte) : (decryptT c dst src).val = c.decrypt dst src := by
  rw [decryptT, AES.decrypt, val_tell_bind]
  by_cases h1 : src.length < 16
  · rw [if_pos h1, if_pos (Or.inl h1)]; rfl
  · rw [if_neg h1, val_tell_bind]
    by_cases h2 : dst.length < 16
    · rw [if_pos h2, if_pos (Or.inr h2)]; rfl
    · rw [if_neg h2, if_neg (by omega), val_bind, cryptBlockT_val]; rfl

/-! ### steps without table indices -/

/-- Two runs whose steps agree but for the indices into tables. -/
def RelB {α β : Type} (R : α → β → Prop) (m : T Ev α) (n : T Ev β) : Prop := m.log.map blur = n.log.map blur ∧ Option.Rel R m.val n.val

theorem relB_bind {α β γ δ : Type} {R : α → β → Prop} {S : γ → δ → Prop} {m : T Ev α} {n : T Ev β} {f : α → T Ev γ} {g : β → T Ev δ}
    (h : RelB R m n) (hf : ∀ a b, R a b → RelB S (f a) (g b)) : RelB S (m >>= f) (n >>= g) := by
  obtain ⟨h1, h2⟩ := h
  rcases m with ⟨_ | a, l⟩ <;> rcases n with ⟨_ | b, l'⟩
  · exact ⟨h1, .none⟩
  · cases h2
  · cases h2
  · cases h2
    rename_i r
    obtain ⟨h3, h4⟩ := hf a b r
    refine ⟨?_, h4⟩
    change (l ++ (f a).2).map blur = (l' ++ (g b).2).map blur
    rw [List.map_append, List.map_append]
    change l.map blur = l'.map blur at h1
    change (f a).2.map blur = (g b).2.map blur at h3
    rw [h1, h3]

theorem keyQuad_rel {xk xk' : List W32} (h : xk.length = xk'.length) (k : Nat) :
    Option.Rel (fun _ _ => True) (keyQuad xk k) (keyQuad xk' k) := by
  have key : ∀ x : List W32, (keyQuad x k).isSome = decide (k + 3 < x.length) := by
    intro x
    by_cases hx : k + 3 < x.length
    · rw [keyQuad, List.getElem?_eq_getElem (show k < x.length by omega), List.getElem?_eq_getElem (show k + 1 < x.length by omega),
        List.getElem?_eq_getElem (show k + 2 < x.length by omega), List.getElem?_eq_getElem hx]
      simp [hx]
    · rw [keyQuad, List.getElem?_eq_none (l := x) (i := k + 3) (by omega), decide_eq_false hx]
      cases x[k]? <;> cases x[k + 1]? <;> cases x[k + 2]? <;> rfl
  have ha := key xk
  have hb := key xk'
  rw [h, ← hb] at ha
  cases hx : keyQuad xk k <;> cases hy : keyQuad xk' k <;> rw [hx, hy] at ha <;> simp at ha
  · exact .none
  · exact .some trivial

theorem midRoundsT_relB (mid : Quad → Quad) (ml : Nat → Quad → List Ev) (hml : ∀ k s s', (ml k s).map blur = (ml k s').map blur)
    {xk xk' : List W32} (h : xk.length = xk'.length) (n : Nat) :
    ∀ s s' k, RelB (fun x y => x.2 = y.2) (midRoundsT mid ml xk s k n) (midRoundsT mid ml xk' s' k n) := by
  induction n with
  | zero => intro s s' k; exact ⟨rfl, .some rfl⟩
  | succ n ih =>
    intro s s' k
    rw [midRoundsT, midRoundsT]
    refine relB_bind (R := fun _ _ => True) ⟨rfl, .some trivial⟩ fun _ _ _ => ?_
    exact relB_bind ⟨hml _ _ _, keyQuad_rel h k⟩ fun a b _ => ih _ _ _

theorem loadQuad_rel {src src' : List Byte} (h : 16 ≤ src.length) (h' : 16 ≤ src'.length) :
    Option.Rel (fun _ _ => True) (loadQuad src) (loadQuad src') := by
  have key : ∀ x : List Byte, 16 ≤ x.length → (loadQuad x).isSome := by
    intro x hx
    rw [loadQuad]
    have := beUint32_eq x 0 (by omega)
    rw [Nat.mul_zero, List.drop_zero] at this
    rw [this, show x.drop 4 = x.drop (4 * 1) from rfl, show x.drop 8 = x.drop (4 * 2) from rfl, show x.drop 12 = x.drop (4 * 3) from rfl,
      beUint32_eq x 1 (by omega), beUint32_eq x 2 (by omega), beUint32_eq x 3 (by omega)]
    rfl
  have ha := key src h
  have hb := key src' h'
  cases hx : loadQuad src <;> cases hy : loadQuad src' <;> rw [hx] at ha <;> rw [hy] at hb <;> simp at ha hb
  exact .some trivial

theorem cryptBlockT_relB (mid last : Quad → Quad) (ml ll : Nat → Quad → List Ev) (hml : ∀ k s s', (ml k s).map blur = (ml k s').map blur)
    (hll : ∀ k s s', (ll k s).map blur = (ll k s').map blur) {xk xk' : List W32} (h : xk.length = xk'.length) {src src' : List Byte}
    (hs : 16 ≤ src.length) (hs' : 16 ≤ src'.length) :
    RelB (fun _ _ => True) (cryptBlockT mid last ml ll xk src) (cryptBlockT mid last ml ll xk' src') := by
  rw [cryptBlockT, cryptBlockT]
  refine relB_bind (R := fun _ _ => True) ⟨rfl, loadQuad_rel hs hs'⟩ fun s s' _ => ?_
  refine relB_bind (R := fun _ _ => True) ⟨rfl, keyQuad_rel h 0⟩ fun k k' _ => ?_
  dsimp only
  rw [h]
  refine relB_bind (midRoundsT_relB mid ml hml h _ _ _ _) fun r r' hr => ?_
  rw [hr]
  exact relB_bind (R := fun _ _ => True) ⟨hll _ _ _, keyQuad_rel h _⟩ fun _ _ _ => ⟨rfl, .some trivial⟩

/-! ### what the indices give away -/

theorem quad_bytes {x y : W32} (h3 : b3 x = b3 y) (h2 : b2 x = b2 y) (h1 : b1 x = b1 y) (h0 : b0 x = b0 y) : x = y := by
  have key : ∀ x : W32, pack (b3 x) (b2 x) (b1 x) (b0 x) = x := by
    intro x
    unfold pack b3 b2 b1 b0
    apply BitVec.eq_of_getLsbD_eq
    intro i hi
    simp only [BitVec.getLsbD_or, BitVec.getLsbD_shiftLeft, BitVec.getLsbD_setWidth, BitVec.getLsbD_extractLsb', hi, decide_true, Bool.true_and]
    rcases (show i < 8 ∨ (8 ≤ i ∧ i < 16) ∨ (16 ≤ i ∧ i < 24) ∨ (24 ≤ i ∧ i < 32) by omega) with h | h | h | h
    · simp (disch := omega) [h, show i < 24 by omega, show i < 16 by omega]
    · simp (disch := omega) [show ¬ i < 8 by omega, show i < 24 by omega, show i < 16 by omega, show i - 8 < 8 by omega, show i - 8 < 32 by omega,
        show 8 + (i - 8) = i by omega]
    · simp (disch := omega) [show ¬ i < 8 by omega, show i < 24 by omega, show ¬ i < 16 by omega, show ¬ i - 8 < 8 by omega, show i - 16 < 8 by omega,
        show i - 16 < 32 by omega, show 16 + (i - 16) = i by omega]
    · simp (disch := omega) [show ¬ i < 8 by omega, show ¬ i < 24 by omega, show ¬ i < 16 by omega, show ¬ i - 8 < 8 by omega, show ¬ i - 16 < 8 by omega,
        show i - 24 < 8 by omega, show i - 24 < 32 by omega, show 24 + (i - 24) = i by omega]
  rw [← key x, ← key y, h3, h2, h1, h0]

theorem encMidLog_inj {k : Nat} {s s' : Quad} (h : encMidLog k s = encMidLog k s') : s = s' := by
  simp only [encMidLog, List.cons.injEq, Ev.look.injEq, true_and, and_true] at h
  obtain ⟨a0, b1, c2, d3, a1, b2, c3, d0, a2, b3, c0, d1, a3, b0, c1, d2⟩ := h
  cases s; cases s'
  rw [Quad.mk.injEq]
  exact ⟨quad_bytes a0 b0 c0 d0, quad_bytes a1 b1 c1 d1, quad_bytes a2 b2 c2 d2, quad_bytes a3 b3 c3 d3⟩

theorem midRoundsT_log {xk : List W32} {kq : Quad} {k : Nat} (hk : keyQuad xk k = some kq) (s : Quad) (n : Nat) :
    (midRoundsT encMid encMidLog xk s k (n + 1)).log =
      Ev.test true :: (encMidLog k s ++ (midRoundsT encMid encMidLog xk (kq.xor (encMid s)) (k + 4) n).log) := by
  rw [midRoundsT, hk]; rfl

theorem midRoundsT_state {xk xk' : List W32} {kq kq' : Quad} {k : Nat} (hk : keyQuad xk k = some kq) (hk' : keyQuad xk' k = some kq')
    {s s' : Quad} {n : Nat} {r r' : List Ev}
    (h : (midRoundsT encMid encMidLog xk s k (n + 1)).log ++ r = (midRoundsT encMid encMidLog xk' s' k (n + 1)).log ++ r') :
    s = s' ∧ (midRoundsT encMid encMidLog xk (kq.xor (encMid s)) (k + 4) n).log ++ r =
      (midRoundsT encMid encMidLog xk' (kq'.xor (encMid s')) (k + 4) n).log ++ r' := by
  rw [midRoundsT_log hk, midRoundsT_log hk'] at h
  simp only [List.cons_append, List.cons.injEq, true_and, List.append_assoc] at h
  obtain ⟨h1, h2⟩ := List.append_inj h rfl
  exact ⟨encMidLog_inj h1, h2⟩

theorem xor_cancel {a b c : W32} (h : a ^^^ c = b ^^^ c) : a = b := by
  have := congrArg (· ^^^ c) h
  simpa [BitVec.xor_assoc] using this

theorem xor_left_quad {a b c : Quad} (h : a.xor c = b.xor c) : a = b := by
  cases a; cases b; cases c
  simp only [Quad.xor, Quad.mk.injEq] at h ⊢
  refine ⟨?_, ?_, ?_, ?_⟩
  · exact xor_cancel h.1
  · exact xor_cancel h.2.1
  · exact xor_cancel h.2.2.1
  · exact xor_cancel h.2.2.2

theorem xor_comm_quad (a b : Quad) : a.xor b = b.xor a := by
  simp only [Quad.xor, BitVec.xor_comm]

/-- The steps of encrypting a block: the steps of the middle rounds with something before, the same for all, and something behind. -/
theorem crypt_log {xk : List W32} {src : List Byte} {s k0 : Quad} (hs : loadQuad src = some s) (h0 : keyQuad xk 0 = some k0) :
    ∃ r, (cryptBlockT encMid encLast encMidLog encLastLog xk src).log =
      [.word 0, .word 1, .word 2, .word 3] ++ ((midRoundsT encMid encMidLog xk (s.xor k0) 4 (xk.length / 4 - 2)).log ++ r) := by
  rw [cryptBlockT, hs, h0]
  dsimp only
  obtain ⟨r, hr⟩ := log_bind_ex (midRoundsT encMid encMidLog xk (s.xor k0) 4 (xk.length / 4 - 2)) (fun r => do
    let t := if xk.length / 4 - 2 = 0 then (⟨0, 0, 0, 0⟩ : Quad) else r.1
    let kq ← lift (keyQuad xk r.2) (encLastLog r.2 t)
    let s := (encLast t).xor kq
    pure (beBytes32 s.s0 ++ beBytes32 s.s1 ++ beBytes32 s.s2 ++ beBytes32 s.s3))
  refine ⟨r, ?_⟩
  rw [← hr]
  rfl

theorem keyQuad_sched {xk : List W32} {w : Nat → Spec.AES.Word} {nr : Nat} (h : Sched xk w nr) {j : Nat} (hj : j ≤ nr) :
    keyQuad xk (4 * j) = some ⟨w (4 * j), w (4 * j + 1), w (4 * j + 2), w (4 * j + 3)⟩ := by
  rw [keyQuad, h.2 _ (by omega), h.2 _ (by omega), h.2 _ (by omega), h.2 _ (by omega)]; rfl

/-- The same steps for blocks with the same words: the same first eight words of the schedule. -/
theorem crypt_words {xk xk' : List W32} {w w' : Nat → Spec.AES.Word} {nr : Nat} (hnr : 3 ≤ nr) (h : Sched xk w nr) (h' : Sched xk' w' nr) {src : List Byte}
    {s : Quad} (hs : loadQuad src = some s)
    (hl : (cryptBlockT encMid encLast encMidLog encLastLog xk src).log = (cryptBlockT encMid encLast encMidLog encLastLog xk' src).log) :
    ∀ i < 8, w i = w' i := by
  have q0 := keyQuad_sched h (j := 0) (by omega)
  have q0' := keyQuad_sched h' (j := 0) (by omega)
  have q1 := keyQuad_sched h (j := 1) (by omega)
  have q1' := keyQuad_sched h' (j := 1) (by omega)
  have q2 := keyQuad_sched h (j := 2) (by omega)
  have q2' := keyQuad_sched h' (j := 2) (by omega)
  simp only [Nat.mul_zero, Nat.mul_one, Nat.zero_add] at q0 q0' q1 q1'
  obtain ⟨r, hr⟩ := crypt_log hs q0
  obtain ⟨r', hr'⟩ := crypt_log hs q0'
  obtain ⟨n, hn⟩ : ∃ n, nr = n + 3 := ⟨nr - 3, by omega⟩
  have e1 : xk.length / 4 - 2 = n + 1 + 1 := by rw [h.1, hn]; omega
  have e2 : xk'.length / 4 - 2 = n + 1 + 1 := by rw [h'.1, hn]; omega
  rw [hr, hr', e1, e2] at hl
  obtain ⟨-, hl⟩ := List.append_inj hl rfl
  obtain ⟨a1, hl⟩ := midRoundsT_state q1 q1' hl
  obtain ⟨a2, hl⟩ := midRoundsT_state q2 q2' hl
  rw [xor_comm_quad s, xor_comm_quad s] at a1
  have b1 := xor_left_quad a1
  rw [xor_comm_quad s, xor_comm_quad s, b1] at a2
  have b2 := xor_left_quad a2
  rw [Quad.mk.injEq] at b1 b2
  intro i hi
  rcases (show i = 0 ∨ i = 1 ∨ i = 2 ∨ i = 3 ∨ i = 4 ∨ i = 5 ∨ i = 6 ∨ i = 7 by omega) with h | h | h | h | h | h | h | h <;> subst h
  · exact b1.1
  · exact b1.2.1
  · exact b1.2.2.1
  · exact b1.2.2.2
  · exact b2.1
  · exact b2.2.1
  · exact b2.2.2.1
  · exact b2.2.2.2

/-- The same steps with the same schedule: the same block. -/
theorem crypt_block {xk : List W32} {w : Nat → Spec.AES.Word} {nr : Nat} (hnr : 2 ≤ nr) (h : Sched xk w nr) {src src' : List Byte}
    {s s' : Quad} (hs : loadQuad src = some s) (hs' : loadQuad src' = some s')
    (hl : (cryptBlockT encMid encLast encMidLog encLastLog xk src).log = (cryptBlockT encMid encLast encMidLog encLastLog xk src').log) :
    s = s' := by
  have q0 := keyQuad_sched h (j := 0) (by omega)
  have q1 := keyQuad_sched h (j := 1) (by omega)
  simp only [Nat.mul_zero, Nat.mul_one, Nat.zero_add] at q0 q1
  obtain ⟨r, hr⟩ := crypt_log hs q0
  obtain ⟨r', hr'⟩ := crypt_log hs' q0
  obtain ⟨n, hn⟩ : ∃ n, nr = n + 2 := ⟨nr - 2, by omega⟩
  have e1 : xk.length / 4 - 2 = n + 1 := by rw [h.1, hn]; omega
  rw [hr, hr', e1] at hl
  obtain ⟨-, hl⟩ := List.append_inj hl rfl
  obtain ⟨a1, hl⟩ := midRoundsT_state q1 q1 hl
  exact xor_left_quad a1

end Lemmas.AESSteps
