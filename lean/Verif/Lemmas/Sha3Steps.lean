import Mathlib.Data.List.Forall2
import Verif.Lemmas.Steps
import Verif.Model.Sha3Steps
import Verif.Spec.SpongeShape
/-
The recorded functions of hash/sha3 have the values of Model/Sha3.lean, and their steps depend on lengths only.
-/
namespace Lemmas.Sha3Steps
open Model Model.Sha3 Model.Sha3.Steps Model.Steps Lemmas.Steps

/-! ### values -/

theorem xorInLoopT_val (n : Nat) : ∀ (a : Vector W64 25) (buf : List Byte) (i : Nat), (xorInLoopT a buf i n).val = xorInLoop a buf i n := by
  induction n with
  | zero => intro a buf i; rfl
  | succ n ih =>
    intro a buf i
    rw [xorInLoopT, xorInLoop, val_tell_bind, val_bind, val_lift]
    change Option.bind _ _ = Option.bind _ _
    congr 1
    funext w
    by_cases h : i < 25
    · rw [dif_pos h, dif_pos h, val_tell_bind, val_bind, val_lift]
      change Option.bind _ _ = Option.bind _ _
      congr 1
      funext b
      exact ih _ _ _
    · rw [dif_neg h, dif_neg h]; rfl

theorem copyOutLoopT_val (n : Nat) : ∀ (a : Vector W64 25) (b : List Byte) (i : Nat), (copyOutLoopT a b i n).val = copyOutLoop a b i n := by
  induction n with
  | zero => intro a b i; rfl
  | succ n ih =>
    intro a b i
    rw [copyOutLoopT, copyOutLoop, val_tell_bind]
    by_cases h8 : 8 ≤ b.length
    · rw [if_pos h8, if_pos h8]
      by_cases h : i < 25
      · rw [dif_pos h, dif_pos h, val_tell_bind, val_bind, ih]
        rfl
      · rw [dif_neg h, dif_neg h]; rfl
    · rw [if_neg h8, if_neg h8]; rfl

theorem xorWordsT_val (buf : List Byte) (is : List Nat) : ∀ a, (xorWordsT buf is a).val = is.foldlM (xorWord buf) a := by
  induction is with
  | nil => intro a; rfl
  | cons i is ih =>
    intro a
    rw [xorWordsT, val_bind, List.foldlM_cons]
    change Option.bind _ _ = Option.bind _ _
    congr 1
    funext b
    exact ih b

theorem xorGroupT_val (buf : List Byte) (m : Nat) (is : List Nat) (a : Vector W64 25) : (xorGroupT buf m is a).val = xorGroup buf m is a := by
  rw [xorGroupT, xorGroup, val_tell_bind]
  split
  · exact xorWordsT_val _ _ _
  · rfl

theorem keccakF1600T_val (a : Vector W64 25) : (keccakF1600T a).val = some (keccakF1600 a) := rfl

/-- The recorded functions of a platform have the values of the others. -/
structure Same (PT : PlatT) (P : Plat) : Prop where
  xorIn : ∀ a b, (PT.xorIn a b).val = P.xorIn a b
  copyOut : ∀ a b, (PT.copyOut a b).val = P.copyOut a b
  keccakF : ∀ a, (PT.keccakF a).val = some (P.keccakF a)

theorem same_generic : Same platGenericT platGeneric :=
  ⟨fun a b => xorInLoopT_val _ _ _ _, fun a b => copyOutLoopT_val _ _ _ _, keccakF1600T_val⟩

theorem same_unaligned : Same platUnalignedT platUnaligned := by
  refine ⟨fun a b => ?_, fun a b => rfl, keccakF1600T_val⟩
  change (xorInUnalignedT a b).val = xorInUnaligned a b
  rw [xorInUnalignedT, xorInUnaligned]
  by_cases h : b.length = 0
  · rw [if_pos h, if_pos h]; rfl
  · rw [if_neg h, if_neg h]
    simp only [val_bind, xorGroupT_val]
    rfl

section
variable {PT : PlatT} {P : Plat} (hS : Same PT P)
include hS

theorem writeLoopT_val (rate : Nat) : ∀ (a : Vector W64 25) (input : List Byte), (writeLoopT PT rate a input).val = writeLoop P rate a input := by
  intro a input
  induction hn : input.length using Nat.strongRecOn generalizing a input with
  | ind n ih =>
    rw [writeLoopT, writeLoop, val_tell_bind]
    by_cases h : 0 < rate ∧ rate ≤ input.length
    · rw [dif_pos h, dif_pos h, val_bind, hS.xorIn]
      change Option.bind _ _ = Option.bind _ _
      congr 1
      funext a'
      rw [val_bind, hS.keccakF, Option.bind_some]
      exact ih _ (by rw [← hn, List.length_drop]; omega) _ _ rfl
    · rw [dif_neg h, dif_neg h]; rfl

theorem writeT_val (c : State) (input : List Byte) : (writeT PT c input).val = write P c input := by
  rw [writeT, write, val_tell_bind, val_ite]
  split
  · rfl
  · simp only
    rw [val_tell_bind, val_ite]
    split
    · rw [val_bind]; rfl
    · rw [val_bind, val_lift]
      change Option.bind _ _ = Option.bind _ _
      congr 1; funext first
      rw [val_bind, val_lift]
      change Option.bind _ _ = Option.bind _ _
      congr 1; funext buf
      rw [val_bind, hS.xorIn]
      change Option.bind _ _ = Option.bind _ _
      congr 1; funext a
      rw [val_bind, hS.keccakF, Option.bind_some, val_bind, val_lift]
      change Option.bind _ _ = Option.bind _ _
      congr 1; funext rest
      rw [val_bind, writeLoopT_val hS]
      change Option.bind _ _ = Option.bind _ _
      congr 1

theorem finalizeT_val (c : State) : (finalizeT PT c).val = finalize P c := by
  rw [finalizeT, finalize]
  dsimp only
  rw [val_bind, val_lift]
  have key : ∀ (x : Option (List Byte)) (f : List Byte → Option State),
      (if c.idx + 1 ≤ c.rate then x >>= f else some c.data >>= f) = Option.bind (if c.idx + 1 ≤ c.rate then x else some c.data) f := by
    intro x f; split <;> rfl
  refine Eq.trans ?_ (key _ _).symm
  congr 1; funext buf
  rw [val_bind, val_lift]
  change Option.bind _ _ = Option.bind _ _
  congr 1; funext buf
  by_cases h : c.rate = 0
  · simp only [if_pos h]; rfl
  · simp only [if_neg h]
    rw [val_bind, val_lift]
    change Option.bind _ _ = Option.bind _ _
    congr 1; funext buf
    rw [val_bind, val_lift]
    change Option.bind _ _ = Option.bind _ _
    congr 1; funext blk
    rw [val_bind, hS.xorIn]
    change Option.bind _ _ = Option.bind _ _
    congr 1; funext a
    rw [val_bind, hS.keccakF, Option.bind_some, val_bind, hS.copyOut]
    change Option.bind _ _ = Option.bind _ _
    congr 1

theorem readLoopT_val (rate : Nat) (n : Nat) : ∀ (a : Vector W64 25) (out : List Byte), (readLoopT PT rate a out n).val = readLoop P rate a out n := by
  induction n with
  | zero => intro a out; rfl
  | succ n ih =>
    intro a out
    rw [readLoopT, readLoop, val_tell_bind, val_bind, hS.keccakF, Option.bind_some, val_bind, val_lift]
    change Option.bind _ _ = Option.bind _ _
    congr 1; funext blk
    rw [val_bind, hS.copyOut]
    change Option.bind _ _ = Option.bind _ _
    congr 1; funext blk
    rw [val_bind, val_lift]
    change Option.bind _ _ = Option.bind _ _
    congr 1; funext rest
    rw [val_bind, ih]
    change Option.bind _ _ = Option.bind _ _
    congr 1

theorem readT_val (c : State) (out : List Byte) : (readT PT c out).val = Model.Sha3.read P c out := by
  rw [readT, Model.Sha3.read]
  dsimp only
  rw [val_tell_bind]
  cases hq : c.isSquezing
  · rw [if_neg Bool.false_ne_true, if_neg Bool.false_ne_true, val_bind, finalizeT_val hS]
    change Option.bind _ _ = Option.bind _ _
    congr 1; funext c1
    rw [val_tell_bind]
    by_cases h : c.rate < c1.idx
    · rw [if_pos h, if_pos h]; rfl
    · rw [if_neg h, if_neg h]
      rw [val_bind, val_lift]
      change Option.bind _ _ = Option.bind _ _
      congr 1; funext src
      rw [val_bind, val_lift]
      change Option.bind _ _ = Option.bind _ _
      congr 1; funext src
      rw [val_tell_bind]
      by_cases hz : (List.drop (min c1.idx out.length) out).length = 0
      · rw [if_pos hz, if_pos hz]; rfl
      · rw [if_neg hz, if_neg hz]
        by_cases h0 : c.rate = 0
        · rw [if_pos h0, if_pos h0]; rfl
        · rw [if_neg h0, if_neg h0]
          rw [val_bind, readLoopT_val hS]
          change Option.bind _ _ = Option.bind _ _
          congr 1; funext r
          rw [val_bind, hS.keccakF, Option.bind_some, val_bind, hS.copyOut]
          change Option.bind _ _ = Option.bind _ _
          congr 1; funext buf
          rw [val_bind, val_lift]
          rfl
  · rw [if_pos rfl, if_pos rfl, val_bind, val_pure, Option.bind_some]
    change _ = Option.bind (some c) _
    rw [Option.bind_some]
    rw [val_tell_bind]
    by_cases h : c.rate < c.idx
    · rw [if_pos h, if_pos h]; rfl
    · rw [if_neg h, if_neg h]
      rw [val_bind, val_lift]
      change Option.bind _ _ = Option.bind _ _
      congr 1; funext src
      rw [val_bind, val_lift]
      change Option.bind _ _ = Option.bind _ _
      congr 1; funext src
      rw [val_tell_bind]
      by_cases hz : (List.drop (min c.idx out.length) out).length = 0
      · rw [if_pos hz, if_pos hz]; rfl
      · rw [if_neg hz, if_neg hz]
        by_cases h0 : c.rate = 0
        · rw [if_pos h0, if_pos h0]; rfl
        · rw [if_neg h0, if_neg h0]
          rw [val_bind, readLoopT_val hS]
          change Option.bind _ _ = Option.bind _ _
          congr 1; funext r
          rw [val_bind, hS.keccakF, Option.bind_some, val_bind, hS.copyOut]
          change Option.bind _ _ = Option.bind _ _
          congr 1; funext buf
          rw [val_bind, val_lift]
          rfl

theorem callT_val (c : State) (k : Spec.Sponge.Call) : (callT PT c k).val = callModel P c k := by
  cases k with
  | write x =>
    rw [callT, callModel, val_bind, writeT_val hS]
    cases write P c x <;> rfl
  | read b =>
    rw [callT, callModel, val_bind, readT_val hS]
    cases Model.Sha3.read P c b <;> rfl
  | sum b =>
    rw [callT, callModel, val_bind, sumT, val_tell_bind, val_bind, readT_val hS, sum]
    cases Model.Sha3.read P c (List.replicate c.dsize 0) <;> rfl
  | reset => rfl

theorem callsT_val (ks : List Spec.Sponge.Call) : ∀ c : State, (callsT PT c ks).val = callsModel P c ks := by
  induction ks with
  | nil => intro c; rfl
  | cons k ks ih =>
    intro c
    rw [callsT, callsModel, val_bind, callT_val hS]
    change Option.bind _ _ = Option.bind _ _
    congr 1; funext r
    rw [val_bind, ih]
    rfl

end

/-! ### steps -/

/-- Byte strings of the same length. -/
abbrev L (a b : List Byte) : Prop := a.length = b.length
/-- No relation. -/
abbrev Any {α : Type} (_ _ : α) : Prop := True

theorem opt_sliceFrom {a b : List Byte} (h : L a b) (n : Nat) : Option.Rel L (sliceFrom a n) (sliceFrom b n) := by
  unfold sliceFrom
  unfold L at h
  rw [h]
  split
  · exact .some (by unfold L; simp [h])
  · exact .none

theorem opt_sliceTo {a b : List Byte} (h : L a b) (n : Nat) : Option.Rel L (sliceTo a n) (sliceTo b n) := by
  unfold sliceTo
  unfold L at h
  rw [h]
  split
  · exact .some (by unfold L; simp [h])
  · exact .none

theorem opt_setAt {a b : List Byte} (h : L a b) (n : Nat) (v w : Byte) : Option.Rel L (setAt a n v) (setAt b n w) := by
  unfold setAt
  unfold L at h
  rw [h]
  split
  · exact .some (by unfold L; simp [h])
  · exact .none

theorem opt_copyFrom {a b s t : List Byte} (h : L a b) (h' : L s t) (n : Nat) : Option.Rel L (copyFrom a n s) (copyFrom b n t) := by
  unfold copyFrom goCopy
  unfold L at h h'
  rw [h]
  split
  · exact .some (by unfold L; simp [h, h'])
  · exact .none

theorem opt_leUint64 {a b : List Byte} (h : L a b) : Option.Rel (Any : W64 → W64 → Prop) (leUint64 a) (leUint64 b) := by
  have key : ∀ x : List Byte, (leUint64 x).isSome = decide (8 ≤ x.length) := by
    intro x
    rcases x with _ | ⟨_, _ | ⟨_, _ | ⟨_, _ | ⟨_, _ | ⟨_, _ | ⟨_, _ | ⟨_, _ | ⟨_, x⟩⟩⟩⟩⟩⟩⟩⟩ <;> simp [leUint64]
  have ha := key a
  have hb := key b
  unfold L at h
  rw [h, ← hb] at ha
  cases hx : leUint64 a <;> cases hy : leUint64 b <;> rw [hx, hy] at ha <;> simp at ha
  · exact .none
  · exact .some trivial

theorem xorInLoopT_rel (n : Nat) : ∀ (a a' : Vector W64 25) (b b' : List Byte) (i : Nat), L b b' →
    Rel Any (xorInLoopT a b i n) (xorInLoopT a' b' i n) := by
  induction n with
  | zero => intro a a' b b' i h; exact ⟨rfl, .some trivial⟩
  | succ n ih =>
    intro a a' b b' i h
    rw [xorInLoopT, xorInLoopT]
    refine rel_tell rfl (rel_bind (rel_lift (opt_leUint64 h) rfl) fun w w' _ => ?_)
    by_cases hi : i < 25
    · rw [dif_pos hi, dif_pos hi]
      exact rel_tell rfl (rel_bind (rel_lift (opt_sliceFrom h 8) rfl) fun x y hxy => ih _ _ _ _ _ hxy)
    · rw [dif_neg hi, dif_neg hi]
      exact rel_none

theorem copyOutLoopT_rel (n : Nat) : ∀ (a a' : Vector W64 25) (b b' : List Byte) (i : Nat), L b b' →
    Rel L (copyOutLoopT a b i n) (copyOutLoopT a' b' i n) := by
  induction n with
  | zero => intro a a' b b' i h; exact ⟨rfl, .some h⟩
  | succ n ih =>
    intro a a' b b' i h
    rw [copyOutLoopT, copyOutLoopT]
    have h' : b.length = b'.length := h
    rw [h']
    refine rel_tell rfl (rel_ite Iff.rfl (fun h8 => ?_) fun _ => rel_pure h)
    by_cases hi : i < 25
    · rw [dif_pos hi, dif_pos hi]
      exact rel_tell rfl (rel_bind (ih _ _ _ _ _ (by unfold L; simp [h'])) fun x y hxy =>
        rel_pure (by unfold L at *; simp only [List.length_append, hxy]; rfl))
    · rw [dif_neg hi, dif_neg hi]
      exact rel_none

theorem xorWord_opt {b b' : List Byte} (h : L b b') (a a' : Vector W64 25) (i : Nat) :
    Option.Rel (Any : Vector W64 25 → Vector W64 25 → Prop) (xorWord b a i) (xorWord b' a' i) := by
  have hw : Option.Rel (Any : W64 → W64 → Prop) (bw b i) (bw b' i) := by
    unfold bw
    have h' : b.length = b'.length := h
    rw [h']
    split
    · exact opt_leUint64 (by unfold L; simp [h'])
    · exact .none
  unfold xorWord
  cases hx : bw b i <;> cases hy : bw b' i <;> rw [hx, hy] at hw <;> cases hw
  · exact .none
  · by_cases hi : i < 25
    · simp only [Option.bind_eq_bind, Option.bind_some, dif_pos hi]; exact .some trivial
    · simp only [Option.bind_eq_bind, Option.bind_some, dif_neg hi]; exact .none

theorem xorWordsT_rel {b b' : List Byte} (h : L b b') (is : List Nat) : ∀ a a', Rel Any (xorWordsT b is a) (xorWordsT b' is a') := by
  induction is with
  | nil => intro a a'; exact ⟨rfl, .some trivial⟩
  | cons i is ih =>
    intro a a'
    rw [xorWordsT, xorWordsT]
    exact rel_bind (rel_tell rfl (rel_lift (xorWord_opt h a a' i) rfl)) fun x y _ => ih x y

theorem xorGroupT_rel {b b' : List Byte} (h : L b b') (m : Nat) (is : List Nat) (a a' : Vector W64 25) :
    Rel Any (xorGroupT b m is a) (xorGroupT b' m is a') := by
  rw [xorGroupT, xorGroupT]
  have h' : b.length = b'.length := h
  rw [h']
  exact rel_tell rfl (rel_ite Iff.rfl (fun _ => xorWordsT_rel h is a a') fun _ => rel_pure trivial)

theorem xorInUnalignedT_rel {b b' : List Byte} (h : L b b') (a a' : Vector W64 25) :
    Rel Any (xorInUnalignedT a b) (xorInUnalignedT a' b') := by
  rw [xorInUnalignedT, xorInUnalignedT]
  have h' : b.length = b'.length := h
  refine rel_ite (by rw [h']) (fun _ => rel_none) fun _ => ?_
  exact rel_bind (xorGroupT_rel h _ _ _ _) fun _ _ _ => rel_bind (xorGroupT_rel h _ _ _ _) fun _ _ _ =>
    rel_bind (xorGroupT_rel h _ _ _ _) fun _ _ _ => rel_bind (xorGroupT_rel h _ _ _ _) fun _ _ _ => xorGroupT_rel h _ _ _ _

theorem keccakLoopT_rel (n : Nat) : ∀ (a a' : Vector W64 25) (i : Nat), Rel Any (keccakLoopT a i n) (keccakLoopT a' i n) := by
  induction n with
  | zero => intro a a' i; exact ⟨rfl, .some trivial⟩
  | succ n ih =>
    intro a a' i
    rw [keccakLoopT, keccakLoopT]
    exact rel_tell rfl (ih _ _ _)

/-- The steps of the functions of a platform depend on lengths only. -/
structure Blind (PT : PlatT) : Prop where
  xorIn : ∀ a a' b b', L b b' → Rel Any (PT.xorIn a b) (PT.xorIn a' b')
  copyOut : ∀ a a' b b', L b b' → Rel L (PT.copyOut a b) (PT.copyOut a' b')
  keccakF : ∀ a a', Rel Any (PT.keccakF a) (PT.keccakF a')

theorem blind_generic : Blind platGenericT := by
  refine ⟨fun a a' b b' h => ?_, fun a a' b b' h => ?_, fun a a' => keccakLoopT_rel _ _ _ _⟩
  · change Rel Any (xorInLoopT _ _ _ (b.length / 8)) (xorInLoopT _ _ _ (b'.length / 8))
    rw [show b.length = b'.length from h]
    exact xorInLoopT_rel _ _ _ _ _ _ h
  · change Rel L (copyOutLoopT _ _ _ b.length) (copyOutLoopT _ _ _ b'.length)
    rw [show b.length = b'.length from h]
    exact copyOutLoopT_rel _ _ _ _ _ _ h

theorem laneBytes_L (a a' : Vector W64 25) : L (laneBytes a) (laneBytes a') := by
  unfold L laneBytes
  have key : ∀ (l : List W64), (l.flatMap leBytes64).length = 8 * l.length := by
    intro l
    induction l with
    | nil => rfl
    | cons x l ih => simp only [List.flatMap_cons, List.length_append, ih, List.length_cons]; simp only [leBytes64, List.length_cons, List.length_nil]; omega
  rw [key, key, Vector.length_toList, Vector.length_toList]

theorem blind_unaligned : Blind platUnalignedT := by
  refine ⟨fun a a' b b' h => xorInUnalignedT_rel h a a', fun a a' b b' h => ?_, fun a a' => keccakLoopT_rel _ _ _ _⟩
  have h' : b.length = b'.length := h
  refine rel_lift (.some ?_) (by rw [h'])
  have := laneBytes_L a a'
  unfold L goCopy at *
  simp only [List.length_append, List.length_take, List.length_drop, h', this]

/-- Objects that an observer cannot tell apart: everything but the contents of state and buffer is the same. -/
structure Alike (c c' : State) : Prop where
  rate : c.rate = c'.rate
  dsize : c.dsize = c'.dsize
  idx : c.idx = c'.idx
  isSquezing : c.isSquezing = c'.isSquezing
  data : L c.data c'.data

section
variable {PT : PlatT} (hB : Blind PT)
include hB

theorem writeLoopT_rel (rate : Nat) : ∀ (a a' : Vector W64 25) (i i' : List Byte), L i i' →
    Rel (fun x y => L x.2 y.2) (writeLoopT PT rate a i) (writeLoopT PT rate a' i') := by
  intro a a' i i' h
  induction hn : i.length using Nat.strongRecOn generalizing a a' i i' with
  | ind n ih =>
    rw [writeLoopT, writeLoopT.eq_def PT rate a' i']
    have h' : i.length = i'.length := h
    rw [h']
    refine rel_tell rfl ?_
    by_cases hc : 0 < rate ∧ rate ≤ i'.length
    · rw [dif_pos hc, dif_pos hc]
      refine rel_bind (hB.xorIn _ _ _ _ (by unfold L; simp [h'])) fun x y _ => rel_bind (hB.keccakF _ _) fun x y _ => ?_
      exact ih _ (by rw [← hn, List.length_drop]; omega) _ _ _ _ (by unfold L; simp [h']) rfl
    · rw [dif_neg hc, dif_neg hc]
      exact rel_pure h

theorem writeT_rel {c c' : State} (hc : Alike c c') {i i' : List Byte} (h : L i i') :
    Rel (fun x y => Alike x.1 y.1) (writeT PT c i) (writeT PT c' i') := by
  obtain ⟨h1, h2, h3, h4, h5⟩ := hc
  have h' : i.length = i'.length := h
  rw [writeT, writeT]
  dsimp only
  rw [h1, h3, h4, h']
  refine rel_tell rfl (rel_ite Iff.rfl (fun _ => rel_pure ⟨h1, h2, h3, h4, h5⟩) fun hq => ?_)
  refine rel_tell rfl (rel_ite Iff.rfl (fun _ => ?_) fun _ => ?_)
  · exact rel_bind (rel_lift (opt_copyFrom h5 h _) rfl) fun x y hxy => rel_pure ⟨rfl, h2, rfl, rfl, hxy⟩
  · refine rel_bind (rel_lift (opt_sliceTo h _) rfl) fun f f' hf => ?_
    refine rel_bind (rel_lift (opt_copyFrom h5 hf _) (by rw [show f.length = f'.length from hf])) fun b b' hb => ?_
    refine rel_bind (hB.xorIn _ _ _ _ hb) fun _ _ _ => rel_bind (hB.keccakF _ _) fun _ _ _ => ?_
    refine rel_bind (rel_lift (opt_sliceFrom h _) rfl) fun r r' hr => ?_
    refine rel_bind (writeLoopT_rel hB _ _ _ _ _ hr) fun x y hxy => ?_
    have hl : x.2.length = y.2.length := hxy
    refine rel_bind (rel_lift (opt_copyFrom hb hxy _) (by rw [hl])) fun z z' hz => rel_pure ⟨rfl, h2, hl, rfl, hz⟩

theorem finalizeT_rel {c c' : State} (hc : Alike c c') : Rel Alike (finalizeT PT c) (finalizeT PT c') := by
  obtain ⟨h1, h2, h3, h4, h5⟩ := hc
  rw [finalizeT, finalizeT]
  rw [h1, h3]
  have h0 : Option.Rel L (if c'.idx + 1 ≤ c'.rate then copyFrom c.data (c'.idx + 1) (List.replicate (c'.rate - (c'.idx + 1)) 0) else some c.data)
      (if c'.idx + 1 ≤ c'.rate then copyFrom c'.data (c'.idx + 1) (List.replicate (c'.rate - (c'.idx + 1)) 0) else some c'.data) := by
    split
    · exact opt_copyFrom h5 rfl _
    · exact .some h5
  refine rel_bind (rel_lift h0 rfl) fun b b' hb => rel_bind (rel_lift (opt_setAt hb _ _ _) rfl) fun b b' hb => ?_
  refine rel_ite Iff.rfl (fun _ => rel_none) fun _ => ?_
  refine rel_bind (rel_lift (opt_setAt hb _ _ _) rfl) fun b b' hb => rel_bind (rel_lift (opt_sliceTo hb _) rfl) fun k k' hk => ?_
  refine rel_bind (hB.xorIn _ _ _ _ hk) fun _ _ _ => rel_bind (hB.keccakF _ _) fun _ _ _ => ?_
  refine rel_bind (hB.copyOut _ _ _ _ hk) fun o o' ho => rel_bind (rel_lift (opt_copyFrom hb ho _) rfl) fun b b' hb => ?_
  exact rel_pure ⟨by first | rfl | exact h1, h2, rfl, rfl, hb⟩

theorem readLoopT_rel (rate : Nat) (n : Nat) : ∀ (a a' : Vector W64 25) (o o' : List Byte), L o o' →
    Rel (fun x y => L x.2.2 y.2.2) (readLoopT PT rate a o n) (readLoopT PT rate a' o' n) := by
  induction n with
  | zero => intro a a' o o' h; exact ⟨rfl, .some h⟩
  | succ n ih =>
    intro a a' o o' h
    rw [readLoopT, readLoopT]
    refine rel_tell rfl (rel_bind (hB.keccakF _ _) fun _ _ _ => rel_bind (rel_lift (opt_sliceTo h _) rfl) fun k k' hk => ?_)
    refine rel_bind (hB.copyOut _ _ _ _ hk) fun _ _ _ => rel_bind (rel_lift (opt_sliceFrom h _) rfl) fun r r' hr => ?_
    exact rel_bind (ih _ _ _ _ hr) fun x y hxy => rel_pure hxy

theorem readT_rel {c c' : State} (hc : Alike c c') {o o' : List Byte} (h : L o o') :
    Rel (fun x y => Alike x.1 y.1) (readT PT c o) (readT PT c' o') := by
  have h' : o.length = o'.length := h
  rw [readT, readT]
  dsimp only
  rw [hc.rate, hc.isSquezing]
  refine rel_tell rfl (rel_ite Iff.rfl (fun _ => rel_bind (R := Alike) (rel_pure hc) ?_)
    fun _ => rel_bind (R := Alike) (finalizeT_rel hB hc) ?_)
  all_goals
    intro d d' hd
    obtain ⟨h1, h2, h3, h4, h5⟩ := hd
    have hdrop : (o.drop (min d'.idx o'.length)).length = (o'.drop (min d'.idx o'.length)).length := by simp [h']
    rw [h3, h', hdrop]
    refine rel_tell rfl (rel_ite Iff.rfl (fun _ => rel_none) fun _ => ?_)
    refine rel_bind (rel_lift (opt_sliceFrom h5 _) rfl) fun s s' hs => rel_bind (rel_lift (opt_sliceTo hs _) rfl) fun s s' hs => ?_
    refine rel_tell rfl (rel_ite Iff.rfl (fun _ => rel_pure ⟨h1, h2, rfl, h4, h5⟩) fun _ => rel_ite Iff.rfl (fun _ => rel_none) fun _ => ?_)
    refine rel_bind (readLoopT_rel hB _ _ _ _ _ _ hdrop) fun x y hxy => rel_bind (hB.keccakF _ _) fun _ _ _ => ?_
    have hl : x.2.2.length = y.2.2.length := hxy
    rw [hl]
    refine rel_bind (hB.copyOut _ _ _ _ h5) fun b b' hb => rel_bind (rel_lift (opt_sliceTo hb _) rfl) fun _ _ _ => ?_
    exact rel_pure ⟨h1, h2, rfl, h4, hb⟩

end

section
variable {PT : PlatT} (hB : Blind PT)
include hB

theorem callT_rel {c c' : State} (hc : Alike c c') {k k' : Spec.Sponge.Call} (h : Spec.Sponge.SameShape k k') :
    Rel (fun x y => Alike x.1 y.1) (callT PT c k) (callT PT c' k') := by
  cases k <;> cases k' <;> try exact absurd h id
  · exact rel_bind (writeT_rel hB hc h) fun x y hxy => rel_pure hxy
  · exact rel_bind (readT_rel hB hc h) fun x y hxy => rel_pure hxy
  · rename_i x y
    rw [callT, callT, sumT, sumT]
    have hl : x.length = y.length := h
    rw [hl, hc.dsize]
    exact rel_bind (R := fun x y => Alike x.1 y.1) (rel_tell rfl (rel_bind (readT_rel hB hc rfl) fun x y hxy => rel_pure hxy)) fun x y hxy => rel_pure hxy
  · exact rel_lift (.some ⟨hc.rate, hc.dsize, rfl, rfl, rfl⟩) rfl

theorem callsT_rel (ks : List Spec.Sponge.Call) : ∀ {ks' : List Spec.Sponge.Call} {c c' : State}, Alike c c' → List.Forall₂ Spec.Sponge.SameShape ks ks' →
    Rel (fun x y => Alike x.1 y.1) (callsT PT c ks) (callsT PT c' ks') := by
  induction ks with
  | nil => intro ks' c c' hc h; cases h; exact rel_pure hc
  | cons k ks ih =>
    intro ks' c c' hc h
    cases h with
    | cons h1 h2 =>
      rw [callsT, callsT]
      exact rel_bind (callT_rel hB hc h1) fun x y hxy => rel_bind (ih hxy h2) fun u v huv => rel_pure huv

end

end Lemmas.Sha3Steps
