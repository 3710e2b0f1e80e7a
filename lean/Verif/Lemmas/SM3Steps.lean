import Mathlib.Data.List.Forall2
import Verif.Lemmas.Sha3Steps
import Verif.Model.SM3Steps
/-
The recorded functions of hash/sm3 have the values of Model/SM3.lean, and their steps depend on lengths only.
-/
namespace Lemmas.SM3Steps
open Model Model.SM3 Model.SM3.Steps Model.Steps Lemmas.Steps
open Lemmas.Sha3Steps (L opt_sliceFrom opt_sliceTo opt_setAt opt_copyFrom)

/-! ### values -/

theorem compressFromT_val (input : List Byte) (n : Nat) : ∀ h i, (compressFromT h input i n).val = compressFrom h input i n := by
  induction n with
  | zero => intro h i; rfl
  | succ n ih =>
    intro h i
    rw [compressFromT, compressFrom, val_tell_bind, val_bind, val_lift]
    change Option.bind _ _ = Option.bind _ _
    congr 1; funext next
    rw [val_bind, val_lift]
    change Option.bind _ _ = Option.bind _ _
    congr 1; funext w
    rw [val_bind, val_lift, Option.bind_some]
    exact ih _ _

theorem compressT_val (d : Digest) (input : List Byte) (n : Nat) : (compressT d input n).val = compress d input n := by
  rw [compressT, compress, val_bind, compressFromT_val]
  rfl

theorem writeT_val (d : Digest) (input : List Byte) : (writeT d input).val = write d input := by
  rw [writeT, write]
  dsimp only
  rw [val_tell_bind, val_ite]
  split
  · rw [val_bind]; rfl
  · rw [val_bind, val_lift]
    change Option.bind _ _ = Option.bind _ _
    congr 1; funext first
    rw [val_bind, val_lift]
    change Option.bind _ _ = Option.bind _ _
    congr 1; funext b
    rw [val_bind, compressT_val]
    change Option.bind _ _ = Option.bind _ _
    congr 1; funext d
    rw [val_bind, val_lift]
    change Option.bind _ _ = Option.bind _ _
    congr 1; funext input
    rw [val_bind, compressT_val]
    change Option.bind _ _ = Option.bind _ _
    congr 1; funext d
    rw [val_bind, val_lift]
    change Option.bind _ _ = Option.bind _ _
    congr 1

theorem sumT_val (d : Digest) (input : List Byte) : (sumT d input).val = sum d input := by
  rw [sumT, sum, val_bind, writeT_val]
  change Option.bind _ _ = Option.bind _ _
  congr 1; funext r
  obtain ⟨dc, n⟩ := r
  dsimp only
  rw [val_bind, val_lift]
  change Option.bind _ _ = Option.bind _ _
  congr 1; funext b
  rw [val_bind, val_lift]
  change Option.bind _ _ = Option.bind _ _
  congr 1; funext b
  rw [val_tell_bind]
  by_cases h : 56 ≤ (dc.len &&& 63).toNat
  · rw [if_pos h, if_pos h]
    simp only [val_bind, compressT_val, val_lift]
    rfl
  · rw [if_neg h, if_neg h]
    simp only [val_bind, compressT_val, val_lift]
    rfl

theorem callT_val (d : Digest) (c : Call) : (callT d c).val = call d c := by
  cases c with
  | write p => rw [callT, call, val_bind, writeT_val]; cases write d p <;> rfl
  | sum b => rw [callT, call, val_bind, sumT_val]; cases sum d b <;> rfl
  | reset => rfl

theorem runT_val (cs : List Call) : ∀ d, (runT d cs).val = run d cs := by
  induction cs with
  | nil => intro d; rfl
  | cons c cs ih =>
    intro d
    rw [runT, run, val_bind, callT_val]
    change Option.bind _ _ = Option.bind _ _
    congr 1; funext r
    rw [val_bind, ih]
    rfl

/-! ### steps -/

theorem opt_loadBe32 {a b : List Byte} (h : L a b) : Option.Rel (fun _ _ => True) (loadBe32 a) (loadBe32 b) := by
  have key : ∀ x : List Byte, (loadBe32 x).isSome = decide (4 ≤ x.length) := by
    intro x
    rcases x with _ | ⟨_, _ | ⟨_, _ | ⟨_, _ | ⟨_, x⟩⟩⟩⟩ <;> simp [loadBe32]
  have ha := key a
  have hb := key b
  unfold L at h
  rw [h, ← hb] at ha
  cases hx : loadBe32 a <;> cases hy : loadBe32 b <;> rw [hx, hy] at ha <;> simp at ha
  · exact .none
  · exact .some trivial

theorem mapM_rel {α β : Type} (f g : α → Option β) (h : ∀ k, Option.Rel (fun _ _ => True) (f k) (g k)) (l : List α) :
    Option.Rel (fun x y => x.length = y.length) (l.mapM f) (l.mapM g) := by
  induction l with
  | nil => exact .some rfl
  | cons k l ih =>
    rw [List.mapM_cons, List.mapM_cons]
    have hk := h k
    cases hx : f k <;> cases hy : g k <;> rw [hx, hy] at hk <;> cases hk
    · exact .none
    · cases hx : l.mapM f <;> cases hy : l.mapM g <;> rw [hx, hy] at ih <;> cases ih
      · exact .none
      · rename_i r
        exact .some (by simp [r])

theorem loadBlock_rel {a b : List Byte} (h : L a b) : Option.Rel (fun _ _ => True) (loadBlock a) (loadBlock b) := by
  have key := mapM_rel (fun k => do
    let x ← sliceFrom a (4 * k)
    loadBe32 x) (fun k => do
    let x ← sliceFrom b (4 * k)
    loadBe32 x) (by
      intro k
      have h1 := opt_sliceFrom h (4 * k)
      cases hx : sliceFrom a (4 * k) <;> cases hy : sliceFrom b (4 * k) <;> rw [hx, hy] at h1 <;> cases h1
      · exact .none
      · rename_i r; exact opt_loadBe32 r) (List.range 16)
  rw [loadBlock, loadBlock]
  revert key
  generalize (List.mapM (m := Option) (fun k => do
    let x ← sliceFrom a (4 * k)
    loadBe32 x) (List.range 16)) = u
  generalize (List.mapM (m := Option) (fun k => do
    let x ← sliceFrom b (4 * k)
    loadBe32 x) (List.range 16)) = v
  intro key
  cases key with
  | none => exact .none
  | some r =>
    rename_i x y
    simp only [Option.bind_eq_bind, Option.bind_some]
    by_cases h16 : x.length = 16
    · rw [dif_pos h16, dif_pos (by rw [← r]; exact h16)]; exact .some trivial
    · rw [dif_neg h16, dif_neg (by rw [← r]; exact h16)]; exact .none

theorem compressFromT_rel {a b : List Byte} (hab : L a b) (n : Nat) : ∀ h h' i,
    Rel (fun _ _ => True) (compressFromT h a i n) (compressFromT h' b i n) := by
  induction n with
  | zero => intro h h' i; exact ⟨rfl, .some trivial⟩
  | succ n ih =>
    intro h h' i
    rw [compressFromT, compressFromT]
    refine rel_tell rfl (rel_bind (rel_lift (opt_sliceFrom hab _) rfl) fun x y hxy => ?_)
    refine rel_bind (rel_lift (loadBlock_rel hxy) rfl) fun w w' _ => ?_
    exact rel_bind (R := fun _ _ => True) (rel_lift (.some trivial) rfl) fun _ _ _ => ih _ _ _

/-- Objects that an observer cannot tell apart: everything but the contents of registers and buffer is the same. -/
structure Alike (d d' : Digest) : Prop where
  len : d.len = d'.len
  b : L d.b d'.b

theorem compressT_rel {d d' : Digest} (hd : Alike d d') {a b : List Byte} (hab : L a b) (n : Nat) :
    Rel Alike (compressT d a n) (compressT d' b n) := by
  rw [compressT, compressT]
  exact rel_bind (compressFromT_rel hab n _ _ _) fun _ _ _ => rel_pure ⟨hd.len, hd.b⟩

theorem writeT_rel {d d' : Digest} (hd : Alike d d') {a b : List Byte} (hab : L a b) :
    Rel (fun x y => Alike x.1 y.1) (writeT d a) (writeT d' b) := by
  have hl : a.length = b.length := hab
  rw [writeT, writeT]
  dsimp only
  rw [hd.len, hl]
  refine rel_tell rfl (rel_ite Iff.rfl (fun _ => ?_) fun _ => ?_)
  · exact rel_bind (rel_lift (opt_copyFrom hd.b hab _) rfl) fun x y hxy => rel_pure ⟨rfl, hxy⟩
  · refine rel_bind (rel_lift (opt_sliceTo hab _) rfl) fun f f' hf => ?_
    refine rel_bind (rel_lift (opt_copyFrom hd.b hf _) (by rw [show f.length = f'.length from hf])) fun x y hxy => ?_
    refine rel_bind (R := Alike) (compressT_rel (Alike.mk (by rfl) (by exact hxy)) hxy _) fun e e' he => ?_
    refine rel_bind (rel_lift (opt_sliceFrom hab _) rfl) fun i i' hi => ?_
    rw [show i.length = i'.length from hi]
    refine rel_bind (compressT_rel he hi _) fun e e' he => ?_
    refine rel_bind (rel_lift (opt_sliceFrom hi _) rfl) fun r r' hr => ?_
    refine rel_bind (rel_lift (opt_copyFrom he.b hr _) (by rw [show r.length = r'.length from hr])) fun x y hxy => ?_
    exact rel_pure ⟨he.len, hxy⟩

theorem sumT_rel {d d' : Digest} (hd : Alike d d') {a b : List Byte} (hab : L a b) :
    Rel (fun _ _ => True) (sumT d a) (sumT d' b) := by
  rw [sumT, sumT]
  refine rel_bind (writeT_rel hd hab) fun r r' hr => ?_
  dsimp only
  rw [hr.len]
  refine rel_bind (rel_lift (opt_copyFrom hr.b rfl _) rfl) fun x y hxy => ?_
  refine rel_bind (rel_lift (opt_setAt hxy _ _ _) rfl) fun x y hxy => ?_
  have tail : ∀ (e e' : Digest), Alike e e' → Rel (fun _ _ => True) (do
      let b ← lift (copyFrom e.b 56 (store64Be (e.len * 8))) [.word 56, .word 60]
      let dc ← compressT { e with b } b 1
      lift (some (dc.h.toList.flatMap store32Be)) ((List.range 8).map fun i => Ev.word (4 * i)) : T Ev (List Byte)) (do
      let b ← lift (copyFrom e'.b 56 (store64Be (e'.len * 8))) [.word 56, .word 60]
      let dc ← compressT { e' with b } b 1
      lift (some (dc.h.toList.flatMap store32Be)) ((List.range 8).map fun i => Ev.word (4 * i)) : T Ev (List Byte)) := by
    intro e e' he
    refine rel_bind (rel_lift (opt_copyFrom he.b (by rw [he.len]) _) rfl) fun x y hxy => ?_
    exact rel_bind (R := Alike) (compressT_rel (Alike.mk (by exact he.len) (by exact hxy)) hxy 1) fun _ _ _ => rel_lift (.some trivial) rfl
  refine rel_tell rfl (rel_ite Iff.rfl (fun _ => ?_) fun _ => ?_)
  · exact rel_bind (R := Alike) (compressT_rel (Alike.mk (by rfl) (by exact hxy)) hxy 1) fun e e' he =>
      rel_bind (R := Alike) (rel_lift (.some ⟨he.len, rfl⟩) rfl) fun e e' he => tail e e' he
  · exact rel_bind (R := Alike) (rel_pure ⟨rfl, hxy⟩) fun e e' he => tail e e' he

theorem callT_rel {d d' : Digest} (hd : Alike d d') {c c' : Call} (h : SameShape c c') :
    Rel (fun x y => Alike x.1 y.1) (callT d c) (callT d' c') := by
  cases c <;> cases c' <;> try exact absurd h id
  · exact rel_bind (writeT_rel hd h) fun x y hxy => rel_pure hxy
  · exact rel_bind (sumT_rel hd h) fun x y _ => rel_pure hd
  · exact rel_lift (.some ⟨rfl, hd.b⟩) rfl

theorem runT_rel (cs : List Call) : ∀ {cs' : List Call} {d d' : Digest}, Alike d d' → List.Forall₂ SameShape cs cs' →
    Rel (fun x y => Alike x.1 y.1) (runT d cs) (runT d' cs') := by
  induction cs with
  | nil => intro cs' d d' hd h; cases h; exact rel_pure hd
  | cons c cs ih =>
    intro cs' d d' hd h
    cases h with
    | cons h1 h2 =>
      rw [runT, runT]
      exact rel_bind (callT_rel hd h1) fun x y hxy => rel_bind (ih hxy h2) fun u v huv => rel_pure huv

end Lemmas.SM3Steps
