import Verif.Lemmas.AsmSteps
import Verif.Spec.AsmSteps
/-! The abstract state at a call. -/
namespace Lemmas.AsmSteps
open Model Model.Asm Spec.AsmSteps

/-- What is known of the i-th argument. -/
def knd (i : Nat) : Par → Knd
  | .arr _ => .ptr (.arg i)
  | .num => .num

def len : Par → Nat
  | .arr n => n
  | .num => 0

def knds (i : Nat) : List Par → List Knd
  | [] => []
  | p :: ps => knd i p :: knds (i + 1) ps

/-- What is known at a call. -/
def start (R : Routine) (ps : List Par) : Abs where
  reg := [.any, .any, .any, .any, .ptr (.fix 1), .num, .any, .any, .any, .any, .any, .any, .any, .any, .any, .any, .ptr (.fix 0)] ++
    (List.range 32).map fun _ => .any
  cf := false
  of := false
  fix := knds 0 ps :: (if R.frame = 0 then [] else List.replicate R.frame .any ++ [.num]) :: R.glob.map (·.map fun _ => .num)
  len := ps.map len

/-- The block the i-th argument points to. -/
def blk (R : Routine) (args : List Arg) (i : Nat) : Nat :=
  match args[i]? with
  | some (.arr b) => 2 + R.glob.length + b
  | _ => 0

theorem knds_ok {data : List (List W64)} {ps : List Par} {as : List Arg} (h : List.Forall₂ (Passes data) ps as) (base i : Nat) (σ : Nat → Nat)
    (e : ∀ j b, as[j]? = some (.arr b) → σ (i + j) = base + b) : List.Forall₂ (Ok σ) (as.map (Arg.val base)) (knds i ps) := by
  induction h generalizing i with
  | nil => exact .nil
  | @cons p a ps as hp _ ih =>
    refine .cons ?_ (ih (i + 1) fun j b hb => ?_)
    · cases p <;> cases a
      · simp only [Arg.val, knd, Ok, Blk.at]
        rw [← e 0 _ (by simp), Nat.add_zero]
      · exact hp.elim
      · exact hp.elim
      · exact ⟨_, rfl⟩
    · rw [← e (j + 1) b (by simpa using hb)]
      congr 1
      omega

theorem forall₂_map_num {σ : Nat → Nat} (g : List W64) : List.Forall₂ (Ok σ) (g.map .w) (g.map fun _ => .num) := by
  induction g with
  | nil => exact .nil
  | cons x g ih => exact .cons ⟨x, rfl⟩ ih

theorem forall₂_frame {σ : Nat → Nat} (fr : List Val) (bp : W64) : List.Forall₂ (Ok σ) (fr ++ [.w bp]) (List.replicate fr.length .any ++ [.num]) := by
  induction fr with
  | nil => exact .cons ⟨bp, rfl⟩ .nil
  | cons x g ih => exact .cons trivial ih

theorem forall₂_any {σ : Nat → Nat} (l : List Nat) (f : Nat → Val) : List.Forall₂ (Ok σ) (l.map f) (l.map fun _ => .any) := by
  induction l with
  | nil => exact .nil
  | cons x g ih => exact .cons trivial ih

theorem start_fits (R : Routine) {ps : List Par} {data : List (List W64)} {args : List Arg} (h : List.Forall₂ (Passes data) ps args)
    (junk : Nat → Val) (fr : List Val) (hf : fr.length = R.frame) (bp fp : W64) :
    Fits (blk R args) (R.start junk fr bp fp data args) (start R ps) := by
  refine ⟨?_, by simp [start], by simp [start], ?_, ?_⟩
  · simp only [Routine.start, start, List.cons_append, List.nil_append]
    have hb : Ok (blk R args) (.w (if R.frame = 0 then bp else fp)) .num := ⟨_, rfl⟩
    repeat' apply List.Forall₂.cons
    all_goals first | exact trivial | exact rfl | exact hb | exact forall₂_any _ _
  · intro b ks hb
    rcases b with _ | _ | g
    · simp only [start, List.getElem?_cons_zero, Option.some.injEq] at hb
      subst hb
      exact ⟨_, rfl, knds_ok h _ 0 _ fun j b e => by simp only [blk, Nat.zero_add, e]⟩
    · simp only [start, List.getElem?_cons_zero, List.getElem?_cons_succ, Option.some.injEq] at hb
      subst hb
      refine ⟨_, rfl, ?_⟩
      split
      · exact .nil
      · rw [← hf]; exact forall₂_frame fr bp
    · simp only [start, List.getElem?_cons_succ, List.getElem?_map, Option.map_eq_some_iff] at hb
      obtain ⟨gl, e, rfl⟩ := hb
      refine ⟨gl.map .w, ?_, forall₂_map_num gl⟩
      have hg : g < R.glob.length := by
        rcases Nat.lt_or_ge g R.glob.length with q | q
        · exact q
        · rw [List.getElem?_eq_none q] at e; cases e
      simp only [Routine.start, List.getElem?_cons_succ]
      rw [List.getElem?_append_left (by simpa using hg), List.getElem?_map, e]
      rfl
  · intro i n hi hn
    simp only [start, List.getElem?_map, Option.map_eq_some_iff] at hi
    obtain ⟨p, e, rfl⟩ := hi
    cases p with
    | num => simp [len] at hn
    | arr n =>
      obtain ⟨a, e1, e2⟩ := forall₂_get (R := fun a p => Passes data p a) h.flip e
      cases a with
      | num x => exact e2.elim
      | arr b =>
        obtain ⟨d, d1, d2⟩ := e2
        have hs : blk R args i = 2 + R.glob.length + b := by simp only [blk, e1]
        refine ⟨?_, d.map .w, ?_, by simpa [len] using d2, ?_⟩
        · rw [hs]; simp [start]; omega
        · rw [hs, show 2 + R.glob.length + b = R.glob.length + b + 1 + 1 by omega]
          simp only [Routine.start, List.getElem?_cons_succ]
          rw [List.getElem?_append_right (by simp)]
          simp [d1]
        · intro v hv
          obtain ⟨x, _, rfl⟩ := List.mem_map.mp hv
          exact ⟨x, rfl⟩

theorem blk_same (R : Routine) {args args' : List Arg} (h : List.Forall₂ SameTo args args') : blk R args = blk R args' := by
  funext i
  unfold blk
  induction h generalizing i with
  | nil => rfl
  | @cons a b _ _ ha _ ih =>
    cases i with
    | zero =>
      cases a <;> cases b
      · simp only [SameTo] at ha; subst ha; rfl
      · exact ha.elim
      · exact ha.elim
      · rfl
    | succ i => simpa using ih i

/-- A check of the code is enough. -/
theorem same_of {R : Routine} {ps : List Par} (h : ((start R ps).trace R.code).isSome = true) : SameAccesses R ps := by
  intro junk junk' fr fr' bp bp' fp fp' data data' args args' hf hf' ha ha' hs
  obtain ⟨t, e⟩ := Option.isSome_iff_exists.mp h
  obtain ⟨t1, s1, r1⟩ := trace_ok (start_fits R ha junk fr hf bp fp) e
  obtain ⟨t2, _⟩ := trace_ok (start_fits R ha' junk' fr' hf' bp' fp') e
  refine ⟨?_, ?_⟩
  · simp only [Routine.call, r1]; rfl
  · simp only [Routine.trace, t1, t2, blk_same R hs]

end Lemmas.AsmSteps
