import Verif.Model.AsmSteps
import Mathlib.Data.List.Forall2
/-!
An abstract run of the machine that knows of each word only whether it is a number or which block it points to.
-/
namespace Lemmas.AsmSteps
open Model Model.Asm

/-- A block: one of the first blocks (arguments, frame, globals), or the one the i-th argument points to. -/
inductive Blk where
  | fix (b : Nat)
  | arg (i : Nat)
deriving DecidableEq

/-- What is known of a word. -/
inductive Knd where
  | any
  | num
  | ptr (b : Blk)
deriving DecidableEq

/-- What is known of a state: registers, whether the flags are defined, the first blocks, and a number of words that each block
an argument points to has at least (these hold numbers only). -/
structure Abs where
  reg : List Knd
  cf : Bool
  of : Bool
  fix : List (List Knd)
  len : List Nat

/-- The block number of a block, given the blocks the arguments point to. -/
def Blk.at (σ : Nat → Nat) : Blk → Nat
  | .fix b => b
  | .arg i => σ i

def Ok (σ : Nat → Nat) (v : Val) : Knd → Prop
  | .any => True
  | .num => ∃ x, v = .w x
  | .ptr b => v = .ptr (b.at σ)

/-- The state is as known. -/
structure Fits (σ : Nat → Nat) (s : St) (a : Abs) : Prop where
  reg : List.Forall₂ (Ok σ) s.reg a.reg
  cf : a.cf = true → ∃ c, s.cf = some c
  of : a.of = true → ∃ c, s.of = some c
  fix : ∀ (b : Nat) (ks : List Knd), a.fix[b]? = some ks → ∃ m, s.mem[b]? = some m ∧ List.Forall₂ (Ok σ) m ks
  arg : ∀ (i n : Nat), a.len[i]? = some n → 0 < n → a.fix.length ≤ σ i ∧ ∃ m, s.mem[σ i]? = some m ∧ n ≤ m.length ∧ ∀ v ∈ m, ∃ x, v = .w x

def Abs.rd (a : Abs) : Opd → Option Knd
  | .reg r => a.reg[r]?
  | .imm _ => some .num
  | .mem r k =>
    match a.reg[r]? with
    | some (.ptr (.fix b)) => match a.fix[b]? with
      | some m => m[k]?
      | none => none
    | some (.ptr (.arg i)) => match a.len[i]? with
      | some n => if k < n then some .num else none
      | none => none
    | _ => none
  | .glob b k => match a.fix[b]? with
    | some m => m[k]?
    | none => none

def Abs.isNum (a : Abs) (o : Opd) : Bool := a.rd o == some .num

def Abs.wr (a : Abs) (o : Opd) (v : Knd) : Option Abs :=
  match o with
  | .reg r => if r < a.reg.length then some { a with reg := a.reg.set r v } else none
  | .mem r k =>
    match a.reg[r]? with
    | some (.ptr (.fix b)) => match a.fix[b]? with
      | some m => if k < m.length then some { a with fix := a.fix.set b (m.set k v) } else none
      | none => none
    | some (.ptr (.arg i)) => match a.len[i]? with
      | some n => if k < n ∧ v = .num then some a else none
      | none => none
    | _ => none
  | _ => none

def Abs.cin (a : Abs) : Cin → Bool
  | .no => true
  | .cf => a.cf
  | .of => a.of

def Abs.cout (a : Abs) : Cout → Abs
  | .no => a
  | .both => { a with cf := true, of := false }
  | .cf => { a with cf := true }
  | .of => { a with of := true }

def isReg : Opd → Bool
  | .reg _ => true
  | .imm _ => true
  | _ => false

def Abs.step (a : Abs) : Instr → Option Abs
  | .mov s d => do a.wr d (← a.rd s)
  | .addc ci co x y d | .subc _ ci co x y d =>
    if a.isNum x && a.isNum y && a.cin ci then (a.wr d .num).map (·.cout co) else none
  | .mulw fl x y lo hi =>
    if a.isNum x && a.isNum y && isReg lo && isReg hi then do
      let a ← a.wr lo .num
      let a ← a.wr hi .num
      some (if fl then { a with cf := false, of := false } else a)
    else none
  | .mullo x y d | .mulhi x y d | .orshr _ y x d => if a.isNum x && a.isNum y then a.wr d .num else none
  | .xor fl x y d =>
    if (fl && x == y && isReg x) || (a.isNum x && a.isNum y) then
      (a.wr d .num).map fun a => if fl then { a with cf := true, of := true } else a
    else none
  | .and fl x y d =>
    if a.isNum x && a.isNum y then
      (a.wr d .num).map fun a => if fl then { a with cf := true, of := true } else a
    else none
  | .or x y d => if a.isNum x && a.isNum y then (a.wr d .num).map fun a => { a with cf := true, of := true } else none
  | .not x d | .dup32 x d | .shl _ x d | .byte x d => if a.isNum x then a.wr d .num else none
  | .rol _ x d | .neg x d => if a.isNum x then (a.wr d .num).map fun a => { a with cf := false, of := false } else none
  | .bt0 x | .cmpz x => if a.isNum x then some { a with cf := true, of := false } else none
  | .setByte x d => if a.isNum x && (a.rd d).isSome then a.wr d .num else none
  | .csel x y d =>
    if a.cf && isReg x && isReg y && a.isNum x && a.isNum y then a.wr d .num else none

def Abs.acc (a : Abs) (w : Bool) : Opd → List (Blk × Nat × Bool)
  | .mem r k =>
    match a.reg[r]? with
    | some (.ptr b) => [(b, k, w)]
    | _ => []
  | .glob b k => [(.fix b, k, w)]
  | _ => []

def Abs.accs (a : Abs) (i : Instr) : List (Blk × Nat × Bool) :=
  i.opds.1.flatMap (a.acc false) ++ i.opds.2.flatMap (a.acc true)

/-- The abstract run and its accesses. -/
def Abs.trace (a : Abs) : List Instr → Option (List (Blk × Nat × Bool))
  | [] => some []
  | i :: is => match a.step i with
    | some a' => (a'.trace is).map (a.accs i ++ ·)
    | none => none

/-! ### Soundness -/

variable {σ : Nat → Nat} {s : St} {a : Abs}

theorem forall₂_get {α β : Type} {R : α → β → Prop} {l : List α} {m : List β} (h : List.Forall₂ R l m) {i : Nat} {y : β} (e : m[i]? = some y) :
    ∃ x, l[i]? = some x ∧ R x y := by
  induction h generalizing i with
  | nil => simp at e
  | cons hr _ ih =>
    cases i with
    | zero => simp at e; subst e; exact ⟨_, rfl, hr⟩
    | succ i => exact ih (by simpa using e)

theorem forall₂_set {α β : Type} {R : α → β → Prop} {l : List α} {m : List β} (h : List.Forall₂ R l m) (i : Nat) {x : α} {y : β} (r : R x y) :
    List.Forall₂ R (l.set i x) (m.set i y) := by
  induction h generalizing i with
  | nil => exact .nil
  | cons hr ht ih =>
    cases i with
    | zero => exact .cons r ht
    | succ i => exact .cons hr (ih i)

theorem rd_ok (h : Fits σ s a) {o : Opd} {k : Knd} (e : a.rd o = some k) : ∃ v, s.rd o = some v ∧ Ok σ v k := by
  cases o with
  | reg r => exact forall₂_get h.reg e
  | imm x => simp only [Abs.rd, Option.some.injEq] at e; subst e; exact ⟨_, rfl, _, rfl⟩
  | glob b j =>
    simp only [Abs.rd] at e
    split at e
    · next m hm =>
      obtain ⟨m', e', f⟩ := h.fix b m hm
      simp only [St.rd, e']
      exact forall₂_get f e
    · cases e
  | mem r j =>
    simp only [Abs.rd] at e
    split at e
    · next b hb =>
      obtain ⟨v, e1, e2⟩ := forall₂_get h.reg hb
      simp only [Ok, Blk.at] at e2
      subst e2
      split at e
      · next m hm =>
        obtain ⟨m', e', f⟩ := h.fix b m hm
        simp only [St.rd, e1, e']
        exact forall₂_get f e
      · cases e
    · next i hi =>
      obtain ⟨v, e1, e2⟩ := forall₂_get h.reg hi
      simp only [Ok, Blk.at] at e2
      subst e2
      split at e
      · next n hn =>
        split at e
        · next hj =>
          simp only [Option.some.injEq] at e
          subst e
          obtain ⟨_, m, e', l, q⟩ := h.arg i n hn (by omega)
          have hj' : j < m.length := by omega
          simp only [St.rd, e1, e', List.getElem?_eq_getElem hj']
          exact ⟨_, rfl, q _ (List.getElem_mem hj')⟩
        · cases e
      · cases e
    · cases e

theorem rdw_ok (h : Fits σ s a) {o : Opd} (e : a.isNum o = true) : ∃ x, s.rdw o = some x := by
  obtain ⟨v, e1, x, e2⟩ := rd_ok h (o := o) (k := .num) (by simpa [Abs.isNum] using e)
  exact ⟨x, by simp only [St.rdw, e1, e2]⟩

theorem wr_ok (h : Fits σ s a) {o : Opd} {k : Knd} {a' : Abs} (e : a.wr o k = some a') {v : Val} (hv : Ok σ v k) :
    ∃ s', s.wr o v = some s' ∧ Fits σ s' a' ∧ s'.cf = s.cf ∧ s'.of = s.of := by
  cases o with
  | reg r =>
    simp only [Abs.wr] at e
    split at e
    · next hr =>
      simp only [Option.some.injEq] at e
      subst e
      rw [← h.reg.length_eq] at hr
      simp only [St.wr, if_pos hr]
      exact ⟨_, rfl, ⟨forall₂_set h.reg r hv, h.cf, h.of, h.fix, h.arg⟩, rfl, rfl⟩
    · cases e
  | imm x => cases e
  | glob b j => cases e
  | mem r j =>
    simp only [Abs.wr] at e
    split at e
    · next b hb =>
      obtain ⟨v', e1, e2⟩ := forall₂_get h.reg hb
      simp only [Ok, Blk.at] at e2
      subst e2
      split at e
      · next m hm =>
        split at e
        · next hj =>
          simp only [Option.some.injEq] at e
          subst e
          obtain ⟨m', e', f⟩ := h.fix b m hm
          have hb' : b < a.fix.length := by
            rcases Nat.lt_or_ge b a.fix.length with q | q
            · exact q
            · rw [List.getElem?_eq_none q] at hm; cases hm
          have hb2 : b < s.mem.length := by
            rcases Nat.lt_or_ge b s.mem.length with q | q
            · exact q
            · rw [List.getElem?_eq_none q] at e'; cases e'
          rw [← f.length_eq] at hj
          simp only [St.wr, e1, St.wrMem, e', if_pos hj]
          refine ⟨_, rfl, ⟨h.reg, h.cf, h.of, ?_, ?_⟩, rfl, rfl⟩
          · intro c ks hc
            by_cases hcb : c = b
            · subst hcb
              rw [List.getElem?_set_self hb'] at hc
              simp only [Option.some.injEq] at hc
              subst hc
              exact ⟨_, List.getElem?_set_self hb2, forall₂_set f j hv⟩
            · rw [List.getElem?_set_ne (Ne.symm hcb)] at hc
              obtain ⟨w, w1, w2⟩ := h.fix c ks hc
              exact ⟨w, by rw [List.getElem?_set_ne (Ne.symm hcb)]; exact w1, w2⟩
          · intro i n hi hn
            obtain ⟨q, w, w1, w2⟩ := h.arg i n hi hn
            refine ⟨by simpa using q, w, ?_, w2⟩
            rw [List.getElem?_set_ne (by omega)]
            exact w1
        · cases e
      · cases e
    · next i hi =>
      obtain ⟨v', e1, e2⟩ := forall₂_get h.reg hi
      simp only [Ok, Blk.at] at e2
      subst e2
      split at e
      · next n hn =>
        split at e
        · next hj =>
          simp only [Option.some.injEq] at e
          subst e
          obtain ⟨hj, rfl⟩ := hj
          obtain ⟨q, m, e', l, q'⟩ := h.arg i n hn (by omega)
          have hj' : j < m.length := by omega
          have hb2 : σ i < s.mem.length := by
            rcases Nat.lt_or_ge (σ i) s.mem.length with q | q
            · exact q
            · rw [List.getElem?_eq_none q] at e'; cases e'
          simp only [St.wr, e1, St.wrMem, e', if_pos hj']
          refine ⟨_, rfl, ⟨h.reg, h.cf, h.of, ?_, ?_⟩, rfl, rfl⟩
          · intro c ks hc
            obtain ⟨w, w1, w2⟩ := h.fix c ks hc
            have hc' : c < a.fix.length := by
              rcases Nat.lt_or_ge c a.fix.length with q | q
              · exact q
              · rw [List.getElem?_eq_none q] at hc; cases hc
            exact ⟨w, by rw [List.getElem?_set_ne (by omega)]; exact w1, w2⟩
          · intro i' n' hi' hn'
            obtain ⟨p, w, w1, w2, w3⟩ := h.arg i' n' hi' hn'
            refine ⟨p, ?_⟩
            by_cases hcb : σ i' = σ i
            · rw [hcb] at w1 ⊢
              rw [e'] at w1
              simp only [Option.some.injEq] at w1
              subst w1
              refine ⟨_, List.getElem?_set_self hb2, by simpa using w2, fun u hu => ?_⟩
              rcases List.mem_or_eq_of_mem_set hu with hu | hu
              · exact w3 u hu
              · exact hu ▸ hv
            · exact ⟨w, by rw [List.getElem?_set_ne (Ne.symm hcb)]; exact w1, w2, w3⟩
        · cases e
      · cases e
    · cases e

theorem cin_ok (h : Fits σ s a) {ci : Cin} (e : a.cin ci = true) : ∃ c, s.cin ci = some c := by
  cases ci with
  | no => exact ⟨_, rfl⟩
  | cf => exact h.cf e
  | of => exact h.of e

theorem cout_ok (h : Fits σ s a) (co : Cout) (c : Bool) : Fits σ (s.cout co c) (a.cout co) := by
  cases co with
  | no => exact h
  | both => exact ⟨h.reg, fun _ => ⟨_, rfl⟩, (by simp [Abs.cout]), h.fix, h.arg⟩
  | cf => exact ⟨h.reg, fun _ => ⟨_, rfl⟩, h.of, h.fix, h.arg⟩
  | of => exact ⟨h.reg, h.cf, fun _ => ⟨_, rfl⟩, h.fix, h.arg⟩

theorem flags_ok (h : Fits σ s a) (c c' : Option Bool) (d d' : Bool) (e : d = true → ∃ x, c = some x) (e' : d' = true → ∃ x, c' = some x) :
    Fits σ { s with cf := c, of := c' } { a with cf := d, of := d' } :=
  ⟨h.reg, e, e', h.fix, h.arg⟩

theorem ok_num (x : W64) : Ok σ (.w x) .num := ⟨x, rfl⟩

theorem step_ok (h : Fits σ s a) {i : Instr} {a' : Abs} (e : a.step i = some a') : ∃ s', step s i = some s' ∧ Fits σ s' a' := by
  cases i with
  | mov x d =>
    simp only [Abs.step, Option.bind_eq_bind, Option.bind_eq_some_iff] at e
    obtain ⟨k, e1, e2⟩ := e
    obtain ⟨v, f1, f2⟩ := rd_ok h e1
    obtain ⟨s', g1, g2, _⟩ := wr_ok h e2 f2
    exact ⟨s', by simp [step, f1, g1], g2⟩
  | addc ci co x y d =>
    simp only [Abs.step] at e
    split at e
    · next hc =>
      simp only [Bool.and_eq_true] at hc
      obtain ⟨⟨hx, hy⟩, hc⟩ := hc
      obtain ⟨x', ex⟩ := rdw_ok h hx
      obtain ⟨y', ey⟩ := rdw_ok h hy
      obtain ⟨c, ec⟩ := cin_ok h hc
      obtain ⟨b, e1, rfl⟩ := Option.map_eq_some_iff.mp e
      obtain ⟨s', g1, g2, _⟩ := wr_ok h e1 (ok_num (addW x' y' c).1)
      exact ⟨_, by simp only [step, ex, ey, ec, g1, Option.bind_eq_bind, Option.bind_some]; rfl, cout_ok g2 co _⟩
    · cases e
  | subc inv ci co x y d =>
    simp only [Abs.step] at e
    split at e
    · next hc =>
      simp only [Bool.and_eq_true] at hc
      obtain ⟨⟨hx, hy⟩, hc⟩ := hc
      obtain ⟨x', ex⟩ := rdw_ok h hx
      obtain ⟨y', ey⟩ := rdw_ok h hy
      obtain ⟨c, ec⟩ := cin_ok h hc
      obtain ⟨b, e1, rfl⟩ := Option.map_eq_some_iff.mp e
      obtain ⟨s', g1, g2, _⟩ := wr_ok h e1 (ok_num (subW x' y' (borrow inv ci c)).1)
      exact ⟨_, by simp only [step, ex, ey, ec, g1, Option.bind_eq_bind, Option.bind_some]; rfl, cout_ok g2 co _⟩
    · cases e
  | mulw fl x y lo hi =>
    simp only [Abs.step] at e
    split at e
    · next hc =>
      simp only [Bool.and_eq_true] at hc
      obtain ⟨x', ex⟩ := rdw_ok h hc.1.1.1
      obtain ⟨y', ey⟩ := rdw_ok h hc.1.1.2
      simp only [Option.bind_eq_bind, Option.bind_eq_some_iff] at e
      obtain ⟨b, e1, c, e2, e3⟩ := e
      obtain ⟨s', g1, g2, _⟩ := wr_ok h e1 (ok_num (x' * y'))
      obtain ⟨s'', k1, k2, _⟩ := wr_ok g2 e2 (ok_num (mulHi x' y'))
      simp only [Option.some.injEq] at e3
      subst e3
      refine ⟨_, by simp only [step, ex, ey, g1, k1, Option.bind_eq_bind, Option.bind_some]; rfl, ?_⟩
      cases fl
      · exact k2
      · exact flags_ok k2 _ _ _ _ (by simp) (by simp)
    · cases e
  | mullo x y d | mulhi x y d =>
    simp only [Abs.step] at e
    split at e
    · next hc =>
      simp only [Bool.and_eq_true] at hc
      obtain ⟨x', ex⟩ := rdw_ok h hc.1
      obtain ⟨y', ey⟩ := rdw_ok h hc.2
      obtain ⟨s', g1, g2, _⟩ := wr_ok h e (ok_num _)
      exact ⟨s', by simp only [step, ex, ey, Option.bind_eq_bind, Option.bind_some]; exact g1, g2⟩
    · cases e
  | orshr n y x d =>
    simp only [Abs.step] at e
    split at e
    · next hc =>
      simp only [Bool.and_eq_true] at hc
      obtain ⟨x', ex⟩ := rdw_ok h hc.1
      obtain ⟨y', ey⟩ := rdw_ok h hc.2
      obtain ⟨s', g1, g2, _⟩ := wr_ok h e (ok_num _)
      exact ⟨s', by simp only [step, ex, ey, Option.bind_eq_bind, Option.bind_some]; exact g1, g2⟩
    · cases e
  | xor fl x y d =>
    simp only [Abs.step] at e
    split at e
    · next hc =>
      obtain ⟨b, e1, rfl⟩ := Option.map_eq_some_iff.mp e
      have hv : ∃ v, (if fl && x == y then some (0 : W64) else do
          let x ← s.rdw x
          let y ← s.rdw y
          some (x ^^^ y)) = some v := by
        split
        · exact ⟨_, rfl⟩
        · next hn =>
          simp only [Bool.or_eq_true, Bool.and_eq_true] at hc hn
          rcases hc with hc | hc
          · exact absurd hc.1 hn
          · obtain ⟨x', ex⟩ := rdw_ok h hc.1
            obtain ⟨y', ey⟩ := rdw_ok h hc.2
            exact ⟨x' ^^^ y', by simp [ex, ey]⟩
      obtain ⟨v, hv⟩ := hv
      obtain ⟨s', g1, g2, _⟩ := wr_ok h e1 (ok_num v)
      refine ⟨if fl then { s' with cf := some false, of := some false } else s', ?_, ?_⟩
      · have q : step s (.xor fl x y d) = ((if fl && x == y then some (0 : W64) else do
            let x ← s.rdw x
            let y ← s.rdw y
            some (x ^^^ y)) >>= fun v => s.wr d (.w v) >>= fun s => some (if fl then { s with cf := some false, of := some false } else s)) := by
          simp only [step]
          split
          · rfl
          · cases s.rdw x <;> cases s.rdw y <;> rfl
        rw [q, hv]
        simp only [Option.bind_eq_bind, Option.bind_some, g1]
      cases fl
      · exact g2
      · exact flags_ok g2 _ _ _ _ (by simp) (by simp)
    · cases e
  | and fl x y d =>
    simp only [Abs.step] at e
    split at e
    · next hc =>
      simp only [Bool.and_eq_true] at hc
      obtain ⟨x', ex⟩ := rdw_ok h hc.1
      obtain ⟨y', ey⟩ := rdw_ok h hc.2
      obtain ⟨b, e1, rfl⟩ := Option.map_eq_some_iff.mp e
      obtain ⟨s', g1, g2, _⟩ := wr_ok h e1 (ok_num (x' &&& y'))
      refine ⟨_, by simp only [step, ex, ey, g1, Option.bind_eq_bind, Option.bind_some]; rfl, ?_⟩
      cases fl
      · exact g2
      · exact flags_ok g2 _ _ _ _ (by simp) (by simp)
    · cases e
  | or x y d =>
    simp only [Abs.step] at e
    split at e
    · next hc =>
      simp only [Bool.and_eq_true] at hc
      obtain ⟨x', ex⟩ := rdw_ok h hc.1
      obtain ⟨y', ey⟩ := rdw_ok h hc.2
      obtain ⟨b, e1, rfl⟩ := Option.map_eq_some_iff.mp e
      obtain ⟨s', g1, g2, _⟩ := wr_ok h e1 (ok_num (x' ||| y'))
      exact ⟨_, by simp only [step, ex, ey, g1, Option.bind_eq_bind, Option.bind_some]; rfl, flags_ok g2 _ _ _ _ (by simp) (by simp)⟩
    · cases e
  | not x d | dup32 x d | shl n x d | byte x d =>
    simp only [Abs.step] at e
    split at e
    · next hc =>
      obtain ⟨x', ex⟩ := rdw_ok h hc
      obtain ⟨s', g1, g2, _⟩ := wr_ok h e (ok_num _)
      exact ⟨s', by simp only [step, ex, Option.bind_eq_bind, Option.bind_some]; exact g1, g2⟩
    · cases e
  | rol n x d =>
    simp only [Abs.step] at e
    split at e
    · next hc =>
      obtain ⟨x', ex⟩ := rdw_ok h hc
      obtain ⟨b, e1, rfl⟩ := Option.map_eq_some_iff.mp e
      obtain ⟨s', g1, g2, _⟩ := wr_ok h e1 (ok_num (x'.rotateLeft n))
      exact ⟨_, by simp only [step, ex, g1, Option.bind_eq_bind, Option.bind_some]; rfl, flags_ok g2 _ _ _ _ (by simp) (by simp)⟩
    · cases e
  | neg x d =>
    simp only [Abs.step] at e
    split at e
    · next hc =>
      obtain ⟨x', ex⟩ := rdw_ok h hc
      obtain ⟨b, e1, rfl⟩ := Option.map_eq_some_iff.mp e
      obtain ⟨s', g1, g2, _⟩ := wr_ok h e1 (ok_num (0 - x'))
      refine ⟨_, by simp only [step, ex, Option.bind_eq_bind, Option.bind_some]; rw [g1]; rfl, flags_ok g2 _ _ _ _ (by simp) (by simp)⟩
    · cases e
  | bt0 x | cmpz x =>
    simp only [Abs.step] at e
    split at e
    · next hc =>
      obtain ⟨x', ex⟩ := rdw_ok h hc
      simp only [Option.some.injEq] at e
      subst e
      exact ⟨_, by simp only [step, ex, Option.bind_eq_bind, Option.bind_some]; rfl, flags_ok h _ _ _ _ (by simp) (by simp)⟩
    · cases e
  | setByte x d =>
    simp only [Abs.step] at e
    split at e
    · next hc =>
      simp only [Bool.and_eq_true] at hc
      obtain ⟨x', ex⟩ := rdw_ok h hc.1
      obtain ⟨k, ek⟩ := Option.isSome_iff_exists.mp hc.2
      obtain ⟨v, ev, _⟩ := rd_ok h ek
      cases v with
      | w y =>
        obtain ⟨s', g1, g2, _⟩ := wr_ok h e (ok_num ((y &&& ~~~0xff) ||| (x' &&& 0xff)))
        exact ⟨s', by simp only [step, ex, ev, Option.bind_eq_bind, Option.bind_some]; exact g1, g2⟩
      | ptr y =>
        obtain ⟨s', g1, g2, _⟩ := wr_ok h e (ok_num (x' &&& 0xff))
        exact ⟨s', by simp only [step, ex, ev, Option.bind_eq_bind, Option.bind_some]; exact g1, g2⟩
    · cases e
  | csel x y d =>
    simp only [Abs.step] at e
    split at e
    · next hc =>
      simp only [Bool.and_eq_true] at hc
      obtain ⟨⟨⟨⟨hc, _⟩, _⟩, hx⟩, hy⟩ := hc
      obtain ⟨c, ec⟩ := h.cf hc
      have hv : ∃ v, s.rd (if c then x else y) = some v ∧ Ok σ v .num := by
        cases c
        · exact rd_ok h (by simpa [Abs.isNum] using hy)
        · exact rd_ok h (by simpa [Abs.isNum] using hx)
      obtain ⟨v, v1, v2⟩ := hv
      obtain ⟨s', g1, g2, _⟩ := wr_ok h e v2
      exact ⟨s', by simp only [step, ec, Option.bind_eq_bind, Option.bind_some]; rw [v1]; exact g1, g2⟩
    · cases e

/-! ### Accesses -/

/-- The access itself. -/
def conc (σ : Nat → Nat) (t : Blk × Nat × Bool) : Acc := ⟨t.1.at σ, t.2.1, t.2.2⟩

theorem acc_reg {o : Opd} (e : isReg o = true) (w : Bool) : s.acc w o = (a.acc w o).map (conc σ) := by
  cases o <;> first | rfl | cases e

theorem acc_rd (h : Fits σ s a) {o : Opd} {k : Knd} (e : a.rd o = some k) (w : Bool) : s.acc w o = (a.acc w o).map (conc σ) := by
  cases o with
  | reg r => rfl
  | imm x => rfl
  | glob b j => rfl
  | mem r j =>
    simp only [Abs.rd] at e
    simp only [St.acc, Abs.acc]
    split at e
    · next b hb =>
      obtain ⟨v, e1, e2⟩ := forall₂_get h.reg hb
      simp only [Ok] at e2
      simp [e1, e2, hb, conc]
    · next b hb =>
      obtain ⟨v, e1, e2⟩ := forall₂_get h.reg hb
      simp only [Ok] at e2
      simp [e1, e2, hb, conc]
    · cases e

theorem acc_num (h : Fits σ s a) {o : Opd} (e : a.isNum o = true) (w : Bool) : s.acc w o = (a.acc w o).map (conc σ) :=
  acc_rd h (k := .num) (by simpa [Abs.isNum] using e) w

theorem acc_wr (h : Fits σ s a) {o : Opd} {k : Knd} {a' : Abs} (e : a.wr o k = some a') (w : Bool) : s.acc w o = (a.acc w o).map (conc σ) := by
  cases o with
  | reg r => rfl
  | imm x => rfl
  | glob b j => rfl
  | mem r j =>
    simp only [Abs.wr] at e
    simp only [St.acc, Abs.acc]
    split at e
    · next b hb =>
      obtain ⟨v, e1, e2⟩ := forall₂_get h.reg hb
      simp only [Ok] at e2
      simp [e1, e2, hb, conc]
    · next b hb =>
      obtain ⟨v, e1, e2⟩ := forall₂_get h.reg hb
      simp only [Ok] at e2
      simp [e1, e2, hb, conc]
    · cases e

theorem accs_ok (h : Fits σ s a) {i : Instr} {a' : Abs} (e : a.step i = some a') : s.accs i = (a.accs i).map (conc σ) := by
  have one : ∀ {x d : Opd}, s.acc false x = (a.acc false x).map (conc σ) → s.acc true d = (a.acc true d).map (conc σ) →
      [x].flatMap (s.acc false) ++ [d].flatMap (s.acc true) = ([x].flatMap (a.acc false) ++ [d].flatMap (a.acc true)).map (conc σ) := by
    intro x d p q
    simp only [List.flatMap_cons, List.flatMap_nil, List.append_nil, List.map_append, p, q]
  have two : ∀ {x y d : Opd}, s.acc false x = (a.acc false x).map (conc σ) → s.acc false y = (a.acc false y).map (conc σ) →
      s.acc true d = (a.acc true d).map (conc σ) →
      [x, y].flatMap (s.acc false) ++ [d].flatMap (s.acc true) = ([x, y].flatMap (a.acc false) ++ [d].flatMap (a.acc true)).map (conc σ) := by
    intro x y d p p' q
    simp only [List.flatMap_cons, List.flatMap_nil, List.append_nil, List.map_append, p, p', q]
  cases i with
  | mov x d =>
    simp only [Abs.step, Option.bind_eq_bind, Option.bind_eq_some_iff] at e
    obtain ⟨k, e1, e2⟩ := e
    exact one (acc_rd h e1 _) (acc_wr h e2 _)
  | addc ci co x y d | subc inv ci co x y d =>
    simp only [Abs.step] at e
    split at e
    · next hc =>
      simp only [Bool.and_eq_true] at hc
      obtain ⟨b, e1, rfl⟩ := Option.map_eq_some_iff.mp e
      exact two (acc_num h hc.1.1 _) (acc_num h hc.1.2 _) (acc_wr h e1 _)
    · cases e
  | mulw fl x y lo hi =>
    simp only [Abs.step] at e
    split at e
    · next hc =>
      simp only [Bool.and_eq_true] at hc
      obtain ⟨⟨⟨hx, hy⟩, hl⟩, hh⟩ := hc
      simp only [St.accs, Abs.accs, Instr.opds, List.flatMap_cons, List.flatMap_nil, List.append_nil, List.map_append, acc_num h hx, acc_num h hy,
        acc_reg (s := s) (a := a) (σ := σ) hl, acc_reg (s := s) (a := a) (σ := σ) hh]
    · cases e
  | mullo x y d | mulhi x y d =>
    simp only [Abs.step] at e
    split at e
    · next hc =>
      simp only [Bool.and_eq_true] at hc
      exact two (acc_num h hc.1 _) (acc_num h hc.2 _) (acc_wr h e _)
    · cases e
  | orshr n y x d =>
    simp only [Abs.step] at e
    split at e
    · next hc =>
      simp only [Bool.and_eq_true] at hc
      exact two (acc_num h hc.1 _) (acc_num h hc.2 _) (acc_wr h e _)
    · cases e
  | xor fl x y d =>
    simp only [Abs.step] at e
    split at e
    · next hc =>
      obtain ⟨b, e1, rfl⟩ := Option.map_eq_some_iff.mp e
      simp only [Bool.or_eq_true, Bool.and_eq_true, beq_iff_eq] at hc
      rcases hc with ⟨⟨_, rfl⟩, hr⟩ | hc
      · exact two (acc_reg hr _) (acc_reg hr _) (acc_wr h e1 _)
      · exact two (acc_num h hc.1 _) (acc_num h hc.2 _) (acc_wr h e1 _)
    · cases e
  | and fl x y d | or x y d =>
    simp only [Abs.step] at e
    split at e
    · next hc =>
      obtain ⟨b, e1, rfl⟩ := Option.map_eq_some_iff.mp e
      simp only [Bool.and_eq_true] at hc
      exact two (acc_num h hc.1 _) (acc_num h hc.2 _) (acc_wr h e1 _)
    · cases e
  | not x d | dup32 x d | shl n x d | byte x d =>
    simp only [Abs.step] at e
    split at e
    · next hc => exact one (acc_num h hc _) (acc_wr h e _)
    · cases e
  | rol n x d | neg x d =>
    simp only [Abs.step] at e
    split at e
    · next hc =>
      obtain ⟨b, e1, rfl⟩ := Option.map_eq_some_iff.mp e
      exact one (acc_num h hc _) (acc_wr h e1 _)
    · cases e
  | bt0 x | cmpz x =>
    simp only [Abs.step] at e
    split at e
    · next hc => simp only [St.accs, Abs.accs, Instr.opds, List.flatMap_cons, List.flatMap_nil, List.append_nil, acc_num h hc]
    · cases e
  | setByte x d =>
    simp only [Abs.step] at e
    split at e
    · next hc =>
      simp only [Bool.and_eq_true] at hc
      obtain ⟨k, ek⟩ := Option.isSome_iff_exists.mp hc.2
      exact two (acc_num h hc.1 _) (acc_rd h ek _) (acc_wr h e _)
    · cases e
  | csel x y d =>
    simp only [Abs.step] at e
    split at e
    · next hc =>
      simp only [Bool.and_eq_true] at hc
      obtain ⟨⟨⟨⟨_, hx⟩, hy⟩, _⟩, _⟩ := hc
      have hn : ∀ {o : Opd}, isReg o = true → (∀ w, s.acc w o = []) ∧ ∀ w, a.acc w o = [] := by
        intro o ho
        cases o <;> first | exact ⟨fun _ => rfl, fun _ => rfl⟩ | cases ho
      simp only [St.accs, Abs.accs, Instr.opds, List.flatMap_cons, List.flatMap_nil, List.append_nil, List.map_append, (hn hx).2, (hn hy).2,
        List.nil_append, acc_wr h e]
      split
      · rw [(hn hx).1]; rfl
      · rw [(hn hy).1]; rfl
    · cases e

/-- What the abstract run finds is what happens, and the program runs to its end. -/
theorem trace_ok {is : List Instr} : ∀ {s : St} {a : Abs} {t : List (Blk × Nat × Bool)}, Fits σ s a → a.trace is = some t →
    trace s is = t.map (conc σ) ∧ ∃ s', run s is = some s' := by
  induction is with
  | nil =>
    intro s a t _ e
    simp only [Abs.trace, Option.some.injEq] at e
    subst e
    exact ⟨rfl, s, rfl⟩
  | cons i is ih =>
    intro s a t h e
    simp only [Abs.trace] at e
    split at e
    · next a' ha =>
      obtain ⟨t', e1, rfl⟩ := Option.map_eq_some_iff.mp e
      obtain ⟨s', f1, f2⟩ := step_ok h ha
      obtain ⟨g1, s'', g2⟩ := ih f2 e1
      refine ⟨?_, s'', ?_⟩
      · simp only [trace, f1, g1, accs_ok h ha, List.map_append]
      · simp only [run, f1, Option.bind_eq_bind, Option.bind_some, g2]
    · cases e

end Lemmas.AsmSteps
