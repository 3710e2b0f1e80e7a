import Verif.Lemmas.AsmSym
import Mathlib.Data.List.Forall2
/-
The machine of `Model.Asm` does what the symbolic execution of `Lemmas.AsmSym` says.
-/
namespace Lemmas.AsmSound
open Model Model.Asm Lemmas.AsmPoly Lemmas.AsmSym

variable (e : Env)

/-- A symbolic value describes a value. -/
def arel : AVal → Val → Prop
  | .any, _ => True
  | .ptr b, v => v = .ptr b
  | .p q, v => ∃ x : W64, v = .w x ∧ e.eval q = x.toNat

/-- A polynomial describes a flag. -/
def frel : Option Poly → Option Bool → Prop
  | none, _ => True
  | some q, c => ∃ b : Bool, c = some b ∧ e.eval q = b.toNat

/-- A symbolic state describes a state. -/
structure Rel (σ : SSt) (s : St) : Prop where
  reg : List.Forall₂ (arel e) σ.reg s.reg
  mem : List.Forall₂ (List.Forall₂ (arel e)) σ.mem s.mem
  cf : frel e σ.cf s.cf
  of : frel e σ.of s.of
  hist : ∀ q ∈ σ.hist, 0 ≤ e.eval q ∧ e.eval q < 2 ^ 64
  defs : ∀ q ∈ σ.defs, e.eval q = 0

variable {e}

theorem arel_p {q : Poly} {x : W64} (h : e.eval q = x.toNat) : arel e (.p q) (.w x) := ⟨x, rfl, h⟩

/-! ### lists -/

theorem f2_get {α β : Type} {R : α → β → Prop} {l : List α} {m : List β} (h : List.Forall₂ R l m) (i : Nat) (a : α)
    (ha : l[i]? = some a) : ∃ b, m[i]? = some b ∧ R a b := by
  induction h generalizing i with
  | nil => simp at ha
  | cons hab _ ih =>
    cases i with
    | zero => simp only [List.getElem?_cons_zero, Option.some.injEq] at ha ⊢; exact ⟨_, rfl, ha ▸ hab⟩
    | succ i => simpa using ih i (by simpa using ha)

theorem f2_set {α β : Type} {R : α → β → Prop} {l : List α} {m : List β} (h : List.Forall₂ R l m) (i : Nat) {a : α} {b : β}
    (hab : R a b) : List.Forall₂ R (l.set i a) (m.set i b) := by
  induction h generalizing i with
  | nil => exact .nil
  | cons hx ht ih =>
    cases i with
    | zero => exact .cons hab ht
    | succ i => exact .cons hx (ih i)

/-! ### reading and writing -/
variable {σ σ' : SSt} {s : St}

theorem rd_sound (h : Rel e σ s) {o : Opd} {a : AVal} (ha : σ.rd o = some a) : ∃ v, s.rd o = some v ∧ arel e a v := by
  cases o with
  | reg r => exact f2_get h.reg r a ha
  | imm x =>
    simp only [SSt.rd] at ha
    cases x with
    | zero =>
      simp only [Option.some.injEq] at ha
      subst ha
      exact ⟨_, rfl, _, rfl, by simp [Env.eval]⟩
    | succ x =>
      simp only at ha
      rcases hb : Nat.blt (x + 1) 18446744073709551616 with _ | _
      · rw [hb] at ha; simp at ha
      · rw [hb, cond_true, Option.some.injEq] at ha
        subst ha
        refine ⟨_, rfl, _, rfl, ?_⟩
        rw [eval_cons, eval_nil, mon_zero, BitVec.toNat_ofNat, Nat.mod_eq_of_lt (by simpa using Nat.blt_eq.mp hb)]
        simp
  | mem r k =>
    simp only [SSt.rd] at ha
    rcases h1 : σ.reg[r]? with _ | v
    · rw [h1] at ha; simp at ha
    · rw [h1] at ha
      cases v with
      | any => simp at ha
      | p q => simp at ha
      | ptr b =>
        simp only at ha
        obtain ⟨v', hv, hr⟩ := f2_get h.reg r _ h1
        have hv' : v' = .ptr b := hr
        rcases h2 : σ.mem[b]? with _ | m
        · rw [h2] at ha; simp at ha
        · rw [h2] at ha
          obtain ⟨m', hm, hmr⟩ := f2_get h.mem b _ h2
          obtain ⟨w, hw, hwr⟩ := f2_get hmr k a ha
          refine ⟨w, ?_, hwr⟩
          simp only [St.rd, hv, hv', hm, hw]
  | glob b k =>
    simp only [SSt.rd] at ha
    rcases h2 : σ.mem[b]? with _ | m
    · rw [h2] at ha; simp at ha
    · rw [h2] at ha
      obtain ⟨m', hm, hmr⟩ := f2_get h.mem b _ h2
      obtain ⟨w, hw, hwr⟩ := f2_get hmr k a ha
      refine ⟨w, ?_, hwr⟩
      simp only [St.rd, hm, hw]

theorem rdp_sound (h : Rel e σ s) {o : Opd} {q : Poly} (ha : σ.rdp o = some q) : ∃ x, s.rdw o = some x ∧ e.eval q = x.toNat := by
  unfold SSt.rdp at ha
  rcases h1 : σ.rd o with _ | a
  · rw [h1] at ha; simp at ha
  · rw [h1] at ha
    cases a with
    | any => simp at ha
    | ptr b => simp at ha
    | p q' =>
      simp only [Option.some.injEq] at ha
      subst ha
      obtain ⟨v, hv, x, hx, hq⟩ := rd_sound h h1
      exact ⟨x, by simp only [St.rdw, hv, hx], hq⟩

/-- The parts of the state other than registers and memory. -/
structure Same (σ σ' : SSt) (s s' : St) : Prop where
  cf : σ'.cf = σ.cf
  of : σ'.of = σ.of
  hist : σ'.hist = σ.hist
  defs : σ'.defs = σ.defs
  cf' : s'.cf = s.cf
  of' : s'.of = s.of

theorem wrMem_sound (h : Rel e σ s) {b k : Nat} {a : AVal} {v : Val} (hav : arel e a v) (hw : σ.wrMem b k a = some σ') :
    ∃ s', s.wrMem b k v = some s' ∧ Rel e σ' s' ∧ Same σ σ' s s' := by
  unfold SSt.wrMem at hw
  rcases h1 : σ.mem[b]? with _ | m
  · rw [h1] at hw; simp at hw
  · rw [h1] at hw
    simp only at hw
    rcases h2 : Nat.blt k m.length with _ | _
    · rw [h2] at hw; simp at hw
    · rw [h2, cond_true, Option.some.injEq] at hw
      subst hw
      obtain ⟨m', hm, hmr⟩ := f2_get h.mem b _ h1
      have hl : k < m'.length := by rw [← hmr.length_eq]; exact Nat.blt_eq.mp h2
      refine ⟨{ s with mem := s.mem.set b (m'.set k v) }, ?_, ?_, ⟨rfl, rfl, rfl, rfl, rfl, rfl⟩⟩
      · simp only [St.wrMem, hm, hl, if_true]
      · exact ⟨h.reg, f2_set h.mem b (f2_set hmr k hav), h.cf, h.of, h.hist, h.defs⟩

theorem wr_sound (h : Rel e σ s) {o : Opd} {a : AVal} {v : Val} (hav : arel e a v) (hw : σ.wr o a = some σ') :
    ∃ s', s.wr o v = some s' ∧ Rel e σ' s' ∧ Same σ σ' s s' := by
  cases o with
  | reg r =>
    simp only [SSt.wr] at hw
    rcases h2 : Nat.blt r σ.reg.length with _ | _
    · rw [h2] at hw; simp at hw
    · rw [h2, cond_true, Option.some.injEq] at hw
      subst hw
      have hl : r < s.reg.length := by rw [← h.reg.length_eq]; exact Nat.blt_eq.mp h2
      refine ⟨{ s with reg := s.reg.set r v }, ?_, ?_, ⟨rfl, rfl, rfl, rfl, rfl, rfl⟩⟩
      · simp only [St.wr, hl, if_true]
      · exact ⟨f2_set h.reg r hav, h.mem, h.cf, h.of, h.hist, h.defs⟩
  | imm x => simp [SSt.wr] at hw
  | glob b k => simp [SSt.wr] at hw
  | mem r k =>
    simp only [SSt.wr] at hw
    rcases h1 : σ.reg[r]? with _ | v'
    · rw [h1] at hw; simp at hw
    · rw [h1] at hw
      cases v' with
      | any => simp at hw
      | p q => simp at hw
      | ptr b =>
        simp only at hw
        obtain ⟨w', hw', hr⟩ := f2_get h.reg r _ h1
        have hr' : w' = .ptr b := hr
        obtain ⟨s', hs, hrel⟩ := wrMem_sound h hav hw
        exact ⟨s', by simp only [St.wr, hw', hr', hs], hrel⟩

theorem res_sound (h : Rel e σ s) {pc : Nat} {rn : Bool} {d : Opd} {r : Poly} {x : W64} (hx : e.eval r = x.toNat)
    (hv : e.v (idx pc 1 0) = x.toNat) (hpc : idx pc 1 0 < 65536) (hw : σ.res pc rn d r = some σ') :
    ∃ s', s.wr d (.w x) = some s' ∧ Rel e σ' s' ∧ σ'.cf = σ.cf ∧ σ'.of = σ.of ∧ s'.cf = s.cf ∧ s'.of = s.of := by
  have hxl : 0 ≤ (x.toNat : Int) ∧ (x.toNat : Int) < 2 ^ 64 := ⟨by positivity, by exact_mod_cast x.isLt⟩
  have hvar : e.eval (var (idx pc 1 0)) = x.toNat := by
    rw [var, eval_cons, eval_nil, mon_var e _ hpc, hv]; ring
  unfold SSt.res at hw
  cases rn with
  | true =>
    rw [cond_true] at hw
    rcases h1 : σ.wr d (.p (var (idx pc 1 0))) with _ | σ1
    · rw [h1] at hw; simp at hw
    · rw [h1] at hw
      simp only [Option.some.injEq] at hw
      subst hw
      obtain ⟨s', hs, hr, hsame⟩ := wr_sound h (arel_p hvar) h1
      refine ⟨s', hs, ⟨hr.reg, hr.mem, hr.cf, hr.of, ?_, ?_⟩, hsame.cf, hsame.of, hsame.cf', hsame.of'⟩
      · intro q hq
        rcases List.mem_cons.mp hq with hq | hq
        · rw [hq, hvar]; exact hxl
        · exact hr.hist q hq
      · intro q hq
        rcases List.mem_cons.mp hq with hq | hq
        · rw [hq, eval_add, eval_scale, hvar, hx]; ring
        · exact hr.defs q hq
  | false =>
    rw [cond_false] at hw
    rcases h1 : σ.wr d (.p r) with _ | σ1
    · rw [h1] at hw; simp at hw
    · rw [h1] at hw
      simp only [Option.some.injEq] at hw
      subst hw
      obtain ⟨s', hs, hr, hsame⟩ := wr_sound h (arel_p hx) h1
      refine ⟨s', hs, ⟨hr.reg, hr.mem, hr.cf, hr.of, ?_, hr.defs⟩, hsame.cf, hsame.of, hsame.cf', hsame.of'⟩
      intro q hq
      rcases List.mem_cons.mp hq with hq | hq
      · rw [hq, hx]; exact hxl
      · exact hr.hist q hq

theorem cin_sound (h : Rel e σ s) {ci : Cin} {q : Poly} (hc : σ.cin ci = some q) : ∃ b, s.cin ci = some b ∧ e.eval q = b.toNat := by
  cases ci with
  | no =>
    simp only [SSt.cin, Option.some.injEq] at hc
    subst hc
    exact ⟨false, rfl, by simp [Env.eval]⟩
  | cf =>
    have := h.cf
    simp only [SSt.cin] at hc
    rw [hc] at this
    exact this
  | of =>
    have := h.of
    simp only [SSt.cin] at hc
    rw [hc] at this
    exact this

theorem cout_sound (h : Rel e σ s) (co : Cout) {q : Poly} {b : Bool} (hq : e.eval q = b.toNat) :
    Rel e (σ.cout co q) (s.cout co b) := by
  cases co with
  | no => exact h
  | both => exact ⟨h.reg, h.mem, ⟨b, rfl, hq⟩, trivial, h.hist, h.defs⟩
  | cf => exact ⟨h.reg, h.mem, ⟨b, rfl, hq⟩, h.of, h.hist, h.defs⟩
  | of => exact ⟨h.reg, h.mem, h.cf, ⟨b, rfl, hq⟩, h.hist, h.defs⟩

theorem ile_le {a b : Int} (h : ile a b = true) : a ≤ b := by
  unfold ile at h
  rcases hx : b - a with n | n
  · have : 0 ≤ b - a := by rw [hx]; exact Int.natCast_nonneg n
    omega
  · rw [hx] at h; simp at h

theorem eval_var {n : Nat} (h : n < 65536) : e.eval (var n) = e.v n := by
  rw [var, eval_cons, eval_nil, mon_var e _ h]; ring

theorem eval_compl (q : Poly) : e.eval (AsmSym.compl q) = 1 - e.eval q := by
  rw [Lemmas.AsmSym.compl, eval_add, eval_scale, eval_cons, eval_nil, mon_zero]; ring

theorem isBit_sound {q : Poly} (h : isBit q = true) : e.eval q = 0 ∨ e.eval q = 1 := by
  rw [isBit, Bool.and_eq_true] at h
  have h1 := ile_le h.1
  have h2 := ile_le h.2
  have := le_eval e q
  have := eval_le e q
  omega

theorem toNat_add (x y : W64) (c : Bool) :
    ((addW x y c).1.toNat : Int) = x.toNat + y.toNat + c.toNat - 18446744073709551616 * (addW x y c).2.toNat := by
  have hx := x.isLt
  have hy := y.isLt
  have e1 : (addW x y c).1.toNat = (x.toNat + y.toNat + c.toNat) % 2 ^ 64 := by
    cases c <;> simp [addW, BitVec.toNat_add]
  rw [e1]
  unfold addW
  cases c <;> simp only [Bool.toNat_false, Bool.toNat_true] <;> by_cases h : 2 ^ 64 ≤ x.toNat + y.toNat + 0 <;>
    by_cases h' : 2 ^ 64 ≤ x.toNat + y.toNat + 1 <;> simp only [h, h', decide_true, decide_false, Bool.toNat_true, Bool.toNat_false] <;> omega

theorem toNat_sub (x y : W64) (b : Bool) :
    ((subW x y b).1.toNat : Int) = x.toNat - y.toNat - b.toNat + 18446744073709551616 * (subW x y b).2.toNat := by
  have hx := x.isLt
  have hy := y.isLt
  have e1 : (subW x y b).1.toNat = (2 ^ 64 + 2 ^ 64 + x.toNat - y.toNat - b.toNat) % 2 ^ 64 := by
    cases b <;> simp [subW, BitVec.toNat_sub] <;> omega
  rw [e1]
  unfold subW
  cases b <;> simp only [Bool.toNat_false, Bool.toNat_true] <;> by_cases h : x.toNat < y.toNat + 0 <;>
    by_cases h' : x.toNat < y.toNat + 1 <;> simp only [h, h', decide_true, decide_false, Bool.toNat_true, Bool.toNat_false] <;> omega

theorem toNat_mul (x y : W64) :
    ((x * y).toNat : Int) = x.toNat * y.toNat - 18446744073709551616 * (mulHi x y).toNat := by
  have hx := x.isLt
  have hy := y.isLt
  have h2 : x.toNat * y.toNat / 2 ^ 64 < 2 ^ 64 := Nat.div_lt_of_lt_mul (Nat.mul_lt_mul'' hx hy)
  have h3 : (mulHi x y).toNat = x.toNat * y.toNat / 2 ^ 64 := by
    rw [mulHi, BitVec.toNat_ofNat, Nat.mod_eq_of_lt h2]
  rw [h3, BitVec.toNat_mul]
  rw [← Nat.cast_mul]
  generalize x.toNat * y.toNat = t
  have := Nat.div_add_mod t (2 ^ 64)
  push_cast
  omega

theorem mulHi_le (x y : W64) : (mulHi x y).toNat ≤ 0xfffffffffffffffe := by
  have hx := x.isLt
  have hy := y.isLt
  have h1 : x.toNat * y.toNat ≤ (2 ^ 64 - 1) * (2 ^ 64 - 1) := Nat.mul_le_mul (by omega) (by omega)
  have h2 : x.toNat * y.toNat / 2 ^ 64 ≤ 0xfffffffffffffffe := by
    have := Nat.div_le_div_right (c := 2 ^ 64) h1
    exact this.trans (by norm_num)
  rw [mulHi, BitVec.toNat_ofNat]
  exact (Nat.mod_le _ _).trans h2

/-! ### fresh variables -/

/-- The carry or borrow, the high word and the result word of an instruction. -/
def fresh (s : St) : Instr → Bool × W64 × W64
  | .addc ci _ a b _ =>
    match s.rdw a, s.rdw b, s.cin ci with
    | some x, some y, some c => ((addW x y c).2, 0, (addW x y c).1)
    | _, _, _ => (false, 0, 0)
  | .subc inv ci _ a b _ =>
    match s.rdw a, s.rdw b, s.cin ci with
    | some x, some y, some c =>
      ((subW x y (borrow inv ci c)).2, 0, (subW x y (borrow inv ci c)).1)
    | _, _, _ => (false, 0, 0)
  | .mulw _ a b _ _ =>
    match s.rdw a, s.rdw b with
    | some x, some y => (false, mulHi x y, x * y)
    | _, _ => (false, 0, 0)
  | .mullo a b _ =>
    match s.rdw a, s.rdw b with
    | some x, some y => (false, mulHi x y, x * y)
    | _, _ => (false, 0, 0)
  | .mulhi a b _ =>
    match s.rdw a, s.rdw b with
    | some x, some y => (false, mulHi x y, x * y)
    | _, _ => (false, 0, 0)
  | .orshr _ b _ _ =>
    match s.rdw b with
    | some y => (false, 0, y)
    | none => (false, 0, 0)
  | _ => (false, 0, 0)

/-- The environment gives the variables of instruction `pc` these values. -/
structure At (e : Env) (pc : Nat) (f : Bool × W64 × W64) : Prop where
  c : e.v (idx pc 0 1) = f.1.toNat
  h : e.v (idx pc 0 2) = f.2.1.toNat
  r : e.v (idx pc 1 0) = f.2.2.toNat
  q : e.v (idx pc 0 3) = f.2.2.toNat / 256
  m : e.v (idx pc 1 5) = f.2.2.toNat % 256

theorem idx_lt {pc slot kind : Nat} (hp : pc < 4000) (hs : slot ≤ 1) (hk : kind < 8) : idx pc slot kind < 65536 := by
  unfold idx; omega

theorem bind_some' {α β : Type} {o : Option α} {f : α → Option β} {b : β} (h : (o >>= f) = some b) : ∃ a, o = some a ∧ f a = some b := by
  cases o with
  | none => simp at h
  | some a => exact ⟨a, rfl, h⟩

theorem fin_some {co : Cout} {c : Poly} {o : Option SSt} {σ' : SSt} (h : fin co c o = some σ') : ∃ σ1, o = some σ1 ∧ σ' = σ1.cout co c := by
  cases o with
  | none => simp [fin] at h
  | some a => exact ⟨a, rfl, by simpa [fin] using h.symm⟩

theorem and_toNat_le (x y : W64) : (x &&& y).toNat = x.toNat &&& y.toNat := BitVec.toNat_and x y

theorem maskOf_some {q : Poly} {k : Nat} (h : maskOf q = some k) : q = [(k, 0xffffffffffffffff)] := by
  unfold maskOf at h
  split at h
  · rename_i k' c
    rcases hc : decide (c = 0xffffffffffffffff) with _ | _
    · rw [hc] at h; simp at h
    · rw [hc, cond_true, Option.some.injEq] at h
      rw [of_decide_eq_true hc, h]
  · simp at h

theorem andP_sound {p q r : Poly} {x y : W64} (hx : e.eval p = x.toNat) (hy : e.eval q = y.toNat) (h : andP p q = some r) :
    e.eval r = (x &&& y).toNat := by
  unfold andP at h
  rcases h1 : p.isEmpty with _ | _
  · rcases h2 : q.isEmpty with _ | _
    · rw [h1, h2, cond_false, cond_false] at h
      rcases hm : maskOf p with _ | k
      · rw [hm] at h
        simp only at h
        rcases hb : (isBit p && isBit q) with _ | _
        · rw [hb] at h; simp at h
        · rw [hb, cond_true] at h
          rw [Bool.and_eq_true] at hb
          rw [eval_mul e p q r h, hx, hy]
          have bx := isBit_sound (e := e) hb.1
          have byy := isBit_sound (e := e) hb.2
          rw [hx] at bx
          rw [hy] at byy
          have : ∀ z : W64, ((z.toNat : Int) = 0 ∨ (z.toNat : Int) = 1) → z = 0 ∨ z = 1 := by
            intro z hz
            rcases hz with hz | hz
            · exact Or.inl (BitVec.eq_of_toNat_eq (by simpa using hz))
            · exact Or.inr (BitVec.eq_of_toNat_eq (by simpa using hz))
          rcases this x bx with rfl | rfl <;> rcases this y byy with rfl | rfl <;> decide
      · rw [hm] at h
        simp only at h
        rcases hb : isBit [(k, 1)] with _ | _
        · rw [hb] at h; simp at h
        · rw [hb, cond_true] at h
          have hp := maskOf_some hm
          have hk := isBit_sound (e := e) hb
          rw [eval_mul e _ q r h, hy]
          rw [hp, eval_cons, eval_nil] at hx
          rw [eval_cons, eval_nil, one_mul, add_zero] at hk ⊢
          rcases hk with hk | hk
          · rw [hk] at hx ⊢
            have : x = 0 := BitVec.eq_of_toNat_eq (by simp at hx; simp; omega)
            rw [this]; simp
          · rw [hk] at hx ⊢
            have : x = BitVec.allOnes 64 := BitVec.eq_of_toNat_eq (by simp at hx ⊢; omega)
            rw [this, BitVec.allOnes_and, one_mul]
    · rw [h1, h2, cond_false, cond_true, Option.some.injEq] at h
      rw [List.isEmpty_iff.mp h2, eval_nil] at hy
      have : y = 0 := BitVec.eq_of_toNat_eq (by simp; omega)
      rw [← h, eval_nil, this]; simp
  · rw [h1, cond_true, Option.some.injEq] at h
    rw [List.isEmpty_iff.mp h1, eval_nil] at hx
    have : x = 0 := BitVec.eq_of_toNat_eq (by simp; omega)
    rw [← h, eval_nil, this]; simp

theorem set_same {α : Type} {l : List α} {i : Nat} {a : α} (h : l[i]? = some a) : l.set i a = l := by
  induction l generalizing i with
  | nil => rfl
  | cons x l ih =>
    cases i with
    | zero => simp only [List.getElem?_cons_zero, Option.some.injEq] at h; rw [h, List.set_cons_zero]
    | succ i => rw [List.set_cons_succ, ih (by simpa using h)]

/-- Rewriting a word to a polynomial with the same value. -/
theorem wr_same (h : Rel e σ s) {d : Opd} {q q' : Poly} (hq : σ.rdp d = some q) (h0 : e.eval q' = e.eval q)
    (hw : σ.wr d (.p q') = some σ') : Rel e σ' s := by
  cases d with
  | imm x => simp [SSt.wr] at hw
  | glob b k => simp [SSt.wr] at hw
  | reg r =>
    obtain ⟨x, hx, hxq⟩ := rdp_sound h hq
    obtain ⟨s', hs, hr, _⟩ := wr_sound h (arel_p (q := q') (x := x) (by rw [h0, hxq])) hw
    have : s' = s := by
      simp only [St.wr] at hs
      simp only [St.rdw, St.rd] at hx
      rcases h1 : s.reg[r]? with _ | v
      · rw [h1] at hx; simp at hx
      · rw [h1] at hx
        cases v with
        | ptr b => simp at hx
        | w y =>
          simp only [Option.some.injEq] at hx
          subst hx
          split at hs
          · simp only [Option.some.injEq] at hs
            rw [← hs]
            rw [set_same h1]
          · simp at hs
    rwa [this] at hr
  | mem r k =>
    obtain ⟨x, hx, hxq⟩ := rdp_sound h hq
    obtain ⟨s', hs, hr, _⟩ := wr_sound h (arel_p (q := q') (x := x) (by rw [h0, hxq])) hw
    have : s' = s := by
      simp only [St.wr] at hs
      simp only [St.rdw, St.rd] at hx
      rcases h1 : s.reg[r]? with _ | v
      · rw [h1] at hx; simp at hx
      · rw [h1] at hx hs
        cases v with
        | w y => simp at hx
        | ptr b =>
          simp only at hx hs
          unfold St.wrMem at hs
          rcases h2 : s.mem[b]? with _ | m
          · rw [h2] at hs; simp at hs
          · rw [h2] at hs hx
            simp only at hs hx
            rcases h3 : m[k]? with _ | v
            · rw [h3] at hx; simp at hx
            · rw [h3] at hx
              cases v with
              | ptr b => simp at hx
              | w y =>
                simp only [Option.some.injEq] at hx
                subst hx
                split at hs
                · simp only [Option.some.injEq] at hs
                  rw [← hs]
                  rw [set_same h3, set_same h2]
                · simp at hs
    rwa [this] at hr

theorem sstep_sound (h : Rel e σ s) {pc : Nat} (hpc : pc < 4000) {nc rn : Bool} {i : Instr} (hat : At e pc (fresh s i))
    (hs : sstep pc nc rn σ i = some σ') : ∃ s', step s i = some s' ∧ Rel e σ' s' := by
  have i01 : idx pc 0 1 < 65536 := idx_lt hpc (by omega) (by omega)
  have i02 : idx pc 0 2 < 65536 := idx_lt hpc (by omega) (by omega)
  have i10 : idx pc 1 0 < 65536 := idx_lt hpc (by omega) (by omega)
  cases i with
  | mov a d =>
    simp only [sstep] at hs
    obtain ⟨v, hv, hw⟩ := bind_some' hs
    obtain ⟨w, hw1, hw2⟩ := rd_sound h hv
    obtain ⟨s', hs1, hs2, _⟩ := wr_sound h hw2 hw
    exact ⟨s', by simp only [step, hw1, Option.bind_eq_bind, Option.bind_some, hs1], hs2⟩
  | addc ci co a b d =>
    simp only [sstep] at hs
    obtain ⟨p, hp, hs⟩ := bind_some' hs
    obtain ⟨q, hq, hs⟩ := bind_some' hs
    obtain ⟨c, hc, hs⟩ := bind_some' hs
    obtain ⟨x, hx, hpx⟩ := rdp_sound h hp
    obtain ⟨y, hy, hqy⟩ := rdp_sound h hq
    obtain ⟨cb, hcb, hcc⟩ := cin_sound h hc
    have hf : fresh s (.addc ci co a b d) = ((addW x y cb).2, 0, (addW x y cb).1) := by simp only [fresh, hx, hy, hcb]
    rw [hf] at hat
    have ht : e.eval (add (add p q) c) = x.toNat + y.toNat + cb.toNat := by rw [eval_add, eval_add, hpx, hqy, hcc]
    have hsum := toNat_add x y cb
    cases nc with
    | true =>
      rw [cond_true] at hs
      rcases hb : ile (hiB (add (add p q) c)) 0xffffffffffffffff with _ | _
      · rw [hb] at hs; simp at hs
      · rw [hb, cond_true] at hs
        have hle := (eval_le e (add (add p q) c)).trans (ile_le hb)
        rw [ht] at hle
        have hno : (addW x y cb).2 = false := by
          unfold addW
          simp only [decide_eq_false_iff_not]
          omega
        rw [hno] at hsum
        obtain ⟨σ1, h1, h2⟩ := fin_some hs
        obtain ⟨s', hs1, hs2, _⟩ := res_sound h (x := (addW x y cb).1) (by rw [ht, hsum]; simp) hat.r i10 h1
        refine ⟨s'.cout co (addW x y cb).2, ?_, ?_⟩
        · simp only [step, hx, hy, hcb, Option.bind_eq_bind, Option.bind_some, hs1]
        · rw [h2]
          exact cout_sound hs2 co (by rw [hno, eval_nil]; rfl)
    | false =>
      rw [cond_false] at hs
      obtain ⟨σ1, h1, h2⟩ := fin_some hs
      have hcv : e.eval (var (idx pc 0 1)) = (addW x y cb).2.toNat := by rw [eval_var i01]; exact hat.c
      obtain ⟨s', hs1, hs2, _⟩ := res_sound h (x := (addW x y cb).1) (by
        rw [eval_add, ht, eval_cons, eval_nil, mon_var e _ i01, hat.c, hsum]; ring) hat.r i10 h1
      refine ⟨s'.cout co (addW x y cb).2, ?_, ?_⟩
      · simp only [step, hx, hy, hcb, Option.bind_eq_bind, Option.bind_some, hs1]
      · rw [h2]
        exact cout_sound hs2 co hcv
  | subc inv ci co a b d =>
    simp only [sstep] at hs
    obtain ⟨p, hp, hs⟩ := bind_some' hs
    obtain ⟨q, hq, hs⟩ := bind_some' hs
    obtain ⟨c, hc, hs⟩ := bind_some' hs
    obtain ⟨x, hx, hpx⟩ := rdp_sound h hp
    obtain ⟨y, hy, hqy⟩ := rdp_sound h hq
    obtain ⟨cb, hcb, hcc⟩ := cin_sound h hc
    have hbb : e.eval (borrowP inv ci c) = (borrow inv ci cb).toNat := by
      unfold borrowP borrow
      cases ci
      · simp [Env.eval]
      · cases inv
        · simpa using hcc
        · simp only [cond_true]; rw [eval_compl, hcc]; cases cb <;> rfl
      · cases inv
        · simpa using hcc
        · simp only [cond_true]; rw [eval_compl, hcc]; cases cb <;> rfl
    have hout : ∀ (r : Poly) (o : Bool), e.eval r = o.toNat → e.eval (outP inv r) = (o != inv).toNat := by
      intro r o hr
      unfold outP
      cases inv
      · simpa using hr
      · simp only [cond_true]; rw [eval_compl, hr]; cases o <;> rfl
    generalize hbp : borrowP inv ci c = bp at hbb hs
    generalize hbo : borrow inv ci cb = bo at hbb
    have hf : fresh s (.subc inv ci co a b d) = ((subW x y bo).2, 0, (subW x y bo).1) := by simp only [fresh, hx, hy, hcb, hbo]
    have hst : ∀ s', s.wr d (.w (subW x y bo).1) = some s' → step s (.subc inv ci co a b d) = some (s'.cout co ((subW x y bo).2 != inv)) := by
      intro s' hs'
      simp only [step, hx, hy, hcb, Option.bind_eq_bind, Option.bind_some, hbo, hs']
    rw [hf] at hat
    have ht : e.eval (add q bp) = y.toNat + bo.toNat := by rw [eval_add, hqy, hbb]
    have hsum := toNat_sub x y bo
    cases nc with
    | true =>
      rw [cond_true] at hs
      rcases hb : (List.isEmpty p && isBit (add q bp)) with _ | _
      · rw [hb] at hs; simp at hs
      · rw [hb, cond_true] at hs
        rw [Bool.and_eq_true] at hb
        have hbit := isBit_sound (e := e) hb.2
        rw [List.isEmpty_iff.mp hb.1, eval_nil] at hpx
        have hb2 : ((subW x y bo).2.toNat : Int) = y.toNat + bo.toNat := by
          rw [ht] at hbit
          rcases hbit with hbit | hbit
          · have : (subW x y bo).2 = false := by unfold subW; simp only [decide_eq_false_iff_not]; omega
            rw [this, hbit]; rfl
          · have : (subW x y bo).2 = true := by unfold subW; simp only [decide_eq_true_eq]; omega
            rw [this, hbit]; rfl
        obtain ⟨σ1, h1, h2⟩ := fin_some hs
        obtain ⟨s', hs1, hs2, _⟩ := res_sound h (x := (subW x y bo).1) (by
          rw [eval_scale, ht, hsum, ← hpx, hb2]; ring) hat.r i10 h1
        refine ⟨_, hst s' hs1, ?_⟩
        rw [h2]
        exact cout_sound hs2 co (hout _ _ (by rw [ht, hb2]))
    | false =>
      rw [cond_false] at hs
      obtain ⟨σ1, h1, h2⟩ := fin_some hs
      have hcv : e.eval (var (idx pc 0 1)) = (subW x y bo).2.toNat := by rw [eval_var i01]; exact hat.c
      obtain ⟨s', hs1, hs2, _⟩ := res_sound h (x := (subW x y bo).1) (by
        rw [eval_add, eval_add, eval_scale, hpx, ht, eval_cons, eval_nil, mon_var e _ i01, hat.c, hsum]; ring) hat.r i10 h1
      refine ⟨_, hst s' hs1, ?_⟩
      rw [h2]
      exact cout_sound hs2 co (hout _ _ hcv)
  | mulw fl a b lo hi =>
    simp only [sstep] at hs
    obtain ⟨p, hp, hs⟩ := bind_some' hs
    obtain ⟨q, hq, hs⟩ := bind_some' hs
    obtain ⟨t, ht, hs⟩ := bind_some' hs
    obtain ⟨σ1, h1, hs⟩ := bind_some' hs
    obtain ⟨σ2, h2, hs⟩ := bind_some' hs
    obtain ⟨x, hx, hpx⟩ := rdp_sound h hp
    obtain ⟨y, hy, hqy⟩ := rdp_sound h hq
    have hf : fresh s (.mulw fl a b lo hi) = (false, mulHi x y, x * y) := by simp only [fresh, hx, hy]
    rw [hf] at hat
    have hm := toNat_mul x y
    obtain ⟨s1, hs1, hr1, hc1, ho1, hc1', ho1'⟩ := res_sound h (x := x * y) (by
      rw [eval_add, eval_mul e p q t ht, hpx, hqy, eval_cons, eval_nil, mon_var e _ i02, hat.h, hm]; ring) hat.r i10 h1
    obtain ⟨s2, hs2, hr2, _⟩ := wr_sound hr1 (arel_p (x := mulHi x y) (by rw [eval_var i02]; exact hat.h)) h2
    refine ⟨if fl then { s2 with cf := none, of := none } else s2, ?_, ?_⟩
    · simp only [step, hx, hy, Option.bind_eq_bind, Option.bind_some, hs1, hs2]
    · simp only [Option.some.injEq] at hs
      rw [← hs]
      cases fl with
      | true => exact ⟨hr2.reg, hr2.mem, trivial, trivial, hr2.hist, hr2.defs⟩
      | false => exact hr2
  | mullo a b d =>
    simp only [sstep] at hs
    obtain ⟨p, hp, hs⟩ := bind_some' hs
    obtain ⟨q, hq, hs⟩ := bind_some' hs
    obtain ⟨t, ht, hs⟩ := bind_some' hs
    obtain ⟨x, hx, hpx⟩ := rdp_sound h hp
    obtain ⟨y, hy, hqy⟩ := rdp_sound h hq
    have hf : fresh s (.mullo a b d) = (false, mulHi x y, x * y) := by simp only [fresh, hx, hy]
    rw [hf] at hat
    have hm := toNat_mul x y
    obtain ⟨s1, hs1, hr1, _⟩ := res_sound h (x := x * y) (by
      rw [eval_add, eval_mul e p q t ht, hpx, hqy, eval_cons, eval_nil, mon_var e _ i02, hat.h, hm]; ring) hat.r i10 hs
    exact ⟨s1, by simp only [step, hx, hy, Option.bind_eq_bind, Option.bind_some, hs1], hr1⟩
  | mulhi a b d =>
    simp only [sstep] at hs
    obtain ⟨p, hp, hs⟩ := bind_some' hs
    obtain ⟨q, hq, hs⟩ := bind_some' hs
    obtain ⟨t, ht, hs⟩ := bind_some' hs
    obtain ⟨σ1, h1, hs⟩ := bind_some' hs
    obtain ⟨x, hx, hpx⟩ := rdp_sound h hp
    obtain ⟨y, hy, hqy⟩ := rdp_sound h hq
    have hf : fresh s (.mulhi a b d) = (false, mulHi x y, x * y) := by simp only [fresh, hx, hy]
    rw [hf] at hat
    have hm := toNat_mul x y
    obtain ⟨s1, hs1, hr1, _⟩ := wr_sound h (arel_p (x := mulHi x y) (by rw [eval_var i02]; exact hat.h)) h1
    refine ⟨s1, by simp only [step, hx, hy, Option.bind_eq_bind, Option.bind_some, hs1], ?_⟩
    simp only [Option.some.injEq] at hs
    rw [← hs]
    refine ⟨hr1.reg, hr1.mem, hr1.cf, hr1.of, ?_, hr1.defs⟩
    intro r hr
    rcases List.mem_cons.mp hr with hr | hr
    · have hv : e.eval r = (x * y).toNat := by
        rw [hr, eval_add, eval_mul e p q t ht, hpx, hqy, eval_cons, eval_nil, mon_var e _ i02, hat.h, hm]; ring
      rw [hv]
      exact ⟨by positivity, by exact_mod_cast (x * y).isLt⟩
    · exact hr1.hist r hr
  | xor fl a b d =>
    simp only [sstep] at hs
    rcases hb : (fl && decide (a = b)) with _ | _
    · rw [hb] at hs; simp at hs
    · rw [hb, cond_true] at hs
      rw [Bool.and_eq_true] at hb
      obtain ⟨σ1, h1, hs⟩ := bind_some' hs
      have hab := of_decide_eq_true hb.2
      obtain ⟨s1, hs1, hr1, _⟩ := wr_sound h (arel_p (q := []) (x := 0) (by simp [Env.eval])) h1
      refine ⟨{ s1 with cf := some false, of := some false }, ?_, ?_⟩
      · simp only [step, hb.1, hab, BEq.rfl, Bool.and_self, if_true, Option.bind_eq_bind, Option.bind_some, hs1]
      · simp only [Option.some.injEq] at hs
        rw [← hs]
        exact ⟨hr1.reg, hr1.mem, ⟨false, rfl, by simp [Env.eval]⟩, ⟨false, rfl, by simp [Env.eval]⟩, hr1.hist, hr1.defs⟩
  | and fl a b d =>
    simp only [sstep] at hs
    obtain ⟨p, hp, hs⟩ := bind_some' hs
    obtain ⟨q, hq, hs⟩ := bind_some' hs
    obtain ⟨t, ht, hs⟩ := bind_some' hs
    obtain ⟨σ1, h1, hs⟩ := bind_some' hs
    obtain ⟨x, hx, hpx⟩ := rdp_sound h hp
    obtain ⟨y, hy, hqy⟩ := rdp_sound h hq
    obtain ⟨s1, hs1, hr1, _⟩ := wr_sound h (arel_p (andP_sound hpx hqy ht)) h1
    refine ⟨if fl then { s1 with cf := some false, of := some false } else s1, ?_, ?_⟩
    · simp only [step, hx, hy, Option.bind_eq_bind, Option.bind_some, hs1]
    · simp only [Option.some.injEq] at hs
      rw [← hs]
      cases fl with
      | true => exact ⟨hr1.reg, hr1.mem, ⟨false, rfl, by simp [Env.eval]⟩, ⟨false, rfl, by simp [Env.eval]⟩, hr1.hist, hr1.defs⟩
      | false => exact hr1
  | bt0 a =>
    simp only [sstep] at hs
    obtain ⟨p, hp, hs⟩ := bind_some' hs
    obtain ⟨x, hx, hpx⟩ := rdp_sound h hp
    rcases hb : isBit p with _ | _
    · rw [hb] at hs; simp at hs
    · rw [hb, cond_true, Option.some.injEq] at hs
      refine ⟨{ s with cf := some (x.getLsbD 0), of := none }, by simp only [step, hx, Option.bind_eq_bind, Option.bind_some], ?_⟩
      rw [← hs]
      refine ⟨h.reg, h.mem, ⟨_, rfl, ?_⟩, trivial, h.hist, h.defs⟩
      have hbit := isBit_sound (e := e) hb
      rw [hpx] at hbit ⊢
      rcases hbit with hbit | hbit
      · have : x = 0 := BitVec.eq_of_toNat_eq (by simpa using hbit)
        rw [this]; rfl
      · have : x = 1 := BitVec.eq_of_toNat_eq (by simpa using hbit)
        rw [this]; rfl
  | or a b d => simp [sstep] at hs
  | not a d => simp [sstep] at hs
  | rol n a d => simp [sstep] at hs
  | dup32 a d => simp [sstep] at hs
  | orshr n b a d =>
    have i03 : idx pc 0 3 < 65536 := idx_lt hpc (by omega) (by omega)
    have i15 : idx pc 1 5 < 65536 := idx_lt hpc (by omega) (by omega)
    simp only [sstep] at hs
    obtain ⟨q, hq, hs⟩ := bind_some' hs
    obtain ⟨p, hp, hs⟩ := bind_some' hs
    obtain ⟨x, hx, hpx⟩ := rdp_sound h hp
    obtain ⟨y, hy, hqy⟩ := rdp_sound h hq
    have hf : fresh s (.orshr n b a d) = (false, 0, y) := by simp only [fresh, hy]
    rw [hf] at hat
    rcases hb : (Nat.beq n 8 && dvdB 72057594037927936 p) with _ | _
    · rw [hb] at hs; simp at hs
    rw [hb, cond_true] at hs
    rw [Bool.and_eq_true] at hb
    have hn := Nat.eq_of_beq_eq_true hb.1
    have hdv := dvd_eval e _ _ hb.2
    obtain ⟨σ1, h1, hs⟩ := bind_some' hs
    obtain ⟨σ2, h2, hs⟩ := bind_some' hs
    have hyl := y.isLt
    have hxl := x.isLt
    have hqv : e.eval [(idx pc 0 3, 256), (idx pc 1 5, 1)] = y.toNat := by
      rw [eval_cons, eval_cons, eval_nil, mon_var e _ i03, mon_var e _ i15, hat.q, hat.m]
      simp only
      omega
    have hr1 := wr_same h hq (by rw [hqv, hqy]) h1
    have hv : e.eval (add p (var (idx pc 0 3))) = (x ||| (y >>> n)).toNat := by
      rw [eval_add, eval_var i03, hat.q, hpx, BitVec.toNat_or, BitVec.toNat_ushiftRight, hn]
      rw [hpx] at hdv
      obtain ⟨k, hk⟩ : 72057594037927936 ∣ x.toNat := by exact_mod_cast hdv
      have hy2 : y.toNat >>> 8 = y.toNat / 256 := by rw [Nat.shiftRight_eq_div_pow]
      have := Nat.two_pow_add_eq_or_of_lt (i := 56) (b := y.toNat / 256) (by omega) k
      rw [hy2, hk, show (72057594037927936 : Nat) = 2 ^ 56 by norm_num, ← this]
      push_cast
      rfl
    obtain ⟨s2, hs2, hr2, _⟩ := wr_sound hr1 (arel_p hv) h2
    refine ⟨s2, by simp only [step, hx, hy, Option.bind_eq_bind, Option.bind_some, hs2], ?_⟩
    simp only [Option.some.injEq] at hs
    rw [← hs]
    refine ⟨hr2.reg, hr2.mem, hr2.cf, hr2.of, ?_, ?_⟩
    · intro r hr
      rcases List.mem_cons.mp hr with hr | hr
      · rw [hr, hv]
        exact ⟨by positivity, by exact_mod_cast (x ||| (y >>> n)).isLt⟩
      · exact hr2.hist r hr
    · intro r hr
      rcases List.mem_cons.mp hr with hr | hr
      · rw [hr, eval_add, eval_scale, hqv, hqy]; ring
      · exact hr2.defs r hr
  | shl n a d =>
    simp only [sstep] at hs
    obtain ⟨p, hp, hs⟩ := bind_some' hs
    obtain ⟨x, hx, hpx⟩ := rdp_sound h hp
    rcases hb : (ile 0 (loB (modB 18446744073709551616 (scale (Int.ofNat (2 ^ n)) p))) &&
      ile (hiB (modB 18446744073709551616 (scale (Int.ofNat (2 ^ n)) p))) 0xffffffffffffffff) with _ | _
    · rw [hb] at hs; simp at hs
    rw [hb, cond_true] at hs
    rw [Bool.and_eq_true] at hb
    have b1 := (ile_le hb.1).trans (le_eval e _)
    have b2 := (eval_le e _).trans (ile_le hb.2)
    have hm := modB_eval e 18446744073709551616 (scale (Int.ofNat (2 ^ n)) p)
    rw [eval_scale, hpx] at hm
    have hv : e.eval (modB 18446744073709551616 (scale (Int.ofNat (2 ^ n)) p)) = (x <<< n).toNat := by
      rw [BitVec.toNat_shiftLeft, Nat.shiftLeft_eq]
      generalize e.eval (modB 18446744073709551616 (scale (Int.ofNat (2 ^ n)) p)) = t at *
      have hm' : ((18446744073709551616 : Nat) : Int) ∣ ((x.toNat * 2 ^ n : Nat) : Int) - t := by
        have h2 : Int.ofNat (2 ^ n) * (x.toNat : Int) = ((x.toNat * 2 ^ n : Nat) : Int) := by push_cast; rw [mul_comm]; rfl
        rwa [h2] at hm
      generalize x.toNat * 2 ^ n = u at *
      have h3 : (2 ^ 64 : Nat) = 18446744073709551616 := by norm_num
      rw [h3]
      obtain ⟨k, hk⟩ := hm'
      push_cast at hk
      omega
    obtain ⟨s1, hs1, hr1, _⟩ := wr_sound h (arel_p hv) hs
    exact ⟨s1, by simp only [step, hx, Option.bind_eq_bind, Option.bind_some, hs1], hr1⟩
  | neg a d => simp [sstep] at hs
  | byte a d => simp [sstep] at hs
  | setByte a d => simp [sstep] at hs
  | cmpz a => simp [sstep] at hs
  | csel a b d => simp [sstep] at hs

/-- The high word of a product is determined by the low word. -/
theorem reuse_hi {t : Poly} {j v : Nat} {q : Poly} (h : Rel e σ s) (hj : σ.hist[j]? = some q) (hq : q = add t [(v, -18446744073709551616)])
    {x y : W64} (ht : e.eval t = x.toNat * y.toNat) : e.mon v = (mulHi x y).toNat ∧ e.eval q = (x * y).toNat := by
  obtain ⟨a, b⟩ := h.hist q (List.mem_of_getElem? hj)
  have hm := toNat_mul x y
  have hl := (x * y).isLt
  have he : e.eval q = x.toNat * y.toNat - 18446744073709551616 * e.mon v := by
    rw [hq, eval_add, ht, eval_cons, eval_nil]; ring
  generalize (x.toNat : Int) * y.toNat = u at *
  omega

theorem sstepA_sound (h : Rel e σ s) {pc : Nat} (hpc : pc < 4000) {a : Ann} {i : Instr} (hat : At e pc (fresh s i))
    (hs : sstepA pc a σ i = some σ') : ∃ s', step s i = some s' ∧ Rel e σ' s' := by
  unfold sstepA at hs
  rcases hu : a.u with _ | ⟨j, v⟩
  · rw [hu] at hs
    exact sstep_sound h hpc hat hs
  rw [hu] at hs
  simp only at hs
  cases i with
  | mullo a b d =>
    simp only [sreuse] at hs
    obtain ⟨p, hp, hs⟩ := bind_some' hs
    obtain ⟨q, hq, hs⟩ := bind_some' hs
    obtain ⟨t, ht, hs⟩ := bind_some' hs
    obtain ⟨r, hr, hs⟩ := bind_some' hs
    obtain ⟨x, hx, hpx⟩ := rdp_sound h hp
    obtain ⟨y, hy, hqy⟩ := rdp_sound h hq
    rcases hb : eqB r (add t [(v, -18446744073709551616)]) with _ | _
    · rw [hb] at hs; simp at hs
    rw [hb, cond_true] at hs
    have hrt := eqB_eq _ _ hb
    obtain ⟨_, e2⟩ := reuse_hi h hr hrt (by rw [eval_mul e p q t ht, hpx, hqy])
    rw [← hrt] at hs
    rcases h1 : σ.wr d (.p r) with _ | σ1
    · rw [h1] at hs; simp at hs
    rw [h1] at hs
    simp only [Option.some.injEq] at hs
    obtain ⟨s1, hs1, hr1, _⟩ := wr_sound h (arel_p e2) h1
    refine ⟨s1, by simp only [step, hx, hy, Option.bind_eq_bind, Option.bind_some, hs1], ?_⟩
    rw [← hs]
    refine ⟨hr1.reg, hr1.mem, hr1.cf, hr1.of, ?_, hr1.defs⟩
    intro w hw
    rcases List.mem_cons.mp hw with hw | hw
    · rw [hw]; exact h.hist r (List.mem_of_getElem? hr)
    · exact hr1.hist w hw
  | mulhi a b d =>
    simp only [sreuse] at hs
    obtain ⟨p, hp, hs⟩ := bind_some' hs
    obtain ⟨q, hq, hs⟩ := bind_some' hs
    obtain ⟨t, ht, hs⟩ := bind_some' hs
    obtain ⟨r, hr, hs⟩ := bind_some' hs
    obtain ⟨x, hx, hpx⟩ := rdp_sound h hp
    obtain ⟨y, hy, hqy⟩ := rdp_sound h hq
    rcases hb : (eqB r (add t [(v, -18446744073709551616)]) && Nat.blt v 65536) with _ | _
    · rw [hb] at hs; simp at hs
    rw [hb, cond_true] at hs
    rw [Bool.and_eq_true] at hb
    obtain ⟨e1, _⟩ := reuse_hi h hr (eqB_eq _ _ hb.1) (by rw [eval_mul e p q t ht, hpx, hqy])
    obtain ⟨s1, hs1, hr1, _⟩ := wr_sound h (arel_p (x := mulHi x y) (by rw [var, eval_cons, eval_nil, e1]; ring)) hs
    exact ⟨s1, by simp only [step, hx, hy, Option.bind_eq_bind, Option.bind_some, hs1], hr1⟩
  | _ => simp [sreuse] at hs

/-! ### programs -/

theorem comb_sound {F : List Poly} (hF : ∀ q ∈ F, e.eval q = 0) : ∀ (lam : List (Nat × Poly)) (r : Poly), comb F lam = some r → e.eval r = 0 := by
  intro lam
  induction lam with
  | nil => intro r h; simp only [comb, Option.some.injEq] at h; rw [← h]; rfl
  | cons t l ih =>
    intro r h
    obtain ⟨j, q⟩ := t
    rw [comb] at h
    rcases h1 : F[j]? with _ | d
    · rw [h1] at h; simp at h
    · rcases h2 : comb F l with _ | r'
      · rw [h1, h2] at h; simp at h
      · rw [h1, h2] at h
        simp only at h
        rcases h3 : mul q d with _ | t
        · rw [h3] at h; simp at h
        · rw [h3] at h
          simp only [Option.some.injEq] at h
          rw [← h, eval_add, eval_mul e q d t h3, ih r' h2, hF d (List.mem_of_getElem? h1)]; ring

theorem szero_sound (h : Rel e σ s) {d : Opd} {lam : List (Nat × Poly)} (hs : szero σ d lam = some σ') : Rel e σ' s := by
  unfold szero at hs
  rcases h1 : σ.rdp d with _ | r
  · rw [h1] at hs; simp at hs
  · rcases h2 : comb σ.defs lam with _ | t
    · rw [h1, h2] at hs; simp at hs
    · rw [h1, h2] at hs
      simp only at hs
      rcases h3 : dvdB 18446744073709551616 (add r t) with _ | _
      · rw [h3] at hs; simp at hs
      · rw [h3, cond_true] at hs
        obtain ⟨x, hx, hxr⟩ := rdp_sound h h1
        have hd := dvd_eval e _ _ h3
        rw [eval_add, comb_sound h.defs lam t h2, add_zero, hxr] at hd
        have hlt := x.isLt
        have h0 : x.toNat = 0 := Nat.eq_zero_of_dvd_of_lt (by exact_mod_cast hd) hlt
        rcases h4 : σ.wr d (.p []) with _ | σ1
        · rw [h4] at hs; simp at hs
        · rw [h4] at hs
          simp only [Option.some.injEq] at hs
          have hr := wr_same h h1 (by rw [hxr, h0, eval_nil]; rfl) h4
          rw [← hs]
          refine ⟨hr.reg, hr.mem, hr.cf, hr.of, hr.hist, fun q hq => ?_⟩
          rcases List.mem_cons.mp hq with hq | hq
          · rw [hq, hxr, h0]; rfl
          · exact hr.defs q hq

theorem after_sound (h : Rel e σ s) {i : Instr} {z : Option (List (Nat × Poly))} (hs : after i z σ = some σ') : Rel e σ' s := by
  cases z with
  | none => simp only [after, Option.some.injEq] at hs; rwa [← hs]
  | some lam => exact szero_sound h hs

/-- The values of the variables of instruction `pc`. -/
def gloc (f : Bool × W64 × W64) (pc n : Nat) : Int :=
  if n = idx pc 0 1 then f.1.toNat else if n = idx pc 0 2 then f.2.1.toNat else if n = idx pc 1 0 then f.2.2.toNat else
    if n = idx pc 0 3 then f.2.2.toNat / 256 else if n = idx pc 1 5 then f.2.2.toNat % 256 else 0

theorem fresh_hi (s : St) (i : Instr) : (fresh s i).2.1.toNat ≤ 0xfffffffffffffffe := by
  cases i <;> simp only [fresh] <;> first | exact Nat.zero_le _ | skip
  all_goals
    split
    · first | exact mulHi_le _ _ | exact Nat.zero_le _
    · exact Nat.zero_le _

theorem gloc_bnd (s : St) (i : Instr) (pc n : Nat) : 0 ≤ gloc (fresh s i) pc n ∧ gloc (fresh s i) pc n ≤ bnd n := by
  have hb : ∀ k kind, kind < 8 → bnd (8 * (128 + k) + kind) = kbnd kind := by
    intro k kind hk
    have h1 : Nat.beq (8 * (128 + k) + kind) 0 = false := by
      cases hh : Nat.beq (8 * (128 + k) + kind) 0 with
      | false => rfl
      | true => have := Nat.eq_of_beq_eq_true hh; omega
    rw [bnd, h1, cond_false]
    congr 1; omega
  unfold gloc
  split
  · rename_i hn
    rw [hn, idx, Nat.add_assoc, hb _ _ (by omega)]
    cases (fresh s i).1 <;> simp [kbnd]
  · split
    · rename_i hn
      rw [hn, idx, Nat.add_assoc, hb _ _ (by omega)]
      exact ⟨by positivity, by exact_mod_cast fresh_hi s i⟩
    · split
      · rename_i hn
        rw [hn, idx, Nat.add_assoc, hb _ _ (by omega)]
        have := (fresh s i).2.2.isLt
        exact ⟨by positivity, by simp only [kbnd]; omega⟩
      · have := (fresh s i).2.2.isLt
        split
        · rename_i hn
          rw [hn, idx, Nat.add_assoc, hb _ _ (by omega)]
          simp only [kbnd]; omega
        · split
          · rename_i hn
            rw [hn, idx, Nat.add_assoc, hb _ _ (by omega)]
            simp only [kbnd]; omega
          · exact ⟨le_refl _, by positivity⟩

theorem srun_sound : ∀ (prog : List Instr) (s : St) (pc : Nat), pc + prog.length ≤ 4000 →
    ∃ g : Nat → Int, (∀ n, 0 ≤ g n ∧ g n ≤ bnd n) ∧
      ∀ e : Env, (∀ n, 8 * (128 + 2 * pc) ≤ n → e.v n = g n) → ∀ (σ : SSt) (anns : List Ann) (σ' : SSt), Rel e σ s →
        srun pc σ prog anns = some σ' → ∃ s', run s prog = some s' ∧ Rel e σ' s' := by
  intro prog
  induction prog with
  | nil =>
    intro s pc _
    refine ⟨fun _ => 0, fun n => ⟨le_refl _, by positivity⟩, ?_⟩
    intro e _ σ anns σ' hr h
    simp only [srun, Option.some.injEq] at h
    exact ⟨s, rfl, h ▸ hr⟩
  | cons i is ih =>
    intro s pc hpc
    have hlen : pc + 1 + is.length ≤ 4000 := by simp only [List.length_cons] at hpc; omega
    have hpc' : pc < 4000 := by omega
    -- the state after the instruction, if there is one
    obtain ⟨s1, hs1⟩ : ∃ s1, s1 = (step s i).getD s := ⟨_, rfl⟩
    obtain ⟨g, hg, hrun⟩ := ih s1 (pc + 1) hlen
    refine ⟨fun n => if n < 8 * (128 + 2 * (pc + 1)) then gloc (fresh s i) pc n else g n, ?_, ?_⟩
    · intro n
      beta_reduce
      split
      · exact gloc_bnd s i pc n
      · exact hg n
    · intro e he σ anns σ' hr h
      cases anns with
      | nil => simp [srun] at h
      | cons a as =>
        simp only [srun] at h
        rcases h1 : sstepA pc a σ i with _ | σ1
        · rw [h1] at h; simp at h
        · rw [h1] at h
          simp only at h
          rcases h2 : after i a.z σ1 with _ | σ2
          · rw [h2] at h; simp at h
          · rw [h2] at h
            simp only at h
            have hv : ∀ slot kind, slot ≤ 1 → kind < 8 → e.v (idx pc slot kind) = gloc (fresh s i) pc (idx pc slot kind) := by
              intro slot kind hs hk
              rw [he _ (by unfold idx; omega)]; exact if_pos (by unfold idx; omega)
            have hat : At e pc (fresh s i) := by
              refine ⟨?_, ?_, ?_, ?_, ?_⟩
              · rw [hv 0 1 (by omega) (by omega), gloc, if_pos rfl]
              · rw [hv 0 2 (by omega) (by omega), gloc, if_neg (by unfold idx; omega), if_pos rfl]
              · rw [hv 1 0 (by omega) (by omega), gloc, if_neg (by unfold idx; omega), if_neg (by unfold idx; omega), if_pos rfl]
              · rw [hv 0 3 (by omega) (by omega), gloc, if_neg (by unfold idx; omega), if_neg (by unfold idx; omega), if_neg (by unfold idx; omega), if_pos rfl]
              · rw [hv 1 5 (by omega) (by omega), gloc, if_neg (by unfold idx; omega), if_neg (by unfold idx; omega), if_neg (by unfold idx; omega),
                  if_neg (by unfold idx; omega), if_pos rfl]
            obtain ⟨s', hst, hr1⟩ := sstepA_sound hr hpc' hat h1
            have hs' : s1 = s' := by rw [hs1, hst]; rfl
            obtain ⟨s2, hrun2, hr2⟩ := hrun e (fun n hn => by rw [he n (by omega)]; exact if_neg (by omega)) σ2 as σ' (hs' ▸ after_sound hr1 h2) h
            exact ⟨s2, by simp only [run, hst, Option.bind_eq_bind, Option.bind_some]; rw [← hs']; exact hrun2, hr2⟩

/-- The symbolic run describes the run on every input: `inp` gives the values of the variables below 1024. -/
theorem sound {prog : List Instr} {anns : List Ann} {σ σ' : SSt} {s : St} (inp : Nat → Int) (hinp : ∀ n, 0 ≤ inp n ∧ inp n ≤ bnd n)
    (hlen : prog.length ≤ 4000) (hrel : ∀ e : Env, (∀ n, n ≠ 0 → n < 1024 → e.v n = inp n) → Rel e σ s)
    (h : srun 0 σ prog anns = some σ') :
    ∃ e : Env, (∀ n, n ≠ 0 → n < 1024 → e.v n = inp n) ∧ ∃ s', run s prog = some s' ∧ Rel e σ' s' := by
  obtain ⟨g, hg, hrun⟩ := srun_sound prog s 0 (by omega)
  let e : Env := {
    v := fun n => if n = 0 then 1 else if n < 1024 then inp n else g n
    one := by simp
    pos := by
      intro n
      split
      · norm_num
      · split
        · exact (hinp n).1
        · exact (hg n).1
    le := by
      intro n
      split
      · rename_i hn; rw [hn]; simp [bnd]
      · split
        · exact (hinp n).2
        · exact (hg n).2 }
  have he : ∀ n, n ≠ 0 → n < 1024 → e.v n = inp n := by
    intro n h0 h1
    simp only [e, h0, h1, if_true, if_false]
  exact ⟨e, he, hrun e (fun n hn => by
    have h0 : n ≠ 0 := by omega
    have h1 : ¬ n < 1024 := by omega
    simp only [e, h0, h1, if_false]) σ anns σ' (hrel e he) h⟩

/-! ### facts about carries -/

/-- The number with words given by positions in the list H, lowest first. -/
def words (H : List Poly) : List Nat → Option Poly
  | [] => some []
  | w :: ws => match H[w]?, words H ws with
    | some p, some q => some (add p (scale 18446744073709551616 q))
    | _, _ => none

/-- A number that must be zero: `ws` are words, and the polynomial of the number they form, plus 2^(64·length)·D and a
combination of polynomials with value 0, lies in the range of such numbers. -/
structure Hint where
  ws : List Nat
  D : Poly
  lam : List (Nat × Poly)

def hstep (H F : List Poly) (h : Hint) : Option (List Poly) :=
  match words H h.ws, comb F h.lam with
  | some w, some c =>
    let T := add (add w (scale (2 ^ (64 * h.ws.length)) h.D)) c
    bif ile 0 (loB T) && ile (hiB T + 1) (2 ^ (64 * h.ws.length)) then some (h.D :: F) else none
  | _, _ => none

def hrun (H : List Poly) : List Poly → List Hint → Option (List Poly)
  | F, [] => some F
  | F, h :: hs => match hstep H F h with
    | some F => hrun H F hs
    | none => none

theorem words_sound {H : List Poly} (hH : ∀ q ∈ H, 0 ≤ e.eval q ∧ e.eval q < 2 ^ 64) : ∀ (ws : List Nat) (r : Poly), words H ws = some r →
    0 ≤ e.eval r ∧ e.eval r < 2 ^ (64 * ws.length) := by
  intro ws
  induction ws with
  | nil => intro r h; simp only [words, Option.some.injEq] at h; rw [← h]; simp [Env.eval]
  | cons w ws ih =>
    intro r h
    rw [words] at h
    rcases h1 : H[w]? with _ | p
    · rw [h1] at h; simp at h
    · rcases h2 : words H ws with _ | q
      · rw [h1, h2] at h; simp at h
      · rw [h1, h2] at h
        simp only [Option.some.injEq] at h
        obtain ⟨a, b⟩ := hH p (List.mem_of_getElem? h1)
        obtain ⟨c, d⟩ := ih q h2
        rw [← h, eval_add, eval_scale]
        have e1 : (2 : Int) ^ (64 * (w :: ws).length) = 2 ^ 64 * 2 ^ (64 * ws.length) := by
          rw [List.length_cons, ← pow_add]; congr 1; ring
        rw [e1]
        constructor
        · positivity
        · generalize (2 : Int) ^ (64 * ws.length) = M at d
          norm_num at b ⊢
          nlinarith

theorem hstep_sound {H F F' : List Poly} {h : Hint} (hH : ∀ q ∈ H, 0 ≤ e.eval q ∧ e.eval q < 2 ^ 64) (hF : ∀ q ∈ F, e.eval q = 0)
    (hs : hstep H F h = some F') : ∀ q ∈ F', e.eval q = 0 := by
  unfold hstep at hs
  rcases h1 : words H h.ws with _ | w
  · rw [h1] at hs; simp at hs
  · rcases h2 : comb F h.lam with _ | c
    · rw [h1, h2] at hs; simp at hs
    · rw [h1, h2] at hs
      simp only at hs
      generalize hT : add (add w (scale (2 ^ (64 * h.ws.length)) h.D)) c = T at hs
      rcases h3 : (ile 0 (loB T) && ile (hiB T + 1) (2 ^ (64 * h.ws.length))) with _ | _
      · rw [h3] at hs; simp at hs
      · rw [h3, cond_true, Option.some.injEq] at hs
        rw [Bool.and_eq_true] at h3
        obtain ⟨wa, wb⟩ := words_sound hH _ w h1
        have hv : e.eval T = e.eval w + 2 ^ (64 * h.ws.length) * e.eval h.D := by
          rw [← hT, eval_add, eval_add, eval_scale, comb_sound hF _ c h2, add_zero]
        have l1 := (ile_le h3.1).trans (le_eval e T)
        have l2 : e.eval T < 2 ^ (64 * h.ws.length) := by
          have := eval_le e T
          have := ile_le h3.2
          omega
        rw [hv] at l1 l2
        have hM : (0 : Int) < 2 ^ (64 * h.ws.length) := by positivity
        generalize (2 : Int) ^ (64 * h.ws.length) = M at *
        have hD : e.eval h.D = 0 := by
          by_contra hne
          rcases lt_or_gt_of_ne hne with hl | hl
          · nlinarith
          · nlinarith
        intro q hq
        rw [← hs] at hq
        rcases List.mem_cons.mp hq with hq | hq
        · rw [hq]; exact hD
        · exact hF q hq

theorem hrun_sound {H : List Poly} (hH : ∀ q ∈ H, 0 ≤ e.eval q ∧ e.eval q < 2 ^ 64) : ∀ (hs : List Hint) (F F' : List Poly),
    (∀ q ∈ F, e.eval q = 0) → hrun H F hs = some F' → ∀ q ∈ F', e.eval q = 0 := by
  intro hs
  induction hs with
  | nil => intro F F' hF h; simp only [hrun, Option.some.injEq] at h; rw [← h]; exact hF
  | cons h hs ih =>
    intro F F' hF hr
    rw [hrun] at hr
    rcases h1 : hstep H F h with _ | F1
    · rw [h1] at hr; simp at hr
    · rw [h1] at hr
      exact ih F1 F' (hstep_sound hH hF h1) hr

/-- A polynomial is congruent to 0 modulo m (equal to 0 when m is 0), given that those of F are 0. -/
def zmod (m : Nat) (F : List Poly) (lam : List (Nat × Poly)) (q : Poly) : Bool :=
  match comb F lam with
  | some c => dvdB m (add q c)
  | none => false

theorem zmod_sound {m : Nat} {F : List Poly} {lam : List (Nat × Poly)} {q : Poly} (hF : ∀ q ∈ F, e.eval q = 0)
    (h : zmod m F lam q = true) : (m : Int) ∣ e.eval q := by
  unfold zmod at h
  rcases h1 : comb F lam with _ | c
  · rw [h1] at h; simp at h
  · rw [h1] at h
    have := dvd_eval e _ _ h
    rwa [eval_add, comb_sound hF lam c h1, add_zero] at this

end Lemmas.AsmSound
