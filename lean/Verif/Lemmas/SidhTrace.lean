import Verif.Model.SidhKeys
/-
The traversal of core.go with the points forgotten: only the indices matter for panics.
-/
namespace Lemmas.SidhTrace
open Model Model.Sidh

/-- `descend` on the indices alone -/
def idxDescend (lim : Nat) : List Nat → List Nat → Nat → Option (List Nat × List Nat × Nat)
  | [], stk, i => if i ≤ lim then none else some ([], stk, i)
  | k :: rest, stk, i => if i ≤ lim then idxDescend lim rest (i :: stk) (i + k) else some (k :: rest, stk, i)

/-- The traversal on the indices alone: no panic, each leaf is reached with index exactly `lim + 1`, and the last
index is 0. -/
def idxOk : Nat → List Nat → List Nat → Nat → Bool
  | 0, _, _, i => i == 0
  | n + 1, rest, stk, i =>
    match idxDescend n rest stk i with
    | none => false
    | some (_, [], _) => false
    | some (rest, i' :: stk, i) => i == n + 1 && idxOk n rest stk i'

/-- The traversal, for any multiplication, isogeny and evaluation routines -/
def trav {α C I : Type} (pw : C → Nat → α → α) (gen : α → C × I) (ev : I → α → α) :
    Nat → List Nat → List (α × Nat) → C → α → Nat → List α → Option (α × List α)
  | 0, _, _, _, xR, _, extra => some (xR, extra)
  | n + 1, rest, stk, c, xR, i, extra => do
    let (rest, stk, xR, _) ← descend n (pw c) rest stk xR i
    let (c, phi) := gen xR
    let stk := stk.map fun e => (ev phi e.1, e.2)
    let extra := extra.map (ev phi)
    match stk with
    | [] => none
    | (xR, i) :: stk => trav pw gen ev n rest stk c xR i extra

theorem traverse4_eq {F : Type} (o : Ops F) : ∀ n rest stk c xR i extra,
    traverse4 o n rest stk c xR i extra = trav (fun c k => pow2k o c (2 * k)) (gen4 o) (eval4 o) n rest stk c xR i extra
  | 0, _, _, _, _, _, _ => rfl
  | n + 1, rest, stk, c, xR, i, extra => by
    rw [traverse4, trav]
    cases h : descend n (fun k => pow2k o c (2 * k)) rest stk xR i with
    | none => rfl
    | some r =>
      obtain ⟨rest', stk', x', i'⟩ := r
      match stk' with
      | [] => rfl
      | (y, j) :: stk' => exact traverse4_eq o n _ _ _ _ _ _

theorem traverse3_eq {F : Type} (o : Ops F) : ∀ n rest stk c xR i extra,
    traverse3 o n rest stk c xR i extra = trav (fun c k => pow3k o c k) (gen3 o) (eval3 o) n rest stk c xR i extra
  | 0, _, _, _, _, _, _ => rfl
  | n + 1, rest, stk, c, xR, i, extra => by
    rw [traverse3, trav]
    cases h : descend n (fun k => pow3k o c k) rest stk xR i with
    | none => rfl
    | some r =>
      obtain ⟨rest', stk', x', i'⟩ := r
      match stk' with
      | [] => rfl
      | (y, j) :: stk' => exact traverse3_eq o n _ _ _ _ _ _

section
variable {α C I : Type}

theorem descend_idx (lim : Nat) (pw : Nat → α → α) : ∀ (rest : List Nat) (stk : List (α × Nat)) (xR : α) (i : Nat) (r : List Nat × List Nat × Nat),
    idxDescend lim rest (stk.map Prod.snd) i = some r →
    ∃ stk' xR', descend lim pw rest stk xR i = some (r.1, stk', xR', r.2.2) ∧ stk'.map Prod.snd = r.2.1 := by
  intro rest
  induction rest with
  | nil =>
    intro stk xR i r h
    rw [idxDescend] at h
    split at h
    · cases h
    · rename_i hh
      obtain rfl := Option.some.inj h
      exact ⟨stk, xR, by rw [descend, if_neg hh], rfl⟩
  | cons k rest ih =>
    intro stk xR i r h
    rw [idxDescend] at h
    rw [descend]
    split at h
    · rename_i hh
      rw [if_pos hh]
      exact ih ((xR, i) :: stk) (pw k xR) (i + k) r h
    · rename_i hh
      obtain rfl := Option.some.inj h
      exact ⟨stk, xR, by rw [if_neg hh], rfl⟩

/-- A valid index trace means no panic. -/
theorem trav_total (pw : C → Nat → α → α) (gen : α → C × I) (ev : I → α → α) :
    ∀ (n : Nat) (rest : List Nat) (stk : List (α × Nat)) (c : C) (xR : α) (i : Nat) (extra : List α),
    idxOk n rest (stk.map Prod.snd) i = true → ∃ x e, trav pw gen ev n rest stk c xR i extra = some (x, e) ∧ e.length = extra.length := by
  intro n
  induction n with
  | zero => intro rest stk c xR i extra _; exact ⟨xR, extra, rfl, rfl⟩
  | succ n ih =>
    intro rest stk c xR i extra h
    rw [idxOk] at h
    split at h
    · cases h
    · cases h
    · rename_i rest' i' stk' i'' hd
      obtain ⟨s, x, h1, h20⟩ := descend_idx n (pw c) rest stk xR i _ hd
      rw [Bool.and_eq_true] at h
      have h2 : s.map Prod.snd = i' :: stk' := h20
      clear h20
      cases s with
      | nil => cases h2
      | cons e0 s =>
        obtain ⟨y, iy⟩ := e0
        rw [List.map_cons, List.cons.injEq] at h2
        obtain ⟨h5, h2⟩ := h2
        have h5 : iy = i' := h5
        subst h5
        obtain ⟨x', e, h3, h4⟩ := ih rest' (s.map fun e => (ev (gen x).2 e.1, e.2)) (gen x).1 (ev (gen x).2 y) iy
          (extra.map (ev (gen x).2)) (by rw [List.map_map]; exact (congrArg (fun z => idxOk n rest' z iy) h2).trans h.2)
        refine ⟨x', e, ?_, by simpa using h4⟩
        rw [trav, h1]
        exact h3

end

theorem stratA_ok (g : SidhParams) (h : g = params434 ∨ g = params503 ∨ g = params751) :
    idxOk g.A.isogenyStrategy.length g.A.isogenyStrategy [] 0 = true := by
  rcases h with rfl | rfl | rfl <;> decide +kernel

theorem stratB_ok (g : SidhParams) (h : g = params434 ∨ g = params503 ∨ g = params751) :
    idxOk g.B.isogenyStrategy.length g.B.isogenyStrategy [] 0 = true := by
  rcases h with rfl | rfl | rfl <;> decide +kernel

section
variable {F : Type} (o : Ops F)

theorem ladderLoop_total (a24 : F) (scalar : List Byte) : ∀ (k i : Nat) (r0 r1 r2 : Pt F) (b : Byte), i + k ≤ 8 * scalar.length →
    ∃ r, ladderLoop o a24 scalar i k r0 r1 r2 b = some r := by
  intro k
  induction k with
  | zero => intro i r0 r1 r2 b _; exact ⟨_, rfl⟩
  | succ k ih =>
    intro i r0 r1 r2 b h
    obtain ⟨c, hc⟩ : ∃ c, scalar[i / 8]? = some c := ⟨scalar[i / 8]'(by omega), List.getElem?_eq_getElem (by omega)⟩
    obtain ⟨r, hr⟩ := ih (i + 1) (xDbladd o r0 (cswapPt o r1 r2 (b ^^^ ((c >>> (i % 8)) &&& 1))).2 (cswapPt o r1 r2 (b ^^^ ((c >>> (i % 8)) &&& 1))).1 a24).1
      (cswapPt o r1 r2 (b ^^^ ((c >>> (i % 8)) &&& 1))).1
      (xDbladd o r0 (cswapPt o r1 r2 (b ^^^ ((c >>> (i % 8)) &&& 1))).2 (cswapPt o r1 r2 (b ^^^ ((c >>> (i % 8)) &&& 1))).1 a24).2
      ((c >>> (i % 8)) &&& 1) (by omega)
    refine ⟨r, ?_⟩
    rw [ladderLoop, scalarBit, hc]
    exact hr

theorem scalarMul3Pt_total (c : Coef F) (p q r : Pt F) (nbits : Nat) (scalar : List Byte) (h : nbits ≤ 8 * scalar.length) :
    ∃ x, scalarMul3Pt o c p q r nbits scalar = some x := by
  obtain ⟨⟨r1, r2, b⟩, hr⟩ := ladderLoop_total o (calcAplus2Over4 o c) scalar nbits 0 q p r 0 (by omega)
  exact ⟨_, by rw [scalarMul3Pt, hr]; rfl⟩

theorem traverseTreeA_total (strat : List Nat) (hs : idxOk strat.length strat [] 0 = true) (c : Coef F) (xR : Pt F) (extra : List (Pt F)) :
    ∃ x e, traverseTreeA o strat c xR extra = some (x, e) ∧ e.length = extra.length := by
  rw [traverseTreeA, traverse4_eq]
  exact trav_total _ _ _ _ _ _ _ _ _ _ hs

theorem traverseTreeB_total (strat : List Nat) (hs : idxOk strat.length strat [] 0 = true) (c : Coef F) (xR : Pt F) (extra : List (Pt F)) :
    ∃ x e, traverseTreeB o strat c xR extra = some (x, e) ∧ e.length = extra.length := by
  rw [traverseTreeB, traverse3_eq]
  exact trav_total _ _ _ _ _ _ _ _ _ _ hs

theorem publicKeyGenA_total (c : CParams F) (prv : List Byte) (hs : idxOk c.stratA.length c.stratA [] 0 = true)
    (h : c.bitsA ≤ 8 * prv.length) : ∃ t, publicKeyGenA o c prv = some t := by
  obtain ⟨x, hx⟩ := scalarMul3Pt_total o ⟨c.initA, c.initC⟩ ⟨c.pA, c.one⟩ ⟨c.qA, c.one⟩ ⟨c.rA, c.one⟩ c.bitsA prv h
  obtain ⟨y, e, h1, h2⟩ := traverseTreeA_total o c.stratA hs ⟨c.initA, c.initC⟩ x [⟨c.pB, c.one⟩, ⟨c.qB, c.one⟩, ⟨c.rB, c.one⟩]
  match e, h2 with
  | [e1, e2, e3], _ => exact ⟨_, by rw [publicKeyGenA, hx]; simp only [Option.bind_eq_bind, Option.bind_some]; rw [h1]; rfl⟩

theorem publicKeyGenB_total (c : CParams F) (prv : List Byte) (hs : idxOk c.stratB.length c.stratB [] 0 = true)
    (h : c.bitsB ≤ 8 * prv.length) : ∃ t, publicKeyGenB o c prv = some t := by
  obtain ⟨x, hx⟩ := scalarMul3Pt_total o ⟨c.initA, c.initC⟩ ⟨c.pB, c.one⟩ ⟨c.qB, c.one⟩ ⟨c.rB, c.one⟩ c.bitsB prv h
  obtain ⟨y, e, h1, h2⟩ := traverseTreeB_total o c.stratB hs ⟨c.initA, c.initC⟩ x [⟨c.pA, c.one⟩, ⟨c.qA, c.one⟩, ⟨c.rA, c.one⟩]
  match e, h2 with
  | [e1, e2, e3], _ => exact ⟨_, by rw [publicKeyGenB, hx]; simp only [Option.bind_eq_bind, Option.bind_some]; rw [h1]; rfl⟩

theorem deriveA_total (c : CParams F) (prv : List Byte) (pub : Tri F) (hs : idxOk c.stratA.length c.stratA [] 0 = true)
    (h : c.bitsA ≤ 8 * prv.length) : ∃ t, deriveA o c prv pub = some t := by
  obtain ⟨x, hx⟩ := scalarMul3Pt_total o ⟨recoverCoordinateA o c.one pub.p pub.q pub.r, c.initC⟩ ⟨pub.p, c.one⟩ ⟨pub.q, c.one⟩ ⟨pub.r, c.one⟩ c.bitsA prv h
  obtain ⟨y, e, h1, _⟩ := traverseTreeA_total o c.stratA hs ⟨recoverCoordinateA o c.one pub.p pub.q pub.r, c.initC⟩ x []
  exact ⟨_, by rw [deriveA]; simp only [Option.bind_eq_bind]; rw [hx]; simp only [Option.bind_some]; rw [h1]; rfl⟩

theorem deriveB_total (c : CParams F) (prv : List Byte) (pub : Tri F) (hs : idxOk c.stratB.length c.stratB [] 0 = true)
    (h : c.bitsB ≤ 8 * prv.length) : ∃ t, deriveB o c prv pub = some t := by
  obtain ⟨x, hx⟩ := scalarMul3Pt_total o ⟨recoverCoordinateA o c.one pub.p pub.q pub.r, c.initC⟩ ⟨pub.p, c.one⟩ ⟨pub.q, c.one⟩ ⟨pub.r, c.one⟩ c.bitsB prv h
  obtain ⟨y, e, h1, _⟩ := traverseTreeB_total o c.stratB hs ⟨recoverCoordinateA o c.one pub.p pub.q pub.r, c.initC⟩ x []
  exact ⟨_, by rw [deriveB]; simp only [Option.bind_eq_bind]; rw [hx]; simp only [Option.bind_some]; rw [h1]; rfl⟩

end

end Lemmas.SidhTrace
