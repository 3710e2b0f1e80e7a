import Verif.Lemmas.XChain
import Verif.Lemmas.SidhLadder
import Verif.Lemmas.SidhTrace
import Verif.Spec.SidhChain
/-
The tree traversal of core.go walks the plain chain of isogenies.
-/
namespace Lemmas.SidhWalk
open Model Model.Sidh Lemmas.SidhNat Lemmas.SidhTrace Verif.XOnly Lemmas.SidhX Spec.Sidh

/-- like `idxOk`, and no index on the stack exceeds the number of isogenies left -/
def idxOk' : Nat → List Nat → List Nat → Nat → Bool
  | 0, _, _, i => i == 0
  | n + 1, rest, stk, i =>
    match idxDescend n rest stk i with
    | none => false
    | some (_, [], _) => false
    | some (rest, i' :: stk, i) => i == n + 1 && (i' :: stk).all (· ≤ n) && idxOk' n rest stk i'

theorem idxDescend_le (lim : Nat) : ∀ (rest stk : List Nat) (i : Nat) (r : List Nat × List Nat × Nat),
    idxDescend lim rest stk i = some r → i ≤ r.2.2 := by
  intro rest
  induction rest with
  | nil =>
    intro stk i r h
    rw [idxDescend] at h
    split at h
    · cases h
    · obtain rfl := Option.some.inj h; exact le_rfl
  | cons k rest ih =>
    intro stk i r h
    rw [idxDescend] at h
    split at h
    · exact le_trans (Nat.le_add_right i k) (ih _ _ _ h)
    · obtain rfl := Option.some.inj h; exact le_rfl

section generic
variable {α C I S Γ : Type} (pw : C → Nat → α → α) (gen : α → C × I) (ev : I → α → α)
variable (step : S → Nat → S) (CR : S → C → Prop) (MR : S → Nat → α → Prop) (PR : S → Γ → α → Prop)
variable (Inv : Nat → S → Prop) (Ex : Nat → S → Γ → Prop)

/-- the states of the plain chain -/
def travChain : Nat → S → S
  | 0, s => s
  | n + 1, s => travChain n (step s (n + 1))

theorem descend_spec {s : S} {c : C} {m : Nat}
    (h_pw : ∀ i k x, i + k ≤ m → MR s i x → MR s (i + k) (pw c k x)) (lim : Nat) :
    ∀ (rest : List Nat) (stk : List (α × Nat)) (xR : α) (i : Nat) (r : List Nat × List Nat × Nat),
    idxDescend lim rest (stk.map Prod.snd) i = some r → r.2.2 ≤ m → MR s i xR → (∀ e ∈ stk, MR s e.2 e.1) →
    ∃ stk' xR', descend lim (pw c) rest stk xR i = some (r.1, stk', xR', r.2.2) ∧ stk'.map Prod.snd = r.2.1 ∧
      MR s r.2.2 xR' ∧ ∀ e ∈ stk', MR s e.2 e.1 := by
  intro rest
  induction rest with
  | nil =>
    intro stk xR i r h hm hx hs
    rw [idxDescend] at h
    split at h
    · cases h
    · rename_i hh
      obtain rfl := Option.some.inj h
      exact ⟨stk, xR, by rw [descend, if_neg hh], rfl, hx, hs⟩
  | cons k rest ih =>
    intro stk xR i r h hm hx hs
    rw [idxDescend] at h
    rw [descend]
    split at h
    · rename_i hh
      rw [if_pos hh]
      have := idxDescend_le lim _ _ _ _ h
      refine ih ((xR, i) :: stk) (pw c k xR) (i + k) r h hm (h_pw i k xR (by omega) hx) ?_
      intro e he
      rcases List.mem_cons.mp he with rfl | he
      · exact hx
      · exact hs e he
    · rename_i hh
      obtain rfl := Option.some.inj h
      exact ⟨stk, xR, by rw [if_neg hh], rfl, hx, hs⟩

theorem trav_spec
    (h_inv : ∀ n s, Inv (n + 1) s → Inv n (step s (n + 1)))
    (h_pw : ∀ n s c, Inv n s → CR s c → ∀ i k x, i + k ≤ n → MR s i x → MR s (i + k) (pw c k x))
    (h_gen : ∀ n s x, Inv (n + 1) s → MR s (n + 1) x → CR (step s (n + 1)) (gen x).1)
    (h_ev : ∀ n s x i y, Inv (n + 1) s → MR s (n + 1) x → i ≤ n → MR s i y → MR (step s (n + 1)) i (ev (gen x).2 y))
    (h_ex : ∀ n s x P y, Inv (n + 1) s → MR s (n + 1) x → Ex (n + 1) s P → PR s P y →
      PR (step s (n + 1)) P (ev (gen x).2 y) ∧ Ex n (step s (n + 1)) P) (Ps : List Γ) :
    ∀ (n : Nat) (rest : List Nat) (stk : List (α × Nat)) (s : S) (c : C) (xR : α) (i : Nat) (extra : List α),
    idxOk' n rest (stk.map Prod.snd) i = true → Inv n s → CR s c → MR s i xR → (∀ e ∈ stk, MR s e.2 e.1) →
    (∀ P ∈ Ps, Ex n s P) → List.Forall₂ (PR s) Ps extra →
    ∃ x e, trav pw gen ev n rest stk c xR i extra = some (x, e) ∧ MR (travChain step n s) 0 x ∧
      List.Forall₂ (PR (travChain step n s)) Ps e ∧ Inv 0 (travChain step n s) := by
  intro n
  induction n with
  | zero =>
    intro rest stk s c xR i extra h hI _ hx _ _ hf
    rw [idxOk'] at h
    have : i = 0 := by simpa using h
    subst this
    exact ⟨xR, extra, rfl, hx, hf, hI⟩
  | succ n ih =>
    intro rest stk s c xR i extra h hI hc hx hs hE hf
    rw [idxOk'] at h
    split at h
    · cases h
    · cases h
    · rename_i rest' i' stk' i'' hd
      rw [Bool.and_eq_true, Bool.and_eq_true] at h
      obtain ⟨⟨hi, hall⟩, hok⟩ := h
      have hi : i'' = n + 1 := by simpa using hi
      subst hi
      obtain ⟨t, x, h1, h20, h3, h4⟩ := descend_spec pw MR (h_pw (n + 1) s c hI hc) n rest stk xR i _ hd le_rfl hx hs
      have h2 : t.map Prod.snd = i' :: stk' := h20
      clear h20
      have hle : ∀ e ∈ t, e.2 ≤ n := by
        intro e he
        have : e.2 ∈ i' :: stk' := by rw [← h2]; exact List.mem_map_of_mem he
        have := List.all_eq_true.mp hall _ this
        simpa using this
      cases t with
      | nil => cases h2
      | cons e0 t =>
        obtain ⟨y, iy⟩ := e0
        rw [List.map_cons, List.cons.injEq] at h2
        obtain ⟨h5, h2⟩ := h2
        have h5 : iy = i' := h5
        subst h5
        obtain ⟨x', e, h6, h7⟩ := ih rest' (t.map fun e => (ev (gen x).2 e.1, e.2)) (step s (n + 1)) (gen x).1 (ev (gen x).2 y) iy
          (extra.map (ev (gen x).2)) (by rw [List.map_map]; exact (congrArg (fun z => idxOk' n rest' z iy) h2).trans hok)
          (h_inv n s hI) (h_gen n s x hI h3) (h_ev n s x iy y hI h3 (hle _ List.mem_cons_self) (h4 _ List.mem_cons_self))
          (by
            intro e he
            obtain ⟨e', he', rfl⟩ := List.mem_map.mp he
            exact h_ev n s x e'.2 e'.1 hI h3 (hle _ (List.mem_cons_of_mem _ he')) (h4 _ (List.mem_cons_of_mem _ he')))
          (by
            intro P hP
            obtain ⟨q, hq⟩ : ∃ q, PR s P q := by
              obtain ⟨k, hk, rfl⟩ := List.getElem_of_mem hP
              exact ⟨_, hf.get hk (hf.length_eq ▸ hk)⟩
            exact (h_ex n s x P q hI h3 (hE P hP) hq).2)
          (by
            rw [List.forall₂_map_right_iff]
            have hf' : List.Forall₂ (fun P q => PR s P q ∧ Ex (n + 1) s P) Ps extra := by
              clear ih
              induction hf with
              | nil => exact .nil
              | cons h _ ih' => exact .cons ⟨h, hE _ List.mem_cons_self⟩ (ih' fun P hP => hE P (List.mem_cons_of_mem _ hP))
            exact hf'.imp fun P q hq => (h_ex n s x P q hI h3 hq.2 hq.1).1)
        refine ⟨x', e, ?_, h7⟩
        rw [trav, h1]
        exact h6

theorem ex_all {s : S} {n : Nat} {Ps : List Γ} {extra : List α} (hf : List.Forall₂ (PR s) Ps extra) (hE : ∀ P ∈ Ps, Ex n s P) :
    List.Forall₂ (fun P q => PR s P q ∧ Ex n s P) Ps extra := by
  induction hf with
  | nil => exact .nil
  | cons h _ ih' => exact .cons ⟨h, hE _ List.mem_cons_self⟩ (ih' fun P hP => hE P (List.mem_cons_of_mem _ hP))

theorem plain_spec
    (h_inv : ∀ n s, Inv (n + 1) s → Inv n (step s (n + 1)))
    (h_pw : ∀ n s c, Inv n s → CR s c → ∀ i k x, i + k ≤ n → MR s i x → MR s (i + k) (pw c k x))
    (h_gen : ∀ n s x, Inv (n + 1) s → MR s (n + 1) x → CR (step s (n + 1)) (gen x).1)
    (h_ev : ∀ n s x i y, Inv (n + 1) s → MR s (n + 1) x → i ≤ n → MR s i y → MR (step s (n + 1)) i (ev (gen x).2 y))
    (h_ex : ∀ n s x P y, Inv (n + 1) s → MR s (n + 1) x → Ex (n + 1) s P → PR s P y →
      PR (step s (n + 1)) P (ev (gen x).2 y) ∧ Ex n (step s (n + 1)) P) (Ps : List Γ) :
    ∀ (n : Nat) (s : S) (c : C) (xR : α) (extra : List α), Inv n s → CR s c → MR s 0 xR →
    (∀ P ∈ Ps, Ex n s P) → List.Forall₂ (PR s) Ps extra →
    MR (travChain step n s) 0 (plain pw gen ev n c xR extra).1 ∧
      List.Forall₂ (PR (travChain step n s)) Ps (plain pw gen ev n c xR extra).2 := by
  intro n
  induction n with
  | zero => intro s c xR extra _ _ hx _ hf; exact ⟨hx, hf⟩
  | succ n ih =>
    intro s c xR extra hI hc hx hE hf
    have hk : MR s (n + 1) (pw c (n + 1) xR) := by
      have := h_pw (n + 1) s c hI hc 0 (n + 1) xR (by omega) hx
      rwa [Nat.zero_add] at this
    have hf' := ex_all PR Ex hf hE
    rw [plain]
    refine ih _ _ _ _ (h_inv n s hI) (h_gen n s _ hI hk) (h_ev n s _ 0 xR hI hk (by omega) hx) ?_ ?_
    · intro P hP
      obtain ⟨k, hk', rfl⟩ := List.getElem_of_mem hP
      have := hf'.get hk' (hf'.length_eq ▸ hk')
      exact (h_ex n s _ _ _ hI hk this.2 this.1).2
    · rw [List.forall₂_map_right_iff]
      exact hf'.imp fun P q hq => (h_ex n s _ P q hI hk hq.2 hq.1).1

theorem both_spec
    (h_inv : ∀ n s, Inv (n + 1) s → Inv n (step s (n + 1)))
    (h_pw : ∀ n s c, Inv n s → CR s c → ∀ i k x, i + k ≤ n → MR s i x → MR s (i + k) (pw c k x))
    (h_gen : ∀ n s x, Inv (n + 1) s → MR s (n + 1) x → CR (step s (n + 1)) (gen x).1)
    (h_ev : ∀ n s x i y, Inv (n + 1) s → MR s (n + 1) x → i ≤ n → MR s i y → MR (step s (n + 1)) i (ev (gen x).2 y))
    (h_ex : ∀ n s x P y, Inv (n + 1) s → MR s (n + 1) x → Ex (n + 1) s P → PR s P y →
      PR (step s (n + 1)) P (ev (gen x).2 y) ∧ Ex n (step s (n + 1)) P) (Ps : List Γ)
    (n : Nat) (rest : List Nat) (s : S) (c : C) (xR : α) (extra : List α)
    (h1 : idxOk' n rest [] 0 = true) (h2 : Inv n s) (h3 : CR s c) (h4 : MR s 0 xR) (h5 : ∀ P ∈ Ps, Ex n s P) (h6 : List.Forall₂ (PR s) Ps extra) :
    ∃ x e, trav pw gen ev n rest [] c xR 0 extra = some (x, e) ∧ MR (travChain step n s) 0 x ∧
      List.Forall₂ (PR (travChain step n s)) Ps e ∧ Inv 0 (travChain step n s) ∧
      MR (travChain step n s) 0 (plain pw gen ev n c xR extra).1 ∧
      List.Forall₂ (PR (travChain step n s)) Ps (plain pw gen ev n c xR extra).2 := by
  obtain ⟨x, e, a, b, c', d⟩ := trav_spec pw gen ev step CR MR PR Inv Ex h_inv h_pw h_gen h_ev h_ex Ps n rest [] s c xR 0 extra h1 h2 h3 h4
    (fun e he => absurd he List.not_mem_nil) h5 h6
  exact ⟨x, e, a, b, c', d, plain_spec pw gen ev step CR MR PR Inv Ex h_inv h_pw h_gen h_ev h_ex Ps n s c xR extra h2 h3 h4 h5 h6⟩

end generic

variable {K : Type} [Field K] {Γ : Type} [AddCommGroup Γ] {T R : Γ}

theorem pow2k_rep {A : K} {N : AddSubgroup Γ} {g : Γ → K} (X : XRep A N T g) {c : Coef K} (hc : IsA4 c A) :
    ∀ (k : Nat) (P : Γ) (p : Pt K), (2 ^ k : Nat) • P ∉ N → Rep p (g P) → Rep (pow2k (fieldOps K) c k p) (g ((2 ^ k : Nat) • P))
  | 0, P, p, _, hp => by simpa [pow2k] using hp
  | k + 1, P, p, hn, hp => by
    have e : (2 ^ (k + 1) : Nat) • P = (2 ^ k : Nat) • (P + P) := by rw [pow_succ, mul_smul, two_smul]
    rw [e] at hn ⊢
    have h2 : P + P ∉ N := fun h => hn (N.nsmul_mem h _)
    have h1 : P ∉ N := fun h => h2 (N.add_mem h h)
    obtain ⟨hd, he⟩ := X.dbl P h1 h2
    exact pow2k_rep X hc k (P + P) _ hn (dblStep_rep X.two hc hp hd he)

theorem pow3k_rep {A : K} {N : AddSubgroup Γ} {g : Γ → K} (X : XRep A N T g) {c : Coef K} (hc : IsA3 c A) :
    ∀ (k : Nat) (P : Γ) (p : Pt K), (3 ^ k : Nat) • P ∉ N → (3 ^ k : Nat) • (P + P) ∉ N → Rep p (g P) →
      Rep (pow3k (fieldOps K) c k p) (g ((3 ^ k : Nat) • P))
  | 0, P, p, _, _, hp => by simpa [pow3k] using hp
  | k + 1, P, p, hn, hn2, hp => by
    have e : ∀ Q : Γ, (3 ^ (k + 1) : Nat) • Q = (3 ^ k : Nat) • (Q + Q + Q) := by
      intro Q
      have : Q + Q + Q = (3 : Nat) • Q := by abel
      rw [pow_succ, mul_smul, this]
    have e2 : P + P + (P + P) + (P + P) = P + P + P + (P + P + P) := by abel
    rw [e] at hn ⊢
    rw [e, e2] at hn2
    have h3 : P + P + P ∉ N := fun h => hn (N.nsmul_mem h _)
    have h2 : P + P ∉ N := by
      intro h
      apply hn2
      apply N.nsmul_mem
      have := N.add_mem (N.add_mem h h) h
      rwa [e2] at this
    have h1 : P ∉ N := fun h => h2 (N.add_mem h h)
    obtain ⟨hd, he⟩ := X.tpl h1 h2 h3
    exact pow3k_rep X hc k (P + P + P) _ hn hn2 (tplStep_rep X.two hc hp hd he)

theorem chain4_eq (R : Γ) : ∀ (n : Nat) (s : St K Γ),
    (travChain (fun (s : St K Γ) n => s.step4 ((4 ^ n : Nat) • R)) n s).step4 R = s.run4 (kers 4 R (n + 1))
  | 0, s => by simp [travChain, kers, St.run4]
  | n + 1, s => by rw [travChain, chain4_eq R n]; rfl

theorem chain3_eq (R : Γ) : ∀ (n : Nat) (s : St K Γ),
    (travChain (fun (s : St K Γ) n => s.step3 ((3 ^ n : Nat) • R)) n s).step3 R = s.run3 (kers 3 R (n + 1))
  | 0, s => by simp [travChain, kers, St.run3]
  | n + 1, s => by rw [travChain, chain3_eq R n]; rfl

theorem chain4_le (R : Γ) : ∀ (n : Nat) (s : St K Γ),
    s.N ≤ (travChain (fun (s : St K Γ) n => s.step4 ((4 ^ n : Nat) • R)) n s).N
  | 0, s => le_rfl
  | n + 1, s => le_trans le_sup_left (chain4_le R n (s.step4 ((4 ^ (n + 1) : Nat) • R)))

theorem chain3_le (R : Γ) : ∀ (n : Nat) (s : St K Γ),
    s.N ≤ (travChain (fun (s : St K Γ) n => s.step3 ((3 ^ n : Nat) • R)) n s).N
  | 0, s => le_rfl
  | n + 1, s => le_trans le_sup_left (chain3_le R n (s.step3 ((3 ^ (n + 1) : Nat) • R)))

/-- The traversal with 4-isogenies, followed by the last isogeny, is the chain of ⟨R⟩. -/
theorem traverseTreeA_both {s : St K Γ} (X : s.Ok T) {strat : List Nat} (hs : idxOk' strat.length strat [] 0 = true)
    (hR : Ker4 s.N T ((4 ^ strat.length : Nat) • R)) {c : Coef K} (hc : IsA c s.A) {xR : Pt K} (hx : Rep xR (s.g R))
    (Ps : List Γ) (hP : ∀ P ∈ Ps, P ∉ (s.run4 (kers 4 R (strat.length + 1))).N) {extra : List (Pt K)}
    (he : List.Forall₂ (fun P p => Rep p (s.g P)) Ps extra) :
    ∃ x e, traverseTreeA (fieldOps K) strat c xR extra = some (x, e) ∧
      IsA4 (gen4 (fieldOps K) x).1 (s.run4 (kers 4 R (strat.length + 1))).A ∧
      List.Forall₂ (fun P p => Rep (eval4 (fieldOps K) (gen4 (fieldOps K) x).2 p) ((s.run4 (kers 4 R (strat.length + 1))).g P)) Ps e ∧
      ∃ u us, Rep x u ∧ Rep (plain4 (fieldOps K) strat.length c xR extra).1 u ∧ List.Forall₂ Rep e us ∧
        List.Forall₂ Rep (plain4 (fieldOps K) strat.length c xR extra).2 us := by
  have h4 : (4 : K) ≠ 0 := X.four
  have pw4 : ∀ n : Nat, (4 ^ (n + 1) : Nat) • R = (4 : Nat) • ((4 ^ n : Nat) • R) := fun n => by rw [pow_succ', mul_smul]
  have evr : ∀ (s : St K Γ) (κ P : Γ) (x y : Pt K), s.Ok T → Ker4 s.N T κ → P ∉ (s.step4 κ).N → Rep x (s.g κ) → Rep y (s.g P) →
      Rep (eval4 (fieldOps K) (gen4 (fieldOps K) x).2 y) ((s.step4 κ).g P) := by
    intro s κ P x y X hκ hP hx hy
    obtain ⟨h1, h2⟩ := hκ.x_ne X hP
    exact eval4_rep h4 hx hy h1 h2
  have key := both_spec (Γ := Γ) (fun c k => pow2k (fieldOps K) c (2 * k)) (gen4 (fieldOps K)) (eval4 (fieldOps K))
    (fun (s : St K Γ) n => s.step4 ((4 ^ n : Nat) • R)) (fun s c => IsA4 c s.A)
    (fun s i p => Rep p (s.g ((4 ^ i : Nat) • R))) (fun s P p => Rep p (s.g P))
    (fun n s => s.Ok T ∧ Ker4 s.N T ((4 ^ n : Nat) • R))
    (fun n s P => P ∉ ((travChain (fun (s : St K Γ) n => s.step4 ((4 ^ n : Nat) • R)) n s)).N)
    (by
      rintro n s ⟨X, h⟩
      refine ⟨X.step4 h, ?_⟩
      rw [pw4] at h ⊢
      exact h.next X.T2)
    (by
      rintro n s c ⟨X, h⟩ hc i k x hik hx
      have e : (4 ^ (i + k) : Nat) • R = (2 ^ (2 * k) : Nat) • ((4 ^ i : Nat) • R) := by
        rw [← mul_smul, pow_mul, show (2 ^ 2 : Nat) = 4 from rfl, ← pow_add, Nat.add_comm]
      rw [e]
      refine pow2k_rep X hc (2 * k) _ x ?_ hx
      rw [← e]
      intro hm
      apply h.ne1
      have e2 : (4 ^ n : Nat) • R = (4 ^ (n - (i + k)) : Nat) • ((4 ^ (i + k) : Nat) • R) := by
        rw [← mul_smul, ← pow_add]; congr 2; omega
      rw [e2]
      exact s.N.nsmul_mem hm _)
    (by
      rintro n s x ⟨X, h⟩ hx
      exact gen4_rep h4 hx)
    (by
      rintro n s x i y ⟨X, h⟩ hx hi hy
      refine evr s _ _ x y X h ?_ hx hy
      intro hm
      have h' := h
      rw [pw4] at h'
      apply (h'.next X.T2).ne1
      have e2 : (4 ^ n : Nat) • R = (4 ^ (n - i) : Nat) • ((4 ^ i : Nat) • R) := by
        rw [← mul_smul, ← pow_add]; congr 2; omega
      rw [← pw4, e2]
      exact AddSubgroup.nsmul_mem _ hm _)
    (by
      rintro n s x P y ⟨X, h⟩ hx hP hy
      refine ⟨evr s _ _ x y X h ?_ hx hy, hP⟩
      intro hm
      exact hP (chain4_le R n _ hm))
    Ps strat.length strat s (calcCurveParamsEquiv4 (fieldOps K) c) xR extra hs ⟨X, hR⟩ (equiv4 h4 hc) (by simpa using hx)
    (by
      intro P hP' hm
      apply hP P hP'
      rw [← chain4_eq]
      exact AddSubgroup.mem_sup_left hm) he
  obtain ⟨x, e, h1, h2, h3, ⟨X', hk⟩, h5, h6⟩ := key
  rw [pow_zero, one_smul] at h2 hk h5
  refine ⟨x, e, by rw [traverseTreeA, traverse4_eq]; exact h1, ?_, ?_, _, Ps.map (travChain (fun (s : St K Γ) n => s.step4 ((4 ^ n : Nat) • R)) strat.length s).g, h2, h5, ?_, ?_⟩
  · rw [← chain4_eq]
    exact gen4_rep h4 h2
  · rw [← chain4_eq]
    rw [← chain4_eq] at hP
    have h3' : List.Forall₂ (fun P q => Rep q ((travChain (fun (s : St K Γ) n => s.step4 ((4 ^ n : Nat) • R)) strat.length s).g P) ∧
        P ∉ ((travChain (fun (s : St K Γ) n => s.step4 ((4 ^ n : Nat) • R)) strat.length s).step4 R).N) Ps e := by
      clear h1 h5 h6
      induction h3 generalizing extra with
      | nil => exact .nil
      | cons h _ ih' =>
        cases he with
        | cons _ he => exact .cons ⟨h, hP _ List.mem_cons_self⟩ (ih' (fun P hP' => hP P (List.mem_cons_of_mem _ hP')) he)
    exact h3'.imp fun P q hq => evr _ R P x q X' hk hq.2 h2 hq.1
  · rw [List.forall₂_map_right_iff]; exact h3.flip
  · rw [List.forall₂_map_right_iff]; exact h6.flip

/-- The traversal with 4-isogenies, followed by the last isogeny, is the chain of ⟨R⟩. -/
theorem traverseTreeA_spec {s : St K Γ} (X : s.Ok T) {strat : List Nat} (hs : idxOk' strat.length strat [] 0 = true)
    (hR : Ker4 s.N T ((4 ^ strat.length : Nat) • R)) {c : Coef K} (hc : IsA c s.A) {xR : Pt K} (hx : Rep xR (s.g R))
    (Ps : List Γ) (hP : ∀ P ∈ Ps, P ∉ (s.run4 (kers 4 R (strat.length + 1))).N) {extra : List (Pt K)}
    (he : List.Forall₂ (fun P p => Rep p (s.g P)) Ps extra) :
    ∃ x e, traverseTreeA (fieldOps K) strat c xR extra = some (x, e) ∧
      IsA4 (gen4 (fieldOps K) x).1 (s.run4 (kers 4 R (strat.length + 1))).A ∧
      List.Forall₂ (fun P p => Rep (eval4 (fieldOps K) (gen4 (fieldOps K) x).2 p) ((s.run4 (kers 4 R (strat.length + 1))).g P)) Ps e := by
  obtain ⟨x, e, h1, h2, h3, _⟩ := traverseTreeA_both X hs hR hc hx Ps hP he
  exact ⟨x, e, h1, h2, h3⟩

/-- The traversal with 3-isogenies, followed by the last isogeny, is the chain of ⟨R⟩. -/
theorem traverseTreeB_both {s : St K Γ} (X : s.Ok T) {strat : List Nat} (hs : idxOk' strat.length strat [] 0 = true)
    (hR : Ker3 s.N ((3 ^ strat.length : Nat) • R)) {c : Coef K} (hc : IsA c s.A) {xR : Pt K} (hx : Rep xR (s.g R))
    (Ps : List Γ) (hP : ∀ P ∈ Ps, P ∉ (s.run3 (kers 3 R (strat.length + 1))).N) {extra : List (Pt K)}
    (he : List.Forall₂ (fun P p => Rep p (s.g P)) Ps extra) :
    ∃ x e, traverseTreeB (fieldOps K) strat c xR extra = some (x, e) ∧
      IsA3 (gen3 (fieldOps K) x).1 (s.run3 (kers 3 R (strat.length + 1))).A ∧
      List.Forall₂ (fun P p => Rep (eval3 (fieldOps K) (gen3 (fieldOps K) x).2 p) ((s.run3 (kers 3 R (strat.length + 1))).g P)) Ps e ∧
      ∃ u us, Rep x u ∧ Rep (plain3 (fieldOps K) strat.length c xR extra).1 u ∧ List.Forall₂ Rep e us ∧
        List.Forall₂ Rep (plain3 (fieldOps K) strat.length c xR extra).2 us := by
  have h4 : (4 : K) ≠ 0 := X.four
  have pw3 : ∀ n : Nat, (3 ^ (n + 1) : Nat) • R = (3 : Nat) • ((3 ^ n : Nat) • R) := fun n => by rw [pow_succ', mul_smul]
  have evr : ∀ (s : St K Γ) (κ P : Γ) (x y : Pt K), s.Ok T → Ker3 s.N κ → P ∉ (s.step3 κ).N → Rep x (s.g κ) → Rep y (s.g P) →
      Rep (eval3 (fieldOps K) (gen3 (fieldOps K) x).2 y) ((s.step3 κ).g P) := by
    intro s κ P x y X hκ hP hx hy
    exact eval3_rep h4 hx hy (hκ.x_ne X hP)
  have key := both_spec (Γ := Γ) (fun c k => pow3k (fieldOps K) c k) (gen3 (fieldOps K)) (eval3 (fieldOps K))
    (fun (s : St K Γ) n => s.step3 ((3 ^ n : Nat) • R)) (fun s c => IsA3 c s.A)
    (fun s i p => Rep p (s.g ((3 ^ i : Nat) • R))) (fun s P p => Rep p (s.g P))
    (fun n s => s.Ok T ∧ Ker3 s.N ((3 ^ n : Nat) • R))
    (fun n s P => P ∉ ((travChain (fun (s : St K Γ) n => s.step3 ((3 ^ n : Nat) • R)) n s)).N)
    (by
      rintro n s ⟨X, h⟩
      refine ⟨X.step3 h, ?_⟩
      rw [pw3] at h ⊢
      exact h.next)
    (by
      rintro n s c ⟨X, h⟩ hc i k x hik hx
      have e : ∀ R : Γ, (3 ^ (i + k) : Nat) • R = (3 ^ k : Nat) • ((3 ^ i : Nat) • R) := by
        intro R
        rw [← mul_smul, ← pow_add, Nat.add_comm]
      have e2 : ∀ R : Γ, (3 ^ n : Nat) • R = (3 ^ (n - (i + k)) : Nat) • ((3 ^ (i + k) : Nat) • R) := by
        intro R
        rw [← mul_smul, ← pow_add]; congr 2; omega
      rw [e]
      refine pow3k_rep X hc k _ x ?_ ?_ hx
      · rw [← e]
        intro hm
        apply h.ne
        rw [e2]
        exact s.N.nsmul_mem hm _
      · rw [← smul_add, ← e]
        intro hm
        apply h.two_notMem
        rw [← smul_add, e2]
        exact s.N.nsmul_mem hm _)
    (by
      rintro n s x ⟨X, h⟩ hx
      exact gen3_rep X.two hx (h.psi X))
    (by
      rintro n s x i y ⟨X, h⟩ hx hi hy
      refine evr s _ _ x y X h ?_ hx hy
      intro hm
      have h' := h
      rw [pw3] at h'
      apply h'.next.ne
      have e2 : (3 ^ n : Nat) • R = (3 ^ (n - i) : Nat) • ((3 ^ i : Nat) • R) := by
        rw [← mul_smul, ← pow_add]; congr 2; omega
      rw [← pw3, e2]
      exact AddSubgroup.nsmul_mem _ hm _)
    (by
      rintro n s x P y ⟨X, h⟩ hx hP hy
      refine ⟨evr s _ _ x y X h ?_ hx hy, hP⟩
      intro hm
      exact hP (chain3_le R n _ hm))
    Ps strat.length strat s (calcCurveParamsEquiv3 (fieldOps K) c) xR extra hs ⟨X, hR⟩ (equiv3 X.two hc) (by simpa using hx)
    (by
      intro P hP' hm
      apply hP P hP'
      rw [← chain3_eq]
      exact AddSubgroup.mem_sup_left hm) he
  obtain ⟨x, e, h1, h2, h3, ⟨X', hk⟩, h5, h6⟩ := key
  rw [pow_zero, one_smul] at h2 hk h5
  refine ⟨x, e, by rw [traverseTreeB, traverse3_eq]; exact h1, ?_, ?_, _, Ps.map (travChain (fun (s : St K Γ) n => s.step3 ((3 ^ n : Nat) • R)) strat.length s).g, h2, h5, ?_, ?_⟩
  · rw [← chain3_eq]
    exact gen3_rep X'.two h2 (hk.psi X')
  · rw [← chain3_eq]
    rw [← chain3_eq] at hP
    have h3' : List.Forall₂ (fun P q => Rep q ((travChain (fun (s : St K Γ) n => s.step3 ((3 ^ n : Nat) • R)) strat.length s).g P) ∧
        P ∉ ((travChain (fun (s : St K Γ) n => s.step3 ((3 ^ n : Nat) • R)) strat.length s).step3 R).N) Ps e := by
      clear h1 h5 h6
      induction h3 generalizing extra with
      | nil => exact .nil
      | cons h _ ih' =>
        cases he with
        | cons _ he => exact .cons ⟨h, hP _ List.mem_cons_self⟩ (ih' (fun P hP' => hP P (List.mem_cons_of_mem _ hP')) he)
    exact h3'.imp fun P q hq => evr _ R P x q X' hk hq.2 h2 hq.1
  · rw [List.forall₂_map_right_iff]; exact h3.flip
  · rw [List.forall₂_map_right_iff]; exact h6.flip

/-- The traversal with 3-isogenies, followed by the last isogeny, is the chain of ⟨R⟩. -/
theorem traverseTreeB_spec {s : St K Γ} (X : s.Ok T) {strat : List Nat} (hs : idxOk' strat.length strat [] 0 = true)
    (hR : Ker3 s.N ((3 ^ strat.length : Nat) • R)) {c : Coef K} (hc : IsA c s.A) {xR : Pt K} (hx : Rep xR (s.g R))
    (Ps : List Γ) (hP : ∀ P ∈ Ps, P ∉ (s.run3 (kers 3 R (strat.length + 1))).N) {extra : List (Pt K)}
    (he : List.Forall₂ (fun P p => Rep p (s.g P)) Ps extra) :
    ∃ x e, traverseTreeB (fieldOps K) strat c xR extra = some (x, e) ∧
      IsA3 (gen3 (fieldOps K) x).1 (s.run3 (kers 3 R (strat.length + 1))).A ∧
      List.Forall₂ (fun P p => Rep (eval3 (fieldOps K) (gen3 (fieldOps K) x).2 p) ((s.run3 (kers 3 R (strat.length + 1))).g P)) Ps e := by
  obtain ⟨x, e, h1, h2, h3, _⟩ := traverseTreeB_both X hs hR hc hx Ps hP he
  exact ⟨x, e, h1, h2, h3⟩

theorem stratA_ok' (g : SidhParams) (h : g = params434 ∨ g = params503 ∨ g = params751) :
    idxOk' g.A.isogenyStrategy.length g.A.isogenyStrategy [] 0 = true := by
  rcases h with rfl | rfl | rfl <;> decide +kernel

theorem stratB_ok' (g : SidhParams) (h : g = params434 ∨ g = params503 ∨ g = params751) :
    idxOk' g.B.isogenyStrategy.length g.B.isogenyStrategy [] 0 = true := by
  rcases h with rfl | rfl | rfl <;> decide +kernel

end Lemmas.SidhWalk
