import Verif.Model.GoBuildTable

/-! Files and packages in a build: only finitely many names matter, and the rest is a table. -/
namespace Lemmas.GoBuild
open Model.GoBuild

/-! ### only some names matter -/

def litIn (L : List String) : Lit → Bool
  | .tag n => L.contains n
  | .not n => L.contains n
  | _ => true

/-- the names in the constraints of the files -/
def pkgIn (L : List String) (p : Pkg) : Bool := p.files.all fun f => f.constraint.all fun l => l.all fun t => t.all (litIn L)

theorem all_congr' {α : Type} {p q : α → Bool} {l : List α} (h : ∀ x ∈ l, p x = q x) : l.all p = l.all q := by
  induction l with
  | nil => rfl
  | cons x l ih => rw [List.all_cons, List.all_cons, h x (by simp), ih fun y hy => h y (by simp [hy])]

theorem any_congr' {α : Type} {p q : α → Bool} {l : List α} (h : ∀ x ∈ l, p x = q x) : l.any p = l.any q := by
  induction l with
  | nil => rfl
  | cons x l ih => rw [List.any_cons, List.any_cons, h x (by simp), ih fun y hy => h y (by simp [hy])]

theorem flatMap_congr' {α β : Type} {f g : α → List β} {l : List α} (h : ∀ x ∈ l, f x = g x) : l.flatMap f = l.flatMap g := by
  induction l with
  | nil => rfl
  | cons x l ih => rw [List.flatMap_cons, List.flatMap_cons, h x (by simp), ih fun y hy => h y (by simp [hy])]

variable {v v' : String → Bool} {L : List String}

theorem eval_congr (h : ∀ x ∈ L, v x = v' x) {k : List (List (List Lit))} (hk : (k.all fun l => l.all fun t => t.all (litIn L)) = true) :
    evalC v k = evalC v' k := by
  rw [List.all_eq_true] at hk
  refine all_congr' fun l hl => any_congr' fun t ht => all_congr' fun x hx => ?_
  have h1 := hk l hl
  rw [List.all_eq_true] at h1
  have h2 := h1 t ht
  rw [List.all_eq_true] at h2
  have h3 := h2 x hx
  cases x with
  | never => rfl
  | always => rfl
  | tag n => exact h n (by simpa [litIn] using h3)
  | not n => exact congrArg Bool.not (h n (by simpa [litIn] using h3))

theorem chosen_congr (h : ∀ x ∈ L, v x = v' x) {p : Pkg} (hp : pkgIn L p = true) : p.chosen v = p.chosen v' := by
  rw [pkgIn, List.all_eq_true] at hp
  exact List.filter_congr fun f hf => eval_congr h (hp f hf)

theorem names_congr (h : ∀ x ∈ L, v x = v' x) {p : Pkg} (hp : pkgIn L p = true) : p.names v = p.names v' := by
  rw [Pkg.names, Pkg.names, chosen_congr h hp]

/-- the names in the constraints of the package and of those it uses -/
def near (L : List String) (p : Pkg) : Bool := pkgIn L p && repo.all fun q => !(p.files.any fun f => f.uses.any fun u => q.dir == u.1) || pkgIn L q

theorem errors_congr (h : ∀ x ∈ L, v x = v' x) {p : Pkg} (hp : near L p = true) : p.errors v repo n_init = p.errors v' repo n_init := by
  rw [near, Bool.and_eq_true, List.all_eq_true] at hp
  obtain ⟨h0, h1⟩ := hp
  have e : ∀ f ∈ p.files, ∀ u ∈ f.uses, (!((repo.filter fun q => q.dir == u.1).any fun q => (q.names v).contains u.2)) =
      !((repo.filter fun q => q.dir == u.1).any fun q => (q.names v').contains u.2) := by
    intro f hf u hu
    refine congrArg Bool.not (any_congr' fun q hq => ?_)
    obtain ⟨hq, hd⟩ := List.mem_filter.1 hq
    have h2 := h1 q hq
    rw [Bool.or_eq_true] at h2
    rcases h2 with h2 | h2
    · have : (p.files.any fun f => f.uses.any fun u => q.dir == u.1) = true := by
        rw [List.any_eq_true]
        exact ⟨f, hf, by rw [List.any_eq_true]; exact ⟨u, hu, hd⟩⟩
      rw [this] at h2
      cases h2
    · rw [names_congr h h2]
  have e2 : ((p.chosen v').flatMap fun f => (f.uses.filter fun u => !((repo.filter fun q => q.dir == u.1).any fun q => (q.names v).contains u.2)).map fun u => Err.undefined f.name u.1 u.2) =
      (p.chosen v').flatMap fun f => (f.uses.filter fun u => !((repo.filter fun q => q.dir == u.1).any fun q => (q.names v').contains u.2)).map fun u => Err.undefined f.name u.1 u.2 := by
    refine flatMap_congr' fun f hf => ?_
    rw [List.filter_congr (e f (List.mem_filter.1 hf).1)]
  simp only [Pkg.errors, names_congr h h0, chosen_congr h h0, e2]

/-- the package by itself is fine -/
def ok (v : String → Bool) (p : Pkg) : Bool := !(p.chosen v).isEmpty && (p.errors v repo n_init).isEmpty

theorem ok_congr (h : ∀ x ∈ L, v x = v' x) {p : Pkg} (hp : near L p = true) : ok v p = ok v' p := by
  rw [ok, ok, errors_congr h hp, chosen_congr h ((Bool.and_eq_true _ _ ▸ hp).1)]

/-- names and whether they match -/
def asg : List String → List Bool → String → Bool
  | n :: ns, b :: bs, x => if x = n then b else asg ns bs x
  | _, _, _ => false

theorem asg_eq {x : String} (h : x ∈ L) : v x = asg L (L.map v) x := by
  induction L with
  | nil => cases h
  | cons n L ih =>
    rw [List.map_cons, asg]
    split
    · rename_i e; rw [e]
    · rename_i e; exact ih ((List.mem_cons.1 h).resolve_left e)

/-- all lists of truth values -/
def bools : Nat → List (List Bool)
  | 0 => [[]]
  | n + 1 => (bools n).flatMap fun l => [true :: l, false :: l]

theorem mem_bools (l : List Bool) : l ∈ bools l.length := by
  induction l with
  | nil => exact List.mem_singleton.2 rfl
  | cons b l ih => exact List.mem_flatMap.2 ⟨l, ih, by cases b <;> simp⟩

/-- A package whose fate depends on a few names. -/
theorem ok_of {p : Pkg} (c : List Bool → Bool) (w : List Bool → Bool) (h : (near L p && (bools L.length).all fun l => !c l || (ok (asg L l) p == w l)) = true)
    (hc : c (L.map v) = true) : ok v p = w (L.map v) := by
  rw [Bool.and_eq_true, List.all_eq_true] at h
  have h2 := h.2 (L.map v) (by have := mem_bools (L.map v); rwa [List.length_map] at this)
  rw [hc, Bool.not_true, Bool.false_or] at h2
  rw [ok_congr (fun x hx => asg_eq hx) h.1, eq_of_beq h2]

/-! ### from packages to imports -/

theorem dirs_nodup : (repo.map Pkg.dir).Nodup := by decide +kernel

theorem pkg_unique {l : List Pkg} (h : (l.map Pkg.dir).Nodup) {p q : Pkg} (hp : p ∈ l) (hq : q ∈ l) (e : p.dir = q.dir) : p = q := by
  induction l with
  | nil => cases hp
  | cons x l ih =>
    rw [List.map_cons, List.nodup_cons] at h
    rcases List.mem_cons.1 hp with hp' | hp'
    · rcases List.mem_cons.1 hq with hq' | hq'
      · rw [hp', hq']
      · rw [hp'] at e; exact absurd (e ▸ List.mem_map_of_mem hq') h.1
    · rcases List.mem_cons.1 hq with hq' | hq'
      · rw [hq'] at e; exact absurd (e ▸ List.mem_map_of_mem hp') h.1
      · exact ih h.2 hp' hq'

theorem builds_iff {p : Pkg} (hp : p ∈ repo) : Builds v repo n_init p.dir ↔ ok v p = true ∧ ∀ f ∈ p.chosen v, ∀ d ∈ f.imports, Builds v repo n_init d := by
  constructor
  · intro h
    generalize hd : p.dir = d at h
    cases h with
    | @mk q hq hc he hi =>
      have e := pkg_unique dirs_nodup hp hq hd
      subst e
      refine ⟨?_, hi⟩
      rw [ok, he]
      cases h : p.chosen v
      · exact absurd h hc
      · rfl
  · rintro ⟨h, hi⟩
    rw [ok, Bool.and_eq_true] at h
    refine .mk hp ?_ (List.isEmpty_iff.1 h.2) hi
    intro hc
    rw [hc] at h
    cases h.1

/-- all imports build -/
theorem builds_of {p : Pkg} (hp : p ∈ repo) (h : ok v p = true) (hi : ∀ f ∈ p.files, ∀ d ∈ f.imports, Builds v repo n_init d) : Builds v repo n_init p.dir :=
  (builds_iff hp).2 ⟨h, fun f hf => hi f (List.mem_filter.1 hf).1⟩

/-- a file without constraint is in every build, and so its imports must build -/
theorem builds_import {p : Pkg} (hp : p ∈ repo) (h : Builds v repo n_init p.dir) {f : File} (hf : f ∈ p.files) (hk : f.constraint = []) {d : Nat} (hd : d ∈ f.imports) :
    Builds v repo n_init d :=
  ((builds_iff hp).1 h).2 f (List.mem_filter.2 ⟨hf, by rw [hk]; rfl⟩) d hd

/-! ### packages that use only what is always there -/

/-- the names declared in files without constraint -/
def fixed (p : Pkg) : List Nat := (p.files.filter fun f => f.constraint.isEmpty).flatMap fun f => f.defs ++ f.bare

/-- the package is the same in all builds, and uses names of files that are in all builds -/
def plain (p : Pkg) : Bool := !p.files.isEmpty && (p.files.all fun f => f.constraint.isEmpty && f.bare.isEmpty && f.text.isEmpty &&
    f.uses.all fun u => (repo.filter fun q => q.dir == u.1).any fun q => (fixed q).contains u.2) &&
  (p.files.flatMap File.defs).all fun x => x == n_init || times x (p.files.flatMap File.defs) == 1

theorem fixed_sub (p : Pkg) {x : Nat} (h : x ∈ fixed p) : x ∈ p.names v := by
  obtain ⟨f, hf, hx⟩ := List.mem_flatMap.1 h
  obtain ⟨hf, hc⟩ := List.mem_filter.1 hf
  refine List.mem_flatMap.2 ⟨f, List.mem_filter.2 ⟨hf, ?_⟩, hx⟩
  rw [List.isEmpty_iff.1 hc]
  rfl

theorem flatMap_nil {α β : Type} {l : List α} {f : α → List β} (h : ∀ x ∈ l, f x = []) : l.flatMap f = [] := by
  rw [List.flatMap_eq_nil_iff]; exact h

theorem ok_plain {p : Pkg} (h : plain p = true) : ok v p = true := by
  simp only [plain, Bool.and_eq_true, List.all_eq_true, List.isEmpty_iff] at h
  obtain ⟨⟨h0, h1⟩, h2⟩ := h
  have hc : p.chosen v = p.files := List.filter_eq_self.2 fun f hf => by rw [(h1 f hf).1.1.1]; rfl
  have hb : p.files.flatMap File.bare = [] := flatMap_nil fun f hf => (h1 f hf).1.1.2
  have ht : p.files.flatMap File.text = [] := flatMap_nil fun f hf => (h1 f hf).1.2
  have hn : p.names v = p.files.flatMap File.defs := by
    rw [Pkg.names, hc]
    exact flatMap_congr' fun f hf => by rw [(h1 f hf).1.1.2, List.append_nil]
  have e1 : (p.files.flatMap fun f => (f.uses.filter fun u => !((repo.filter fun q => q.dir == u.1).any fun q => (q.names v).contains u.2)).map fun u => Err.undefined f.name u.1 u.2) = [] := by
    refine flatMap_nil fun f hf => ?_
    rw [List.map_eq_nil_iff, List.filter_eq_nil_iff]
    intro u hu
    have h3 := (h1 f hf).2 u hu
    rw [List.any_eq_true] at h3
    obtain ⟨q, hq, h3⟩ := h3
    have h4 : ((repo.filter fun q => q.dir == u.1).any fun q => (q.names v).contains u.2) = true :=
      List.any_eq_true.2 ⟨q, hq, List.contains_iff_mem.2 (fixed_sub q (List.contains_iff_mem.1 h3))⟩
    rw [h4]
    decide
  have e2 : ((p.files.flatMap File.defs).filter fun x => x != n_init && times x (p.files.flatMap File.defs) != 1) = [] := by
    rw [List.filter_eq_nil_iff]
    intro x hx
    have h3 := h2 x hx
    rw [Bool.or_eq_true] at h3
    rcases h3 with h3 | h3
    · rw [bne, h3]; simp
    · rw [bne, bne, h3]; simp
  have he : p.errors v repo n_init = [] := by
    simp only [Pkg.errors, hn, hc, hb, ht, e1, e2, List.filter_nil, List.map_nil, List.append_nil]
  rw [ok, he, hc]
  cases h : p.files
  · rw [h] at h0; cases h0
  · rfl

/-! ### the packages -/

theorem plain_ok : (plain p_dh && plain p_dh_sidh && plain p_dh_sidh_common && plain p_dh_sidh_internal && plain p_hash_sm3 && plain p_kem_mkem && plain p_kem_mkem_cmd) = true := by
  decide +kernel

/-- the names that matter for the field arithmetic -/
def tags3 : List String := ["amd64", "arm64", "noasm"]
/-- the names that matter for AES -/
def tags4 : List String := ["amd64", "arm64", "noasm", "appengine"]
/-- the names that matter for SHA-3 -/
def tags6 : List String := ["amd64", "386", "ppc64le", "noasm", "appengine", "gccgo"]
/-- not both architectures -/
def one3 (l : List Bool) : Bool := !(l.getD 0 false && l.getD 1 false)
/-- the files with the code of some functions -/
def codes (v : String → Bool) (p : Pkg) (l : List Nat) : List (List String) := l.map (p.code v)

theorem codes_congr (h : ∀ x ∈ L, v x = v' x) {p : Pkg} (hp : pkgIn L p = true) (l : List Nat) : codes v p l = codes v' p l :=
  List.map_congr_left fun x _ => by rw [Pkg.code, Pkg.code, chosen_congr h hp]

/-- the file is the code of each -/
def isCode (v : String → Bool) (p : Pkg) (l : List Nat) (f : String) : Bool := codes v p l == l.map fun _ => [f]

/-- A package whose fate depends on a few names: whether it is fine, and where some functions have their code. -/
theorem code_of {p : Pkg} (c : List Bool → Bool) (l : List Nat) (w : List Bool → String) (h : (near L p && (bools L.length).all fun b => !c b || isCode (asg L b) p l (w b)) = true)
    (hc : c (L.map v) = true) {x : Nat} (hx : x ∈ l) : p.code v x = [w (L.map v)] := by
  rw [Bool.and_eq_true, List.all_eq_true] at h
  have h2 := h.2 (L.map v) (by have := mem_bools (L.map v); rwa [List.length_map] at this)
  rw [hc, Bool.not_true, Bool.false_or, isCode] at h2
  have h3 := eq_of_beq h2
  rw [← codes_congr (fun x hx => asg_eq hx) (Bool.and_eq_true _ _ ▸ h.1).1, codes, List.map_inj_left] at h3
  exact h3 x hx

/-- the functions of the field arithmetic -/
def fns434 : List Nat := [n_addP434, n_subP434, n_adlP434, n_sulP434, n_cswapP434, n_modP434, n_mulP434, n_rdcP434]
@[inherit_doc fns434]
def fns503 : List Nat := [n_addP503, n_subP503, n_adlP503, n_sulP503, n_cswapP503, n_modP503, n_mulP503, n_rdcP503]
@[inherit_doc fns434]
def fns751 : List Nat := [n_addP751, n_subP751, n_adlP751, n_sulP751, n_cswapP751, n_modP751, n_mulP751, n_rdcP751]

/-- a table, for all truth values of the names -/
def tab (L : List String) (p : Pkg) (c w : List Bool → Bool) (l : List Nat) (f : List Bool → String) : Bool :=
  near L p && (bools L.length).all fun b => (!c b || (ok (asg L b) p == w b)) && (!(c b && w b) || isCode (asg L b) p l (f b))

theorem tab_ok {p : Pkg} {c w : List Bool → Bool} {l : List Nat} {f : List Bool → String} (h : tab L p c w l f = true) (hc : c (L.map v) = true) :
    ok v p = w (L.map v) := by
  refine ok_of c w ?_ hc
  simp only [tab, Bool.and_eq_true, List.all_eq_true] at h ⊢
  exact ⟨h.1, fun b hb => (h.2 b hb).1⟩

theorem tab_code {p : Pkg} {c w : List Bool → Bool} {l : List Nat} {f : List Bool → String} (h : tab L p c w l f = true) (hc : c (L.map v) = true)
    (hw : w (L.map v) = true) {x : Nat} (hx : x ∈ l) : p.code v x = [f (L.map v)] := by
  refine code_of (fun b => c b && w b) l f ?_ (by rw [hc, hw]; rfl) hx
  simp only [tab, Bool.and_eq_true, List.all_eq_true] at h ⊢
  exact ⟨h.1, fun b hb => (h.2 b hb).2⟩

/-- truth value of a name -/
abbrev nth (l : List Bool) (n : Nat) : Bool := l.getD n false

theorem csidh_tab : tab tags3 p_dh_csidh one3 (fun l => nth l 0 || nth l 1 || nth l 2) [n_mul512, n_mul576, n_cswap512]
    (fun l => if nth l 0 && !nth l 2 then "fp511_amd64.s" else "fp511_generic.go") = true := by decide +kernel
theorem p434_tab : tab tags3 p_dh_sidh_internal_p434 one3 (fun l => !(nth l 0 && nth l 2)) fns434
    (fun l => if nth l 0 then "arith_amd64.s" else "arith_generic.go") = true := by decide +kernel
theorem p503_tab : tab tags3 p_dh_sidh_internal_p503 one3 (fun _ => true) fns503
    (fun l => if nth l 2 then "arith_generic.go" else if nth l 0 then "arith_amd64.s" else if nth l 1 then "arith_arm64.s" else "arith_generic.go") = true := by decide +kernel
theorem p751_tab : tab tags3 p_dh_sidh_internal_p751 one3 (fun _ => true) fns751
    (fun l => if nth l 2 then "arith_generic.go" else if nth l 0 then "arith_amd64.s" else if nth l 1 then "arith_arm64.s" else "arith_generic.go") = true := by decide +kernel
theorem utils_tab : tab tags3 p_utils one3 (fun _ => true) [] (fun _ => "") = true := by decide +kernel
theorem aes_tab : tab tags4 p_drbg_internal_aes one3 (fun l => !nth l 3 && (nth l 0 || nth l 1 || nth l 2)) [n_expandKeyGo, n_encryptBlockGo, n_decryptBlockGo] (fun _ => "generic.go") = true := by
  decide +kernel
theorem drbg_tab : tab tags4 p_drbg one3 (fun l => !nth l 2) [] (fun _ => "") = true := by decide +kernel
theorem sha3_tab : tab tags6 p_hash_sha3 (fun l => !(nth l 0 && nth l 1 || nth l 0 && nth l 2 || nth l 1 && nth l 2)) (fun _ => true) [n_keccakF1600]
    (fun l => if nth l 0 && !nth l 3 && !nth l 4 && !nth l 5 then "keccakf_amd64.s" else "keccakf.go") = true := by decide +kernel

end Lemmas.GoBuild
