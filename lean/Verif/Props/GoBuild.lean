import Verif.Lemmas.GoBuild
import Mathlib.Tactic.Tauto

/-!
# C100: which targets the library can be built for

`Builds c.has repo n_init d`: for the target c the package in directory d has a file, every name its files use is declared, no name is
declared twice, every function declared without body has its code in an assembly file, and the same holds for the packages it imports.
-/
namespace Props.GoBuild
open Model.GoBuild Lemmas.GoBuild

/-- A target of the go command: known GOARCH and GOOS, one of the two compilers, tags given by the user that are not architectures (and
not `ignore`), release tags that begin with `go`. -/
structure Target (c : Ctx) : Prop where
  arch : c.goarch ∈ knownArch
  os : c.goos ∈ knownOS
  compiler : c.compiler = "gc" ∨ c.compiler = "gccgo"
  tags : ∀ t ∈ c.tags, t ∉ knownArch ∧ t ≠ "ignore"
  release : ∀ t ∈ c.release, t.toList.take 2 = ['g', 'o']

/-- the package can be built -/
def Can (c : Ctx) (d : Nat) : Prop := Builds c.has repo n_init d

/-- amd64 or arm64 -/
def Ctx64 (c : Ctx) : Prop := c.goarch = "amd64" ∨ c.goarch = "arm64"

variable {c : Ctx}

theorem has_arch (h : Target c) {x : String} (hx : x ∈ ["amd64", "arm64", "386", "ppc64le"]) : c.has x = decide (c.goarch = x) := by
  have k : x ∈ knownArch := by
    have : ∀ x ∈ ["amd64", "arm64", "386", "ppc64le"], x ∈ knownArch := by decide +kernel
    exact this x hx
  have h1 : (x == "cgo") = false := by
    have : ∀ x ∈ ["amd64", "arm64", "386", "ppc64le"], (x == "cgo") = false := by decide +kernel
    exact this x hx
  have h2 : (x == c.goos) = false := by
    have : ∀ x ∈ ["amd64", "arm64", "386", "ppc64le"], ∀ o ∈ knownOS, (x == o) = false := by decide +kernel
    exact this x hx c.goos h.os
  have h3 : (x == c.compiler) = false := by
    have : ∀ x ∈ ["amd64", "arm64", "386", "ppc64le"], (x == "gc") = false ∧ (x == "gccgo") = false := by decide +kernel
    rcases h.compiler with e | e
    · rw [e]; exact (this x hx).1
    · rw [e]; exact (this x hx).2
  have h4 : (x == "linux") = false := by
    have : ∀ x ∈ ["amd64", "arm64", "386", "ppc64le"], (x == "linux") = false := by decide +kernel
    exact this x hx
  have h5 : c.tags.contains x = false := by
    rw [Bool.eq_false_iff, ne_eq, List.contains_iff_mem]
    exact fun ht => (h.tags x ht).1 k
  have h6 : c.release.contains x = false := by
    rw [Bool.eq_false_iff, ne_eq, List.contains_iff_mem]
    have : ∀ x ∈ ["amd64", "arm64", "386", "ppc64le"], x.toList.take 2 ≠ ['g', 'o'] := by decide +kernel
    exact fun ht => this x hx (h.release x ht)
  rw [Ctx.has, h1, h2, h3, h4, h5, h6]
  by_cases e : c.goarch = x
  · rw [e]; simp
  · have : (x == c.goarch) = false := by rw [beq_eq_false_iff_ne]; exact fun e' => e e'.symm
    rw [this]; simp [e]

theorem has_tag (h : Target c) {x : String} (hx : x ∈ ["noasm", "appengine"]) : c.has x = decide (x ∈ c.tags) := by
  have h1 : (x == "cgo") = false := by
    have : ∀ x ∈ ["noasm", "appengine"], (x == "cgo") = false := by decide +kernel
    exact this x hx
  have h2 : (x == c.goos) = false := by
    have : ∀ x ∈ ["noasm", "appengine"], ∀ o ∈ knownOS, (x == o) = false := by decide +kernel
    exact this x hx c.goos h.os
  have h7 : (x == c.goarch) = false := by
    have : ∀ x ∈ ["noasm", "appengine"], ∀ o ∈ knownArch, (x == o) = false := by decide +kernel
    exact this x hx c.goarch h.arch
  have h3 : (x == c.compiler) = false := by
    have : ∀ x ∈ ["noasm", "appengine"], (x == "gc") = false ∧ (x == "gccgo") = false := by decide +kernel
    rcases h.compiler with e | e
    · rw [e]; exact (this x hx).1
    · rw [e]; exact (this x hx).2
  have h4 : (x == "linux") = false := by
    have : ∀ x ∈ ["noasm", "appengine"], (x == "linux") = false := by decide +kernel
    exact this x hx
  have h6 : c.release.contains x = false := by
    rw [Bool.eq_false_iff, ne_eq, List.contains_iff_mem]
    have : ∀ x ∈ ["noasm", "appengine"], x.toList.take 2 ≠ ['g', 'o'] := by decide +kernel
    exact fun ht => this x hx (h.release x ht)
  rw [Ctx.has, h1, h2, h3, h4, h6, h7]
  simp

theorem one_arch (h : Target c) {x y : String} (hx : x ∈ ["amd64", "arm64", "386", "ppc64le"]) (hy : y ∈ ["amd64", "arm64", "386", "ppc64le"]) (hxy : x ≠ y) :
    (c.has x && c.has y) = false := by
  rw [has_arch h hx, has_arch h hy]
  by_cases e : c.goarch = x
  · rw [e]; simp [hxy]
  · simp [e]

theorem one3_ok (h : Target c) : one3 (tags3.map c.has) = true := by
  have := one_arch h (x := "amd64") (y := "arm64") (by simp) (by simp) (by decide)
  change (!(c.has "amd64" && c.has "arm64")) = true
  rw [this]; rfl

theorem one4_ok (h : Target c) : one3 (tags4.map c.has) = true := one3_ok h

theorem plains : plain p_dh = true ∧ plain p_dh_sidh = true ∧ plain p_dh_sidh_common = true ∧ plain p_dh_sidh_internal = true ∧ plain p_hash_sm3 = true ∧
    plain p_kem_mkem = true ∧ plain p_kem_mkem_cmd = true := by
  have := plain_ok
  simp only [Bool.and_eq_true] at this
  obtain ⟨⟨⟨⟨⟨⟨h1, h2⟩, h3⟩, h4⟩, h5⟩, h6⟩, h7⟩ := this
  exact ⟨h1, h2, h3, h4, h5, h6, h7⟩

/-- no imports -/
theorem leaf {p : Pkg} (hp : p ∈ repo) (h : ok c.has p = true) (hi : (p.files.all fun f => f.imports.isEmpty) = true) : Can c p.dir := by
  refine builds_of hp h fun f hf d hd => ?_
  rw [List.all_eq_true] at hi
  rw [List.isEmpty_iff.1 (hi f hf)] at hd
  cases hd

/-- all imports can be built -/
theorem node {p : Pkg} (hp : p ∈ repo) (h : ok c.has p = true) (l : List Nat) (hi : (p.files.all fun f => f.imports.all fun d => l.contains d) = true)
    (hl : ∀ d ∈ l, Can c d) : Can c p.dir := by
  refine builds_of hp h fun f hf d hd => hl d ?_
  rw [List.all_eq_true] at hi
  have := hi f hf
  rw [List.all_eq_true] at this
  exact List.contains_iff_mem.1 (this d hd)

theorem can_common : Can c d_dh_sidh_common := leaf (p := p_dh_sidh_common) (by simp [repo]) (ok_plain plains.2.2.1) (by decide)
theorem can_dh : Can c d_dh := leaf (p := p_dh) (by simp [repo]) (ok_plain plains.1) (by decide)
theorem can_internal : Can c d_dh_sidh_internal := leaf (p := p_dh_sidh_internal) (by simp [repo]) (ok_plain plains.2.2.2.1) (by decide)
theorem can_sm3 : Can c d_hash_sm3 := leaf (p := p_hash_sm3) (by simp [repo]) (ok_plain plains.2.2.2.2.1) (by decide)
theorem can_utils (h : Target c) : Can c d_utils := leaf (p := p_utils) (by simp [repo]) (tab_ok utils_tab (one3_ok h)) (by decide)
theorem can_sha3 (h : Target c) : Can c d_hash_sha3 := by
  refine leaf (p := p_hash_sha3) (by simp [repo]) (tab_ok sha3_tab ?_) (by decide)
  have h1 := one_arch h (x := "amd64") (y := "386") (by simp) (by simp) (by decide)
  have h2 := one_arch h (x := "amd64") (y := "ppc64le") (by simp) (by simp) (by decide)
  have h3 := one_arch h (x := "386") (y := "ppc64le") (by simp) (by simp) (by decide)
  change (!(c.has "amd64" && c.has "386" || c.has "amd64" && c.has "ppc64le" || c.has "386" && c.has "ppc64le")) = true
  rw [h1, h2, h3]; rfl
theorem can_p503 (h : Target c) : Can c d_dh_sidh_internal_p503 :=
  node (p := p_dh_sidh_internal_p503) (by simp [repo]) (tab_ok p503_tab (one3_ok h)) [d_dh_sidh_common] (by decide) (by simp [can_common])
theorem can_p751 (h : Target c) : Can c d_dh_sidh_internal_p751 :=
  node (p := p_dh_sidh_internal_p751) (by simp [repo]) (tab_ok p751_tab (one3_ok h)) [d_dh_sidh_common] (by decide) (by simp [can_common])

theorem ok_of_can {p : Pkg} (hp : p ∈ repo) (h : Can c p.dir) : ok c.has p = true := ((builds_iff hp).1 h).1

/-- the package imports the other in a file that is in every build -/
theorem can_import {p : Pkg} (hp : p ∈ repo) (h : Can c p.dir) {d : Nat} (hd : (p.files.any fun f => f.constraint.isEmpty && f.imports.contains d) = true) : Can c d := by
  rw [List.any_eq_true] at hd
  obtain ⟨f, hf, h2⟩ := hd
  rw [Bool.and_eq_true] at h2
  exact builds_import hp h hf (List.isEmpty_iff.1 h2.1) (List.contains_iff_mem.1 h2.2)

theorem can_csidh (h : Target c) : Can c d_dh_csidh ↔ Ctx64 c ∨ "noasm" ∈ c.tags := by
  have e : ok c.has p_dh_csidh = (c.has "amd64" || c.has "arm64" || c.has "noasm") := tab_ok csidh_tab (one3_ok h)
  rw [has_arch h (by simp), has_arch h (by simp), has_tag h (by simp)] at e
  have k : ok c.has p_dh_csidh = true ↔ Ctx64 c ∨ "noasm" ∈ c.tags := by rw [e, Ctx64]; simp
  rw [← k]
  exact ⟨ok_of_can (p := p_dh_csidh) (by simp [repo]), fun h1 => leaf (p := p_dh_csidh) (by simp [repo]) h1 (by decide)⟩

theorem can_p434 (h : Target c) : Can c d_dh_sidh_internal_p434 ↔ ¬ (c.goarch = "amd64" ∧ "noasm" ∈ c.tags) := by
  have e : ok c.has p_dh_sidh_internal_p434 = !(c.has "amd64" && c.has "noasm") := tab_ok p434_tab (one3_ok h)
  rw [has_arch h (by simp), has_tag h (by simp)] at e
  have k : ok c.has p_dh_sidh_internal_p434 = true ↔ ¬ (c.goarch = "amd64" ∧ "noasm" ∈ c.tags) := by rw [e]; simp; tauto
  rw [← k]
  exact ⟨ok_of_can (p := p_dh_sidh_internal_p434) (by simp [repo]), fun h1 =>
    node (p := p_dh_sidh_internal_p434) (by simp [repo]) h1 [d_dh_sidh_common] (by decide) (by simp [can_common])⟩

theorem can_sidh (h : Target c) : Can c d_dh_sidh ↔ ¬ (c.goarch = "amd64" ∧ "noasm" ∈ c.tags) := by
  rw [← can_p434 h]
  refine ⟨fun h1 => can_import (p := p_dh_sidh) (by simp [repo]) h1 (by decide +kernel), fun h1 =>
    node (p := p_dh_sidh) (by simp [repo]) (ok_plain plains.2.1) [d_dh_sidh_common, d_hash_sha3, d_dh_sidh_internal_p434, d_dh_sidh_internal_p503, d_dh_sidh_internal_p751] (by decide) ?_⟩
  simp [can_common, can_sha3 h, can_p503 h, can_p751 h, h1]

theorem can_aes (h : Target c) : Can c d_drbg_internal_aes ↔ "appengine" ∉ c.tags ∧ (Ctx64 c ∨ "noasm" ∈ c.tags) := by
  have e : ok c.has p_drbg_internal_aes = (!c.has "appengine" && (c.has "amd64" || c.has "arm64" || c.has "noasm")) := tab_ok aes_tab (one4_ok h)
  rw [has_arch h (x := "amd64") (by simp), has_arch h (x := "arm64") (by simp), has_tag h (x := "noasm") (by simp), has_tag h (x := "appengine") (by simp)] at e
  have k : ok c.has p_drbg_internal_aes = true ↔ "appengine" ∉ c.tags ∧ (Ctx64 c ∨ "noasm" ∈ c.tags) := by rw [e, Ctx64]; simp
  rw [← k]
  exact ⟨ok_of_can (p := p_drbg_internal_aes) (by simp [repo]), fun h1 =>
    node (p := p_drbg_internal_aes) (by simp [repo]) h1 [d_utils] (by decide) (by simp [can_utils h])⟩

theorem can_drbg (h : Target c) : Can c d_drbg ↔ "appengine" ∉ c.tags ∧ "noasm" ∉ c.tags ∧ Ctx64 c := by
  have e : ok c.has p_drbg = !c.has "noasm" := tab_ok drbg_tab (one4_ok h)
  rw [has_tag h (by simp)] at e
  have k : ok c.has p_drbg = true ↔ "noasm" ∉ c.tags := by rw [e]; simp
  constructor
  · intro h1
    have h2 := (can_aes h).1 (can_import (p := p_drbg) (by simp [repo]) h1 (by decide +kernel))
    have h3 := k.1 (ok_of_can (p := p_drbg) (by simp [repo]) h1)
    exact ⟨h2.1, h3, h2.2.resolve_right h3⟩
  · rintro ⟨h1, h2, h3⟩
    refine node (p := p_drbg) (by simp [repo]) (k.2 h2) [d_drbg_internal_aes, d_utils] (by decide) ?_
    simp [can_utils h, (can_aes h).2 ⟨h1, .inl h3⟩]

theorem sidh_of_drbg (h : Target c) (hd : Can c d_drbg) : Can c d_dh_sidh ∧ Can c d_dh_csidh := by
  obtain ⟨_, h2, h3⟩ := (can_drbg h).1 hd
  exact ⟨(can_sidh h).2 fun h4 => h2 h4.2, (can_csidh h).2 (.inl h3)⟩

theorem can_mkem (h : Target c) : Can c d_kem_mkem ↔ "appengine" ∉ c.tags ∧ "noasm" ∉ c.tags ∧ Ctx64 c := by
  rw [← can_drbg h]
  refine ⟨fun h1 => can_import (p := p_kem_mkem) (by simp [repo]) h1 (by decide +kernel), fun h1 =>
    node (p := p_kem_mkem) (by simp [repo]) (ok_plain plains.2.2.2.2.2.1) [d_dh_sidh_common, d_hash_sha3, d_dh_sidh, d_dh_csidh, d_drbg] (by decide) ?_⟩
  obtain ⟨h2, h3⟩ := sidh_of_drbg h h1
  simp [can_common, can_sha3 h, h1, h2, h3]

/-! ### the property -/

/-- For which targets each package can be built. -/
theorem c100_exact (h : Target c) :
    (∀ d ∈ [d_hash_sha3, d_hash_sm3, d_utils, d_dh, d_dh_sidh_common, d_dh_sidh_internal_p503, d_dh_sidh_internal_p751], Can c d) ∧
    (Can c d_dh_csidh ↔ Ctx64 c ∨ "noasm" ∈ c.tags) ∧
    (Can c d_dh_sidh ↔ ¬ (c.goarch = "amd64" ∧ "noasm" ∈ c.tags)) ∧
    (Can c d_drbg ↔ "appengine" ∉ c.tags ∧ "noasm" ∉ c.tags ∧ Ctx64 c) ∧
    (Can c d_kem_mkem ↔ "appengine" ∉ c.tags ∧ "noasm" ∉ c.tags ∧ Ctx64 c) := by
  refine ⟨?_, can_csidh h, can_sidh h, can_drbg h, can_mkem h⟩
  simp [can_sha3 h, can_sm3, can_utils h, can_dh, can_common, can_p503 h, can_p751 h]

/-- On amd64 and arm64, without the tags noasm and appengine, everything can be built. -/
theorem c100_partial (h : Target c) (h64 : Ctx64 c) (h1 : "noasm" ∉ c.tags) (h2 : "appengine" ∉ c.tags) :
    ∀ d ∈ [d_hash_sha3, d_hash_sm3, d_utils, d_dh_csidh, d_dh_sidh, d_drbg, d_kem_mkem], Can c d := by
  simp [can_sha3 h, can_sm3, can_utils h, (can_csidh h).2 (.inl h64), (can_sidh h).2 fun h => h1 h.2, (can_drbg h).2 ⟨h2, h1, h64⟩, (can_mkem h).2 ⟨h2, h1, h64⟩]

/-- linux/amd64 with the tag noasm -/
def amd64noasm : Ctx := ⟨"linux", "amd64", "gc", true, ["noasm"], ["go1.1", "go1.12"]⟩
/-- linux/386 -/
def linux386 (tags : List String) : Ctx := ⟨"linux", "386", "gc", true, tags, ["go1.1", "go1.12"]⟩
/-- linux/amd64 -/
def linuxAmd64 : Ctx := ⟨"linux", "amd64", "gc", true, [], ["go1.1", "go1.12"]⟩

theorem target_noasm : Target amd64noasm := ⟨by decide, by decide, by decide, by decide, by decide⟩
theorem target_386 : Target (linux386 []) ∧ Target (linux386 ["noasm"]) := ⟨⟨by decide, by decide, by decide, by decide, by decide⟩, ⟨by decide, by decide, by decide, by decide, by decide⟩⟩

/-- Not on all targets: with noasm on amd64 neither SIDH nor the random generator can be built, on 386 the random generator and mKEM
cannot be built at all, with or without noasm. -/
theorem c100_false : ¬ Can amd64noasm d_dh_sidh ∧ ¬ Can amd64noasm d_drbg ∧ ¬ Can (linux386 []) d_dh_csidh ∧
    ¬ Can (linux386 []) d_drbg ∧ ¬ Can (linux386 ["noasm"]) d_drbg ∧ ¬ Can (linux386 []) d_kem_mkem ∧ ¬ Can (linux386 ["noasm"]) d_kem_mkem := by
  rw [can_sidh target_noasm, can_drbg target_noasm, can_csidh target_386.1, can_drbg target_386.1, can_drbg target_386.2, can_mkem target_386.1, can_mkem target_386.2]
  unfold Ctx64
  decide

/-- Where the code of the SIDH field routines, of the CSIDH multiplications and of Keccak is, in each build. -/
theorem c100_code (h : Target c) :
    (∀ r ∈ fns434, Can c d_dh_sidh_internal_p434 → p_dh_sidh_internal_p434.code c.has r = [if c.goarch = "amd64" then "arith_amd64.s" else "arith_generic.go"]) ∧
    (∀ r ∈ fns503, p_dh_sidh_internal_p503.code c.has r =
      [if "noasm" ∈ c.tags then "arith_generic.go" else if c.goarch = "amd64" then "arith_amd64.s" else if c.goarch = "arm64" then "arith_arm64.s" else "arith_generic.go"]) ∧
    (∀ r ∈ fns751, p_dh_sidh_internal_p751.code c.has r =
      [if "noasm" ∈ c.tags then "arith_generic.go" else if c.goarch = "amd64" then "arith_amd64.s" else if c.goarch = "arm64" then "arith_arm64.s" else "arith_generic.go"]) ∧
    (∀ r ∈ [n_mul512, n_mul576, n_cswap512], Can c d_dh_csidh → p_dh_csidh.code c.has r =
      [if c.goarch = "amd64" ∧ "noasm" ∉ c.tags then "fp511_amd64.s" else "fp511_generic.go"]) ∧
    (c.compiler = "gc" → "gccgo" ∉ c.tags → p_hash_sha3.code c.has n_keccakF1600 =
      [if c.goarch = "amd64" ∧ "noasm" ∉ c.tags ∧ "appengine" ∉ c.tags then "keccakf_amd64.s" else "keccakf.go"]) := by
  have a : c.has "amd64" = decide (c.goarch = "amd64") := has_arch h (by simp)
  have b : c.has "arm64" = decide (c.goarch = "arm64") := has_arch h (by simp)
  have n : c.has "noasm" = decide ("noasm" ∈ c.tags) := has_tag h (by simp)
  have m : c.has "appengine" = decide ("appengine" ∈ c.tags) := has_tag h (by simp)
  refine ⟨fun r hr hc => ?_, fun r hr => ?_, fun r hr => ?_, fun r hr hc => ?_, fun h1 h2 => ?_⟩
  · have hw : (!(c.has "amd64" && c.has "noasm")) = true := by
      have := (can_p434 h).1 hc
      rw [a, n, Bool.not_eq_true', Bool.eq_false_iff]; simpa using this
    rw [tab_code p434_tab (one3_ok h) hw hr]
    change [if c.has "amd64" = true then _ else _] = _
    rw [a]; simp
  · rw [tab_code p503_tab (one3_ok h) rfl hr]
    change [if c.has "noasm" = true then _ else if c.has "amd64" = true then _ else if c.has "arm64" = true then _ else _] = _
    rw [a, b, n]; simp
  · rw [tab_code p751_tab (one3_ok h) rfl hr]
    change [if c.has "noasm" = true then _ else if c.has "amd64" = true then _ else if c.has "arm64" = true then _ else _] = _
    rw [a, b, n]; simp
  · have hw : (c.has "amd64" || c.has "arm64" || c.has "noasm") = true := by
      have := (can_csidh h).1 hc
      rw [a, b, n]; simpa [Ctx64] using this
    rw [tab_code csidh_tab (one3_ok h) hw hr]
    change [if (c.has "amd64" && !c.has "noasm") = true then _ else _] = _
    rw [a, n]; simp
  · have g : c.has "gccgo" = false := by
      have e2 : ("gccgo" == c.goos) = false := by
        have : ∀ o ∈ knownOS, ("gccgo" == o) = false := by decide +kernel
        exact this _ h.os
      have e7 : ("gccgo" == c.goarch) = false := by
        have : ∀ o ∈ knownArch, ("gccgo" == o) = false := by decide +kernel
        exact this _ h.arch
      have e5 : c.tags.contains "gccgo" = false := by rw [Bool.eq_false_iff, ne_eq, List.contains_iff_mem]; exact h2
      have e6 : c.release.contains "gccgo" = false := by
        rw [Bool.eq_false_iff, ne_eq, List.contains_iff_mem]
        exact fun ht => absurd (h.release _ ht) (by decide)
      rw [Ctx.has, e2, e7, e5, e6, h1]
      simp
    have h3 := one_arch h (x := "amd64") (y := "386") (by simp) (by simp) (by decide)
    have h4 := one_arch h (x := "amd64") (y := "ppc64le") (by simp) (by simp) (by decide)
    have h5 := one_arch h (x := "386") (y := "ppc64le") (by simp) (by simp) (by decide)
    have hc : (!(c.has "amd64" && c.has "386" || c.has "amd64" && c.has "ppc64le" || c.has "386" && c.has "ppc64le")) = true := by rw [h3, h4, h5]; rfl
    rw [tab_code (v := c.has) sha3_tab hc rfl (List.mem_singleton.2 rfl)]
    change [if (c.has "amd64" && !c.has "noasm" && !c.has "appengine" && !c.has "gccgo") = true then _ else _] = _
    rw [a, n, m, g]; simp [and_assoc]

example : Target linuxAmd64 ∧ Ctx64 linuxAmd64 ∧ "noasm" ∉ linuxAmd64.tags ∧ "appengine" ∉ linuxAmd64.tags :=
  ⟨⟨by decide, by decide, by decide, by decide, by decide⟩, .inl rfl, by decide, by decide⟩

end Props.GoBuild
