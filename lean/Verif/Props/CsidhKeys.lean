import Verif.Lemmas.CsidhAction
import Mathlib.Algebra.Field.ZMod
/-
C67, C68, C70, C71, C72: keys, random numbers, bookkeeping of the group action and shared secrets of dh/csidh.
-/
namespace Props.CsidhKeys
open Model Model.Limb Model.Csidh Spec Spec.Csidh Lemmas.CsidhField Lemmas.CsidhArith Lemmas.CsidhNat Lemmas.Limb Lemmas.CsidhKeys Lemmas.CsidhAction

/-! ### C70 -/

/-- C70. A random field element is the first candidate of the random stream below p, and the stream is used up to the
end of that candidate. -/
theorem c70_first (rng : List Byte) (v : Fp) (rest : List Byte) : randFp rng = some (v, rest) ↔
    ∃ k, 64 * (k + 1) ≤ rng.length ∧ Spec.Csidh.candidate rng k < Spec.Csidh.p ∧ (∀ j < k, Spec.Csidh.p ≤ Spec.Csidh.candidate rng j) ∧
      v.length = 8 ∧ val v = Spec.Csidh.candidate rng k ∧ rest = rng.drop (64 * (k + 1)) := randFp_some rng v rest

/-- C70. It panics exactly if the stream ends before a candidate below p. -/
theorem c70_panic (rng : List Byte) : randFp rng = none ↔ ∀ k, 64 * (k + 1) ≤ rng.length → Spec.Csidh.p ≤ Spec.Csidh.candidate rng k := by
  constructor
  · intro h
    by_contra hc
    push Not at hc
    have hc' : ∃ k, 64 * (k + 1) ≤ rng.length ∧ Spec.Csidh.candidate rng k < Spec.Csidh.p := hc
    classical
    have h1 := Nat.find_spec hc'
    obtain ⟨a, ha⟩ : ∃ v : Fp, v.length = 8 ∧ val v = Spec.Csidh.candidate rng (Nat.find hc') := by
      obtain ⟨l1, l2⟩ := candidate_val ((rng.drop (64 * Nat.find hc')).take 64) (by rw [List.length_take, List.length_drop]; omega)
      exact ⟨_, l1, l2⟩
    have := (c70_first rng a (rng.drop (64 * (Nat.find hc' + 1)))).mpr ⟨Nat.find hc', h1.1, h1.2, fun j hj => by
      have := Nat.find_min hc' hj
      by_contra hlt
      exact this ⟨by omega, by omega⟩, ha.1, ha.2, rfl⟩
    rw [h] at this
    cases this
  · intro h
    match hr : randFp rng with
    | none => rfl
    | some (v, rest) =>
      obtain ⟨k, k1, k2, _⟩ := (c70_first rng v rest).mp hr
      have := h k k1
      omega

/-- Two blocks: the first is not below p. -/
example : randFp (List.replicate 64 0xff ++ List.replicate 64 0) = some (List.replicate 8 0, []) :=
  (c70_first _ _ _).mpr ⟨1, by simp, by decide +kernel, by decide +kernel, rfl, by decide +kernel, by decide +kernel⟩

/-! ### C67 -/

/-- C67. If `GeneratePrivateKey` returns no error, the 74 exponents in the key are the first 74 bytes of the random stream
which, as signed numbers, lie in [-5,5]; the stream is read in blocks of 64 bytes and no more of them than needed. -/
theorem c67_generate (rng : List Byte) (k : PrivateKey) (rest : List Byte) (h : generatePrivateKey rng = (k, rest, true)) :
    k.e.length = 37 ∧ ∃ b, 64 * b ≤ rng.length ∧ 74 ≤ ((rng.take (64 * b)).filter small).length ∧
      (∀ c < b, ((rng.take (64 * c)).filter small).length < 74) ∧ rest = rng.drop (64 * b) ∧
      ∀ i < 74, ∃ x, ((rng.take (64 * b)).filter small)[i]? = some x ∧ nibble k.e i = x.toInt := by
  rw [generatePrivateKey] at h
  obtain ⟨b, b1, b2, b3, b4, b5⟩ := (genLoop_spec [] 0 _ rng [] rfl pack_nil.symm (by simp) k rest).mp h
  simp only [List.nil_append] at b2 b3 b4
  refine ⟨by rw [b4]; exact pack_len _, b, b1, b2, b3, b5, ?_⟩
  intro i hi
  obtain ⟨x, hx⟩ : ∃ x, ((rng.take (64 * b)).filter small)[i]? = some x := ⟨_, List.getElem?_eq_getElem (by omega)⟩
  refine ⟨x, hx, ?_⟩
  rw [b4]
  refine nibble_pack _ i x hi ?_ (List.mem_filter.mp (List.mem_of_getElem? hx)).2
  rw [List.getElem?_take, if_pos hi, hx]

/-- C67. It returns no error exactly if some number of complete blocks of the stream has 74 such bytes. -/
theorem c67_error (rng : List Byte) : (generatePrivateKey rng).2.2 = true ↔ ∃ b, 64 * b ≤ rng.length ∧ 74 ≤ ((rng.take (64 * b)).filter small).length := by
  have hs := genLoop_spec [] 0 (List.replicate 37 0) rng [] rfl pack_nil.symm (by simp)
  simp only [List.nil_append] at hs
  constructor
  · intro h
    obtain ⟨b, b1, b2, _⟩ := (hs (generatePrivateKey rng).1 (generatePrivateKey rng).2.1).mp (by rw [← h]; rfl)
    exact ⟨b, b1, b2⟩
  · intro h
    classical
    have h1 := Nat.find_spec h
    have := (hs _ _).mpr ⟨Nat.find h, h1.1, h1.2, fun c hc => by
      have := Nat.find_min h hc
      by_contra hlt
      exact this ⟨by omega, by omega⟩, rfl, rfl⟩
    rw [generatePrivateKey, this]

theorem small_iff (b : Byte) : small b = true ↔ -5 ≤ b.toInt ∧ b.toInt ≤ 5 := by rw [small, decide_eq_true_iff]

/-- C67. The exponents the group action takes from a generated key lie in [-5,5]. -/
theorem c67_range (rng : List Byte) (k : PrivateKey) (rest : List Byte) (h : generatePrivateKey rng = (k, rest, true)) (i : Nat) (hi : i < 74) :
    -5 ≤ exponent k.e i ∧ exponent k.e i ≤ 5 := by
  obtain ⟨_, b, _, _, _, _, hn⟩ := c67_generate rng k rest h
  rw [exponent]
  obtain ⟨x, x1, x2⟩ := hn (if i % 2 = 0 then i + 1 else i - 1) (by split <;> omega)
  rw [x2]
  exact (small_iff x).mp (List.mem_filter.mp (List.mem_of_getElem? x1)).2

/-- C67. `Export` writes a key to a buffer of at least 37 bytes, and `Import` of those bytes into any key restores it. -/
theorem c67_roundtrip (k c : PrivateKey) (hk : k.e.length = 37) (hc : c.e.length = 37) (out : List Byte) (ho : 37 ≤ out.length) :
    ∃ out', k.exportKey out = (out', true) ∧ out'.length = out.length ∧ out'.drop 37 = out.drop 37 ∧ c.importKey (out'.take 37) = some (k, true) := by
  refine ⟨k.e ++ out.drop 37, ?_, by simp; omega, ?_, ?_⟩
  · rw [PrivateKey.exportKey, hk, if_neg (by omega)]
  · rw [List.drop_left' hk]
  · rw [List.take_left' hk, PrivateKey.importKey, hk, hc, if_neg (by omega), if_neg (by omega)]

/-- C67. A string that is too short is refused and the key stays as it was. -/
theorem c67_short (c : PrivateKey) (hc : c.e.length = 37) (key : List Byte) (h : key.length < 37) :
    c.importKey key = some (c, false) ∧ ∀ out : List Byte, out.length < 37 → c.exportKey out = (out, false) := by
  refine ⟨by rw [PrivateKey.importKey, hc, if_pos h], fun out ho => by rw [PrivateKey.exportKey, hc, if_pos ho]⟩

/-- C67. A string that is too long makes `Import` panic. -/
theorem c67_long_panics (c : PrivateKey) (hc : c.e.length = 37) (key : List Byte) (h : 37 < key.length) : c.importKey key = none := by
  rw [PrivateKey.importKey, hc, if_neg (by omega), if_pos h]

/-- A stream of two blocks that gives a key; one block does not suffice. -/
example : (generatePrivateKey (List.replicate 128 0xfb)).2.2 = true ∧ (generatePrivateKey (List.replicate 100 0xfb)).2.2 = false := by
  constructor
  · exact (c67_error _).mpr ⟨2, by simp, by decide +kernel⟩
  · rw [Bool.eq_false_iff, Ne, c67_error]
    rintro ⟨b, b1, b2⟩
    simp only [List.length_replicate] at b1
    have : b ≤ 1 := by omega
    have h2 := (List.length_filter_le small (List.take (64 * b) (List.replicate 100 (0xfb : Byte))))
    rw [List.length_take] at h2
    omega

example : PrivateKey.zero.e.length = 37 := rfl

/-! ### C68 -/

/-- C68. `Import` accepts exactly the strings of 64 bytes; others leave the key as it was. -/
theorem c68_import_iff (c : PublicKey) (key : List Byte) : ((c.importKey key).2 = true ↔ key.length = 64) ∧ (key.length ≠ 64 → c.importKey key = (c, false)) := by
  rw [PublicKey.importKey]
  constructor
  · split <;> simp_all
  · intro h; rw [if_pos h]

/-- C68. After `Import` into a new key, `Export` gives the same bytes, and the key holds the number they denote. -/
theorem c68_roundtrip (key out : List Byte) (h : key.length = 64) (ho : out.length = 64) :
    ∃ k, PublicKey.zero.importKey key = (k, true) ∧ k.a.length = 8 ∧ val k.a = bval key ∧ k.exportKey out = (key, true) := by
  obtain ⟨h1, h2⟩ := import_val key h
  refine ⟨⟨orBytes key 0 fp0⟩, ?_, h1, h2, ?_⟩
  · rw [PublicKey.importKey, if_neg (by omega)]; rfl
  · rw [PublicKey.exportKey, if_neg (by omega), fpBytes_eq, h2]
    have := Lemmas.SidhBytes.leBytes_bval key
    rw [h] at this
    rw [this]

/-- C68. `Import` into a key that has been used before gives the bitwise or of the old and the new number: here 3, though
the bytes denote 2. -/
theorem c68_reused : ∃ (k : PublicKey) (key : List Byte), (PublicKey.zero.importKey (1 :: List.replicate 63 0)) = (k, true) ∧ key.length = 64 ∧
    ∃ k', k.importKey key = (k', true) ∧ bval key = 2 ∧ val k'.a = 3 :=
  ⟨_, 2 :: List.replicate 63 0, rfl, rfl, _, rfl, by decide +kernel, by decide +kernel⟩

/-- C68. `Validate` and `DeriveSecret` refuse every number that is not below p, and 2 and -2, without reading the random
source or touching the buffer. -/
theorem c68_rejects (pub : PublicKey) (hl : pub.a.length = 8) (h : Spec.Csidh.p ≤ val pub.a ∨ IsElt pub.a 2 ∨ IsElt pub.a (-2)) (prv : PrivateKey) (out rng : List Byte) :
    validate pub rng = some (false, rng) ∧ deriveSecret out pub prv rng = some (out, false, rng) := by
  have hv : validate pub rng = some (false, rng) := by
    rw [validate]
    by_cases hlt : isLess pub.a Model.Csidh.p = true
    · rw [if_neg (by simp [hlt])]
      rw [if_pos]
      have hlt' := (isLess_spec _ _ (by rw [hl]; rfl)).mp hlt
      rw [p_val] at hlt'
      rcases h with h | h | h
      · omega
      · rw [Bool.or_eq_true]; exact Or.inl ((equal_elt h two_elt).mpr rfl)
      · rw [Bool.or_eq_true]; exact Or.inr ((equal_elt h twoNeg_elt).mpr rfl)
    · rw [if_pos (by simpa using hlt)]
  refine ⟨hv, ?_⟩
  rw [deriveSecret, hv]

/-- The constant 2, and p itself. -/
example : IsElt (⟨two⟩ : PublicKey).a 2 ∧ Spec.Csidh.p ≤ val (⟨Model.Csidh.p⟩ : PublicKey).a := ⟨two_elt, by rw [p_val]⟩

/-! ### C71 -/

/-- C71. When the group action ends, it has evaluated for every prime exactly as many isogenies of that degree, in the
direction of positive exponents and in the direction of negative exponents, as the private key says, and no others. -/
theorem c71_counts (a : Fp) (prv : PrivateKey) (rng : List Byte) (s : RoundSt) (rest : List Byte) (h : groupActionLog a prv rng = some (s, rest)) :
    groupAction a prv rng = some (s.A, rest) ∧
    (∀ (i l : Nat), ell[i]? = some l →
      (s.log.filter fun ev => decide (ev.degree.toNat = l ∧ ev.sign = false)).length = (exponent prv.e i).toNat ∧
      (s.log.filter fun ev => decide (ev.degree.toNat = l ∧ ev.sign = true)).length = (-exponent prv.e i).toNat) ∧
    ∀ ev ∈ s.log, ev.degree.toNat ∈ ell := by
  obtain ⟨h1, h2, h3, _, h5⟩ := groupActionLog_spec prv h
  have hpe : primes.map BitVec.toNat = ell := by decide +kernel
  refine ⟨by rw [groupAction, h]; rfl, ?_, ?_⟩
  · intro i l hl
    have hi : i < 74 := by
      have := (List.getElem?_eq_some_iff.mp hl).1
      rw [← hpe, List.length_map, primes_len] at this
      exact this
    have hw : (word primes i).toNat = l := by
      rw [← hpe, List.getElem?_map, List.getElem?_eq_getElem (by rw [primes_len]; exact hi)] at hl
      rw [word_primes hi]; exact Option.some.inj hl
    have e : ∀ sg, (s.log.filter fun ev => decide (ev.degree.toNat = l ∧ ev.sign = sg)).length = cnt s.log (word primes i) sg := by
      intro sg
      rw [cnt]
      congr 2
      funext ev
      congr 1
      rw [← hw]
      refine propext ⟨fun ⟨x, y⟩ => ⟨BitVec.eq_of_toNat_eq x, y⟩, fun ⟨x, y⟩ => ⟨by rw [x], y⟩⟩
    constructor
    · rw [e]
      have := h1.h0.sum i hi
      rw [h1.d0 h2 i hi] at this
      simpa [target] using this
    · rw [e]
      have := h1.h1.sum i hi
      rw [h1.d1 h3 i hi] at this
      simpa [target] using this
  · intro ev hev
    obtain ⟨⟨j, hj, hd⟩, _⟩ := h5 ev hev
    rw [← hpe, hd, word_primes hj]
    exact List.mem_map_of_mem (List.getElem_mem _)

/-- C71. The direction of an isogeny is that of the point drawn at the start of its round: positive if the right hand side
of the curve equation at the random number is a square other than 0.  No isogeny has the point at infinity for its
kernel point. -/
theorem c71_direction (a : Fp) (prv : PrivateKey) (rng : List Byte) (s : RoundSt) (rest : List Byte) (h : groupActionLog a prv rng = some (s, rest))
    (ha : ∃ α, IsElt a α) (ev : Event) (hev : ev ∈ s.log) :
    ∃ A x X Z, IsElt ev.start A ∧ IsElt ev.x x ∧ IsElt ev.kern.x X ∧ IsElt ev.kern.z Z ∧ Z ≠ 0 ∧
      (ev.sign = false ↔ x ^ 3 + A * x ^ 2 + x ≠ 0 ∧ IsSquare (x ^ 3 + A * x ^ 2 + x)) := by
  obtain ⟨_, _, _, h4, h5⟩ := groupActionLog_spec prv h
  obtain ⟨⟨A, hA⟩, ⟨x, hx⟩, _, K, hK⟩ := (h4 ha).log ev hev
  obtain ⟨_, hz, hs⟩ := h5 ev hev
  refine ⟨A, x, K.x, K.z, hA, hx, hK.x, hK.z, ?_, ?_⟩
  · intro h0
    have := (isZero_elt hK.z).mpr h0
    rw [this] at hz
    cases hz
  · have hm : IsElt (montEval limbOps ev.start ev.x) _ := montEval_rel limb_rel hA hx
    have he : montEval (fieldOps (ZMod Spec.Csidh.p)) A x = x ^ 3 + A * x ^ 2 + x := by
      show (x * x + A * x + 1) * x = _
      ring
    rw [he] at hm
    rw [hs, isNonQuadRes_elt hm]
    split <;> simp_all

/-! ### C72 -/

/-- C72. `DeriveSecret` answers false exactly if `Validate` does, and then leaves the buffer untouched.  If it answers true
the buffer holds a number below p in 64 bytes: the coefficient computed by the group action. -/
theorem c72_derive (out : List Byte) (ho : out.length = 64) (pub : PublicKey) (hl : pub.a.length = 8) (prv : PrivateKey) (rng : List Byte) :
    (∀ out' rest, deriveSecret out pub prv rng = some (out', false, rest) ↔ validate pub rng = some (false, rest) ∧ out' = out) ∧
    (∀ out' rest, deriveSecret out pub prv rng = some (out', true, rest) → out'.length = 64 ∧ bval out' < Spec.Csidh.p ∧
      ∃ r a, validate pub rng = some (true, r) ∧ groupAction pub.a prv r = some (a, rest) ∧ out' = leBytes 64 (val a)) := by
  constructor
  · intro out' rest
    rw [deriveSecret]
    match hv : validate pub rng with
    | none => simp
    | some (false, r) =>
      simp only [Option.some.injEq, Prod.mk.injEq, true_and]
      exact ⟨fun h => ⟨h.2, h.1.symm⟩, fun h => ⟨h.2.symm, h.1⟩⟩
    | some (true, r) =>
      simp only
      match groupAction pub.a prv r with
      | none => simp
      | some (a, q) => simp
  · intro out' rest h
    rw [deriveSecret] at h
    match hv : validate pub rng with
    | none => rw [hv] at h; cases h
    | some (false, r) => rw [hv] at h; simp at h
    | some (true, r) =>
      rw [hv] at h
      simp only at h
      match hg : groupAction pub.a prv r with
      | none => rw [hg] at h; cases h
      | some (a, q) =>
        rw [hg] at h
        simp only [Option.some.injEq, Prod.mk.injEq, true_and] at h
        obtain ⟨h1, rfl⟩ := h
        have hlt : val pub.a < Spec.Csidh.p := by
          by_contra hc
          have hn := (isLess_spec pub.a Model.Csidh.p (by rw [hl]; rfl)).not.mpr (by rw [p_val]; exact hc)
          rw [validate, if_pos (by simpa using hn)] at hv
          cases hv
        obtain ⟨α, hα⟩ := groupAction_elt (elt_of hl hlt) hg
        have e : out' = leBytes 64 (val a) := by
          rw [← h1, PublicKey.exportKey, if_neg (by omega)]
          exact fpBytes_eq a
        refine ⟨by rw [e]; exact Lemmas.SidhBytes.leBytes_length _ _, ?_, r, a, rfl, hg, e⟩
        rw [e, Lemmas.SidhBytes.bval_leBytes, Nat.mod_eq_of_lt]
        · exact hα.lt
        · have := val_lt a
          rw [hα.len] at this
          calc val a < _ := this
            _ = 256 ^ 64 := by rw [show (256 : Nat) = 2 ^ 8 from rfl, ← pow_mul]

end Props.CsidhKeys
