import Verif.Props.SidhKeys
/-!
C120: `Init` on a key object that was used before.
-/
namespace Props.SidhInit
open Model Model.Sidh Spec Spec.Sidh Props.SidhFp2 Props.SidhKeys

/-- The object `var k PrivateKey` a caller declares before calling `Init` (the parameters are not read by `Init`). -/
def declared (p : SidhParams) (v : W64) : PrivateKey := ⟨p, v, [], []⟩

theorem init_eq (f : Fld) (v : W64) (old : PrivateKey) : old.init (idOf f) v =
    some ⟨paramsOf f, v, List.replicate (byteLen f v) 0, if v = 6 then List.replicate (paramsOf f).msgLen 0 else old.S⟩ := by
  rw [PrivateKey.init, (c33_std 0).2.1, isA_eq]; rfl

/-- C120, what holds for private keys: `Init` gives the object `NewPrivateKey` gives if it makes a SIKE key, or if the
object held no SIKE seed (for instance, was just declared). -/
theorem c120_private_partial (f : Fld) (v : W64) (old : PrivateKey) (h : v = 6 ∨ old.S = []) :
    old.init (idOf f) v = newPrivateKey (idOf f) v := by
  rw [init_eq, newPrivateKey, (c33_std 0).2.1, isA_eq]
  rcases h with h | h
  · subst h; rfl
  · rw [h]; rfl

/-- C120. `Init` with an identifier that is no field panics, as `NewPrivateKey` does. -/
theorem c120_unknown (id : Byte) (v : W64) (old : PrivateKey) (oldp : PublicKey) (h : ∀ f, id ≠ idOf f) :
    old.init id v = none ∧ newPrivateKey id v = none ∧ oldp.init id v = none := by
  have e : stdParams id = none := by
    cases hp : stdParams id with
    | none => rfl
    | some p => exact absurd hp ((c33_std id).2.2 h ▸ by simp)
  refine ⟨?_, ?_, ?_⟩
  · rw [PrivateKey.init, e]; rfl
  · rw [newPrivateKey, e]; rfl
  · rw [PublicKey.init, e]; rfl

theorem byteLen_gt (f : Fld) (v : W64) : (paramsOf f).msgLen < byteLen f v := by
  unfold byteLen
  cases f <;> cases v.getLsbD 0 <;> decide +kernel

/-- C120. A SIKE key object made an SIDH one by `Init` has the right `Size()` and accepts strings of that size, and
`Export` returns them; but the scalar is not the imported string: the first bytes of the string are taken for a SIKE
seed, and the last bytes of the scalar stay 0. -/
theorem c120_private_lost (f : Fld) (v : W64) (hv : v ≠ 6) (k0 : PrivateKey) (h0 : PrivOf f 6 k0) :
    ∃ k1, k0.init (idOf f) v = some k1 ∧ k1.size = privateKeySize f v ∧
      ∀ input : List Byte, input.length = privateKeySize f v → ∃ k2, k1.importKey input = some (k2, true) ∧
        k2.scalar = input.drop (paramsOf f).msgLen ++ List.replicate (paramsOf f).msgLen 0 ∧
        ∀ out : List Byte, out.length = privateKeySize f v → k2.exportKey out = some input := by
  have hS : k0.S.length = (paramsOf f).msgLen := by rw [h0.S]; rfl
  have hb := byteLen_gt f v
  have hz : privateKeySize f v = byteLen f v := by rw [privateKeySize, if_neg hv]; rfl
  refine ⟨_, init_eq f v k0, ?_, fun input hi => ?_⟩
  · rw [PrivateKey.size, hz]
    simp only [List.length_replicate]
    rw [if_neg (show ¬ v = variantSike from hv), Nat.add_zero]
  have hsz : (⟨paramsOf f, v, List.replicate (byteLen f v) 0, k0.S⟩ : PrivateKey).size = byteLen f v := by
    rw [PrivateKey.size]
    simp only [List.length_replicate]
    rw [if_neg (show ¬ v = variantSike from hv), Nat.add_zero]
  rw [hz] at hi
  have e1 : goCopy k0.S (input.take (paramsOf f).msgLen) = input.take (paramsOf f).msgLen :=
    goCopy_full _ _ (by rw [List.length_take]; omega)
  have e2 : goCopy (List.replicate (byteLen f v) 0) (input.drop (paramsOf f).msgLen) =
      input.drop (paramsOf f).msgLen ++ List.replicate (paramsOf f).msgLen 0 := by
    rw [goCopy, List.take_of_length_le (by rw [List.length_drop, List.length_replicate]; omega), List.drop_replicate, List.length_drop,
      show byteLen f v - (input.length - (paramsOf f).msgLen) = (paramsOf f).msgLen by omega]
  rw [if_neg hv]
  refine ⟨⟨paramsOf f, v, input.drop (paramsOf f).msgLen ++ List.replicate (paramsOf f).msgLen 0, input.take (paramsOf f).msgLen⟩, ?_, rfl, fun out ho => ?_⟩
  · rw [PrivateKey.importKey, hsz, if_neg (by omega)]
    simp only [hS]
    rw [sliceTo, if_pos (by omega), sliceFrom, if_pos (by omega)]
    simp only [Option.bind_eq_bind, Option.bind_some, e1, e2]
  · rw [hz] at ho
    rw [PrivateKey.exportKey]
    simp only
    have hl : (input.take (paramsOf f).msgLen).length = (paramsOf f).msgLen := by rw [List.length_take]; omega
    have e3 : goCopy out (input.take (paramsOf f).msgLen) = input.take (paramsOf f).msgLen ++ out.drop (paramsOf f).msgLen := by
      rw [goCopy, List.take_of_length_le (by omega), hl]
    have e4 : goCopy (out.drop (paramsOf f).msgLen) (input.drop (paramsOf f).msgLen ++ List.replicate (paramsOf f).msgLen 0) =
        input.drop (paramsOf f).msgLen := by
      have h1 : (out.drop (paramsOf f).msgLen).length = (input.drop (paramsOf f).msgLen).length := by
        rw [List.length_drop, List.length_drop]; omega
      have h2 : List.drop (input.drop (paramsOf f).msgLen ++ List.replicate (paramsOf f).msgLen 0).length (out.drop (paramsOf f).msgLen) = [] :=
        List.drop_eq_nil_of_le (by rw [h1, List.length_append]; omega)
      rw [goCopy, h2, List.append_nil, h1, List.take_left' rfl]
    rw [hl, e3, copyFrom, if_pos (by rw [List.length_append]; omega), List.take_left' hl, List.drop_left' hl, e4, List.take_append_drop]

/-- C120 is false for private keys: for every field and every SIDH variant there is a string that, imported into an
object that was a SIKE key and then initialised for that variant, gives another scalar than imported into a new
object. -/
theorem c120_private_false (f : Fld) (v : W64) (hv : v ≠ 6) : ∃ (k0 k1 k2 n0 n1 : PrivateKey) (input : List Byte),
    newPrivateKey (idOf f) 6 = some k0 ∧ k0.init (idOf f) v = some k1 ∧ k1.importKey input = some (k2, true) ∧
    newPrivateKey (idOf f) v = some n0 ∧ n0.importKey input = some (n1, true) ∧ n1.scalar = input ∧ k2.scalar ≠ n1.scalar := by
  obtain ⟨k0, e0, h0⟩ := c34_new f 6
  obtain ⟨n0, e1, h1⟩ := c34_new f v
  obtain ⟨k1, e2, -, h2⟩ := c120_private_lost f v hv k0 h0
  have hb := byteLen_gt f v
  have hz : privateKeySize f v = byteLen f v := by rw [privateKeySize, if_neg hv]; rfl
  have hm : 0 < (paramsOf f).msgLen := by cases f <;> decide
  have hl : (List.replicate (byteLen f v) (1 : Byte)).length = privateKeySize f v := by rw [List.length_replicate, hz]
  obtain ⟨k2, e3, hs, -⟩ := h2 _ hl
  have hn : n0.S = [] := List.length_eq_zero_iff.mp (by rw [h1.S, if_neg hv])
  have hsc : n0.scalar.length = byteLen f v := h1.scalar
  have hsz : n0.size = byteLen f v := by rw [(privOf_size h1).1, hz]
  refine ⟨k0, k1, k2, n0, {n0 with scalar := List.replicate (byteLen f v) 1}, _, e0, e2, e3, e1, ?_, rfl, ?_⟩
  · rw [PrivateKey.importKey, hsz, if_neg (by rw [List.length_replicate]; omega), hn]
    simp only [List.length_nil]
    rw [sliceTo, if_pos (Nat.zero_le _), sliceFrom, if_pos (Nat.zero_le _)]
    simp only [Option.bind_eq_bind, Option.bind_some, List.drop_zero, List.take_zero]
    rw [goCopy_full _ _ (by rw [List.length_replicate, hsc])]
    cases n0
    cases hn
    rfl
  · rw [hs]
    intro h
    have h' : (0 : Byte) ∈ List.drop (paramsOf f).msgLen (List.replicate (byteLen f v) (1 : Byte)) ++ List.replicate (paramsOf f).msgLen 0 :=
      List.mem_append_right _ (List.mem_replicate.mpr ⟨by omega, rfl⟩)
    rw [h] at h'
    exact absurd (List.mem_replicate.mp h').2 (by decide)

/-- C120. From a SIKE key over p751 to an SIDH key over p434: `Import` of a string of `Size()` bytes panics. -/
theorem c120_private_panics (v : W64) (hv : v ≠ 6) (k0 : PrivateKey) (h0 : PrivOf .p751 6 k0) :
    ∃ k1, k0.init (idOf .p434) v = some k1 ∧ k1.size = privateKeySize .p434 v ∧
      ∀ input : List Byte, input.length = privateKeySize .p434 v → k1.importKey input = none := by
  have hS : k0.S.length = 32 := by rw [h0.S]; rfl
  have hb : byteLen .p434 v < 32 := by
    unfold byteLen
    cases v.getLsbD 0 <;> decide +kernel
  have hz : privateKeySize .p434 v = byteLen .p434 v := by rw [privateKeySize, if_neg hv]; rfl
  have hsz : (⟨paramsOf .p434, v, List.replicate (byteLen .p434 v) 0, k0.S⟩ : PrivateKey).size = byteLen .p434 v := by
    rw [PrivateKey.size]
    simp only [List.length_replicate]
    rw [if_neg (show ¬ v = variantSike from hv), Nat.add_zero]
  refine ⟨_, init_eq .p434 v k0, ?_, fun input hi => ?_⟩
  · rw [if_neg hv, hsz, hz]
  · rw [hz] at hi
    rw [if_neg hv, PrivateKey.importKey, hsz, if_neg (by omega)]
    simp only [hS]
    rw [sliceTo, if_neg (by omega)]
    rfl

/-- C120, what holds for public keys: `Init` gives the object `NewPublicKey` gives if the object held no points. -/
theorem c120_public_partial (f : Fld) (v w : W64) (old : PublicKey) (h : newPublicKey (idOf f) w = some old) :
    old.init (idOf f) v = newPublicKey (idOf f) v := by
  rw [newPublicKey, (c33_std 0).2.1] at h
  cases h
  rw [PublicKey.init, newPublicKey, (c33_std 0).2.1]
  rfl

/-- C120 is false for public keys: after `Init` (for the same field) the object still holds the old key, which `Export`
returns where a new object gives zeros. -/
theorem c120_public_kept (f : Fld) (v w : W64) (old : PublicKey) (P Q R : Fq f) (h : PubOf f w old P Q R) :
    ∃ k, old.init (idOf f) v = some k ∧ PubOf f v k P Q R ∧ ∀ out, k.exportKey out = old.exportKey out := by
  refine ⟨{old with params := paramsOf f, variant := v}, by rw [PublicKey.init, (c33_std 0).2.1]; rfl, ⟨rfl, rfl, h.p, h.q, h.r⟩, fun out => ?_⟩
  rw [PublicKey.exportKey, PublicKey.exportKey, h.params]

/-- C120 is false for public keys: for every field and variant there are an object that held a key and was then
initialised, and a string, such that importing the string gives another key than importing it into a new object. -/
theorem c120_public_false (f : Fld) (v : W64) : ∃ (k0 k1 k1' k2 k3 : PublicKey) (str1 str2 : List Byte),
    newPublicKey (idOf f) v = some k0 ∧ k0.importKey str1 = some (k1, true) ∧ k1.init (idOf f) v = some k1' ∧
    k1'.importKey str2 = some (k2, true) ∧ k0.importKey str2 = some (k3, true) ∧
    ∀ out, out.length = 6 * fieldBytes f → k2.exportKey out ≠ k3.exportKey out := by
  obtain ⟨k0, k1, k2, k3, s1, s2, e0, e1, e2, e3, h⟩ := c36_false f v
  obtain ⟨k0', e0', -, hne, hi⟩ := c35_import f v s1
  obtain rfl : k0 = k0' := Option.some.inj (e0.symm.trans e0')
  have hl : s1.length = 6 * fieldBytes f := by
    by_contra hc
    rw [hne hc] at e1
    simp at e1
  obtain ⟨k1', e1', hp, -⟩ := hi hl
  obtain rfl : k1 = k1' := by rw [e1] at e1'; simpa using e1'
  refine ⟨k0, k1, k1, k2, k3, s1, s2, e0, e1, ?_, e2, e3, h⟩
  rw [PublicKey.init, (c33_std 0).2.1]
  cases k1
  cases hp.params
  cases hp.variant
  rfl

/-- The hypotheses can be met: a declared object; a SIKE key with a seed. -/
example : (declared (paramsOf .p434) 0).init (idOf .p503) 1 = newPrivateKey (idOf .p503) 1 := c120_private_partial .p503 1 _ (Or.inr rfl)
example : PrivOf .p503 6 ⟨paramsOf .p503, 6, List.replicate 32 7, List.replicate 24 9⟩ := ⟨rfl, rfl, by decide, by decide⟩
example : ∃ k0 k1 k2 : PrivateKey, newPrivateKey (idOf .p503) 6 = some k0 ∧ k0.init (idOf .p503) 1 = some k1 ∧
    k1.importKey ((List.range 32).map fun i => BitVec.ofNat 8 (i + 1)) = some (k2, true) ∧
    k2.scalar = [25, 26, 27, 28, 29, 30, 31, 32] ++ List.replicate 24 0 := by
  obtain ⟨k0, e0, h0⟩ := c34_new .p503 6
  obtain ⟨k1, e1, -, h⟩ := c120_private_lost .p503 1 (by decide) k0 h0
  obtain ⟨k2, e2, hs, -⟩ := h ((List.range 32).map fun i => BitVec.ofNat 8 (i + 1)) (by decide)
  exact ⟨k0, k1, k2, e0, e1, e2, by rw [hs]; decide⟩
example : ∃ id : Byte, ∀ f, id ≠ idOf f := ⟨9, fun f => by cases f <;> decide⟩

end Props.SidhInit
