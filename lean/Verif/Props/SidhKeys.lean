import Verif.Lemmas.SidhBytes
import Verif.Lemmas.SidhTrace
import Verif.Props.SidhFp2
/-!
C32–C37, C52: helpers, parameter registry, keys.
-/
namespace Props.SidhKeys
open Model Model.Sidh Spec Spec.Sidh Lemmas.SidhBytes Lemmas.SidhTrace Lemmas.SidhGood Props.SidhFp2

/-! ### C32 -/

deriving instance DecidableEq for Fld

theorem mapM_some {α β : Type} (f : α → Option β) (g : α → β) : ∀ l : List α, (∀ x ∈ l, f x = some (g x)) → l.mapM f = some (l.map g)
  | [], _ => rfl
  | x :: l, h => by
    rw [List.mapM_cons, h x (by simp), mapM_some f g l fun y hy => h y (by simp [hy])]
    rfl

/-- C32. The pick is `in1` for 1 and `in2` for 0; too short inputs panic. -/
theorem c32_cpick (in1 in2 : List Byte) (h : in1.length = in2.length) :
    cpick 1 in1.length in1 in2 = some in1 ∧ cpick 0 in1.length in1 in2 = some in2 := by
  have w1 : which 1 = 0xff := by decide +kernel
  have w0 : which 0 = 0 := by decide +kernel
  constructor
  · rw [cpick, mapM_some _ (fun i => in1.getD i 0)]
    · congr 1
      apply List.ext_getElem
      · simp
      · intro i h1 h2; simp [h2]
    · intro i hi
      have hi : i < in1.length := List.mem_range.mp hi
      rw [List.getElem?_eq_getElem hi, List.getElem?_eq_getElem (h ▸ hi), w1]
      have : ∀ a b : Byte, (a &&& 0xff) ||| (b &&& ~~~0xff) = a := by
        intro a b; rw [show (0xff : Byte) = BitVec.allOnes 8 from rfl, BitVec.and_allOnes, BitVec.not_allOnes, BitVec.and_zero, BitVec.or_zero]
      simp only [Option.bind_eq_bind, Option.bind_some, this]
      simp [hi]
  · rw [cpick, mapM_some _ (fun i => in2.getD i 0)]
    · congr 1
      apply List.ext_getElem
      · simp [h]
      · intro i h1 h2; simp [h2]
    · intro i hi
      have hi : i < in1.length := List.mem_range.mp hi
      rw [List.getElem?_eq_getElem hi, List.getElem?_eq_getElem (h ▸ hi), w0]
      have : ∀ a b : Byte, (a &&& 0) ||| (b &&& ~~~0) = b := by
        intro a b; rw [show ~~~(0 : Byte) = BitVec.allOnes 8 from rfl, BitVec.and_allOnes, show (0 : Byte) = 0#8 from rfl, BitVec.and_zero, BitVec.zero_or]
      simp only [Option.bind_eq_bind, Option.bind_some, this]
      simp [h ▸ hi]

/-- C32. Reading bytes into a zeroed element takes them as two little-endian numbers; too few bytes panic. -/
theorem c32_fromBytes (n bytelen : Nat) (h8 : bytelen ≤ 8 * n) (input : List Byte) :
    (input.length < 2 * bytelen → bytesToFp2 (zeroFp2 n) input bytelen = none) ∧
    (2 * bytelen ≤ input.length → ∃ y, bytesToFp2 (zeroFp2 n) input bytelen = some y ∧ y.A.length = n ∧ y.B.length = n ∧
      val y.A = bval (input.take bytelen) ∧ val y.B = bval ((input.drop bytelen).take bytelen)) := by
  constructor
  · intro h; rw [bytesToFp2, if_pos h]
  · intro h
    refine ⟨_, by rw [bytesToFp2, if_neg (by omega)], ?_, ?_, ?_, ?_⟩
    · rw [orBytes_length]; simp [zeroFp2]
    · rw [orBytes_length]; simp [zeroFp2]
    · rw [val_orBytes _ _ _ (by simp [zeroFp2]; omega), zeroFp2, val_zeros]; simp
    · rw [val_orBytes _ _ _ (by simp [zeroFp2]; omega), zeroFp2, val_zeros]; simp

/-- C32. Writing an element gives the two little-endian encodings and leaves bytes beyond; too small buffers panic. -/
theorem c32_toBytes (out : List Byte) (x : Fp2) (bytelen : Nat) :
    (out.length < 2 * bytelen → fp2ToBytes out x bytelen = none) ∧
    (2 * bytelen ≤ out.length → fp2ToBytes out x bytelen = some (leBytes bytelen (val x.A) ++ leBytes bytelen (val x.B) ++ out.drop (2 * bytelen))) := by
  constructor
  · intro h; rw [fp2ToBytes, if_pos h]
  · intro h; rw [fp2ToBytes, if_neg (by omega), wordsToBytes_eq, wordsToBytes_eq]

/-- C32. Bytes to element to bytes is the identity. -/
theorem c32_bytes_roundtrip (n bytelen : Nat) (h8 : bytelen ≤ 8 * n) (input out : List Byte) (hi : input.length = 2 * bytelen)
    (ho : out.length = 2 * bytelen) : ∃ y, bytesToFp2 (zeroFp2 n) input bytelen = some y ∧ fp2ToBytes out y bytelen = some input := by
  obtain ⟨y, h1, _, _, h2, h3⟩ := (c32_fromBytes n bytelen h8 input).2 (by omega)
  refine ⟨y, h1, ?_⟩
  have e1 := leBytes_bval (input.take bytelen)
  have e2 := leBytes_bval ((input.drop bytelen).take bytelen)
  rw [List.length_take, Nat.min_eq_left (by omega)] at e1
  rw [List.length_take, List.length_drop, Nat.min_eq_left (by omega)] at e2
  rw [(c32_toBytes out y bytelen).2 (by omega), h2, h3, e1, e2, List.drop_eq_nil_of_le (as := out) (by omega), List.append_nil,
    List.take_of_length_le (l := input.drop bytelen) (by simp; omega), List.take_append_drop]

/-- C32. Element to bytes to element is the identity on values that fit. -/
theorem c32_elt_roundtrip (n bytelen : Nat) (h8 : bytelen ≤ 8 * n) (x : Fp2) (out : List Byte) (ho : out.length = 2 * bytelen)
    (hA : val x.A < 256 ^ bytelen) (hB : val x.B < 256 ^ bytelen) :
    ∃ b y, fp2ToBytes out x bytelen = some b ∧ bytesToFp2 (zeroFp2 n) b bytelen = some y ∧ val y.A = val x.A ∧ val y.B = val x.B := by
  have h1 := (c32_toBytes out x bytelen).2 (by omega)
  rw [List.drop_eq_nil_of_le (by omega), List.append_nil] at h1
  obtain ⟨y, h2, _, _, h3, h4⟩ := (c32_fromBytes n bytelen h8 (leBytes bytelen (val x.A) ++ leBytes bytelen (val x.B))).2
    (by rw [List.length_append, leBytes_length, leBytes_length]; omega)
  refine ⟨_, y, h1, h2, ?_, ?_⟩
  · rw [h3, List.take_left' (leBytes_length _ _), bval_leBytes, Nat.mod_eq_of_lt hA]
  · rw [h4, List.drop_left' (leBytes_length _ _), List.take_of_length_le (by rw [leBytes_length]), bval_leBytes, Nat.mod_eq_of_lt hB]

example : cpick 1 3 [1, 2, 3] [4, 5, 6] = some [1, 2, 3] ∧ cpick 0 3 [1, 2, 3] [4, 5, 6] = some [4, 5, 6] ∧
    cpick 0 3 [1, 2] [4, 5, 6] = none := by decide +kernel

/-! ### C33 -/

/-- The registry after a history of `Register` calls, each of which may panic (and is then recovered from). -/
def afterRegister : Registry → List (Byte × SidhParams) → Registry
  | r, [] => r
  | r, (id, p) :: h => afterRegister ((r.register id p).getD r) h

/-- C33. `Register` panics exactly when the id is taken; otherwise `Params` of that id is the new set and that of every
other id is unchanged. -/
theorem c33_register (r : Registry) (id : Byte) (p : SidhParams) :
    ((r.params id).isSome → r.register id p = none) ∧
    (r.params id = none → ∃ r', r.register id p = some r' ∧ r'.params id = some p ∧ ∀ id', id' ≠ id → r'.params id' = r.params id') := by
  unfold Registry.params Registry.register
  constructor
  · intro h; rw [if_pos (by simpa using h)]
  · intro h
    refine ⟨(id, p) :: r, ?_, ?_, ?_⟩
    · rw [if_neg]
      intro hc
      rw [Option.map_eq_none_iff] at h
      rw [h] at hc
      cases hc
    · simp
    · intro id' hne
      rw [List.find?_cons]
      have : (id == id') = false := by simpa using Ne.symm hne
      rw [this]

theorem afterRegister_params (h : List (Byte × SidhParams)) : ∀ (r : Registry) (id : Byte),
    (afterRegister r h).params id = (r.params id).or ((h.find? fun e => e.1 == id).map (·.2)) := by
  induction h with
  | nil => intro r id; simp [afterRegister]
  | cons e h ih =>
    intro r id
    obtain ⟨id0, p⟩ := e
    rw [afterRegister, ih]
    obtain ⟨c1, c2⟩ := c33_register r id0 p
    cases hr : r.params id0 with
    | some q =>
      rw [c1 (by rw [hr]; rfl), Option.getD_none, List.find?_cons]
      by_cases he : id0 = id
      · subst he; rw [hr]; simp
      · have : (id0 == id) = false := by simpa using he
        rw [this]
    | none =>
      obtain ⟨r', e1, e2, e3⟩ := c2 hr
      rw [e1, Option.getD_some, List.find?_cons]
      by_cases he : id0 = id
      · subst he; rw [e2, hr]; simp
      · have : (id0 == id) = false := by simpa using he
        rw [this, e3 id (fun h => he h.symm)]

/-- C33. After any history of registrations `Params id` is the set of the first one for `id`, and panics if there was
none. -/
theorem c33_history (h : List (Byte × SidhParams)) (id : Byte) :
    (afterRegister [] h).params id = (h.find? fun e => e.1 == id).map (·.2) := by
  rw [afterRegister_params]; rfl

/-- The parameter set of a field. -/
def paramsOf : Fld → SidhParams
  | .p434 => params434
  | .p503 => params503
  | .p751 => params751

/-- The identifier of a field: the constants Fp434, Fp503, Fp751. -/
def idOf : Fld → Byte
  | .p434 => 2
  | .p503 => 0
  | .p751 => 1

/-- C33. Once the packages are initialised (which does not panic) the three fields are registered and nothing else. -/
theorem c33_std (id : Byte) : registry.isSome ∧ (∀ f, stdParams (idOf f) = some (paramsOf f)) ∧
    ((∀ f, id ≠ idOf f) → stdParams id = none) := by
  refine ⟨rfl, fun f => by cases f <;> rfl, fun h => ?_⟩
  have h1 := h .p434
  have h2 := h .p503
  have h3 := h .p751
  revert h1 h2 h3
  simp only [idOf]
  intro h1 h2 h3
  have e1 : (fp434 == id) = false := by rw [beq_eq_false_iff_ne]; exact fun h => h1 h.symm
  have e2 : (fp503 == id) = false := by rw [beq_eq_false_iff_ne]; exact fun h => h2 h.symm
  have e3 : (fp751 == id) = false := by rw [beq_eq_false_iff_ne]; exact fun h => h3 h.symm
  have : stdParams id = Registry.params [(fp751, params751), (fp503, params503), (fp434, params434)] id := rfl
  rw [this, Registry.params, List.find?_cons, e3, List.find?_cons, e2, List.find?_cons, e1]
  rfl

/-! ### C34 -/

/-- Bytes of a private key of a variant: the scalar of its torsion group, preceded for SIKE by S. -/
def privateKeySize (f : Fld) (v : W64) : Nat :=
  (if v.getLsbD 0 then (paramsOf f).A.secretByteLen else (paramsOf f).B.secretByteLen) + (if v = 6 then (paramsOf f).msgLen else 0)

/-- What a key object made by `NewPrivateKey` for (f, v) keeps through every operation. -/
structure PrivOf (f : Fld) (v : W64) (k : PrivateKey) : Prop where
  params : k.params = paramsOf f
  variant : k.variant = v
  scalar : k.scalar.length = if v.getLsbD 0 then (paramsOf f).A.secretByteLen else (paramsOf f).B.secretByteLen
  S : k.S.length = if v = 6 then (paramsOf f).msgLen else 0

theorem isA_eq (v : W64) : isA v = v.getLsbD 0 := by
  have h : ∀ v : W64, (v &&& 1 = 1) ↔ v.getLsbD 0 = true := by
    intro v
    constructor
    · intro h
      have := congrArg (fun z : W64 => z.getLsbD 0) h
      simpa using this
    · intro h
      apply BitVec.eq_of_getLsbD_eq
      intro i hi
      cases i with
      | zero => simpa using h
      | succ i => simp [BitVec.getLsbD_one]
  rw [isA, Bool.eq_iff_iff, beq_iff_eq]
  exact h v

/-- C34, C37. `NewPrivateKey` returns a key with the lengths of its field and variant. -/
theorem c34_new (f : Fld) (v : W64) : ∃ k, newPrivateKey (idOf f) v = some k ∧ PrivOf f v k := by
  refine ⟨⟨paramsOf f, v, List.replicate (if isA v then (paramsOf f).A.secretByteLen else (paramsOf f).B.secretByteLen) 0,
    if v = variantSike then List.replicate (paramsOf f).msgLen 0 else []⟩, by rw [newPrivateKey, (c33_std 0).2.1]; rfl, rfl, rfl, ?_, ?_⟩
  · rw [isA_eq]; simp
  · change (if v = 6 then List.replicate (paramsOf f).msgLen 0 else []).length = _
    split <;> simp

theorem privOf_size {f : Fld} {v : W64} {k : PrivateKey} (h : PrivOf f v k) : k.size = privateKeySize f v ∧ k.S.length + k.scalar.length = k.size := by
  have e : k.size = privateKeySize f v := by
    rw [PrivateKey.size, h.scalar, h.variant, h.params]; rfl
  refine ⟨e, ?_⟩
  rw [e, h.scalar, h.S, privateKeySize, Nat.add_comm]

theorem goCopy_full (dst src : List Byte) (h : src.length = dst.length) : goCopy dst src = src := by
  rw [goCopy, List.take_of_length_le (by omega), List.drop_eq_nil_of_le (by omega), List.append_nil]

/-- C34. `Import` on a private key accepts exactly the strings of `Size()` bytes, and leaves the key as it was
otherwise. -/
theorem c34_accepts (f : Fld) (v : W64) (k : PrivateKey) (hk : PrivOf f v k) (input : List Byte) :
    ∃ k' ok, k.importKey input = some (k', ok) ∧ PrivOf f v k' ∧ (ok = true ↔ input.length = privateKeySize f v) ∧ (ok = false → k' = k) := by
  obtain ⟨hs, hl⟩ := privOf_size hk
  by_cases h : input.length = k.size
  · refine ⟨_, true, by rw [PrivateKey.importKey, if_neg (by simpa using h), sliceTo, if_pos (by omega), sliceFrom, if_pos (by omega)]; rfl, ?_, ?_, ?_⟩
    · refine ⟨hk.params, hk.variant, ?_, ?_⟩
      · simp only
        rw [goCopy_full _ _ (by simp; omega), ← hk.scalar]; simp; omega
      · simp only
        rw [goCopy_full _ _ (by simp; omega), ← hk.S]; simp; omega
    · simp [← hs, h]
    · intro h; cases h
  · refine ⟨k, false, by rw [PrivateKey.importKey, if_pos h], hk, ?_, fun _ => rfl⟩
    rw [← hs]; simp [h]

/-- C34. What was imported is what is exported, into any buffer of at least that size. -/
theorem c34_export_import (f : Fld) (v : W64) (k : PrivateKey) (hk : PrivOf f v k) (input out : List Byte)
    (hi : input.length = privateKeySize f v) (ho : privateKeySize f v ≤ out.length) :
    ∃ k', k.importKey input = some (k', true) ∧ k'.exportKey out = some (input ++ out.drop (privateKeySize f v)) := by
  obtain ⟨hs, hl⟩ := privOf_size hk
  refine ⟨_, by rw [PrivateKey.importKey, if_neg (by omega), sliceTo, if_pos (by omega), sliceFrom, if_pos (by omega)]; rfl, ?_⟩
  have e1 : goCopy k.S (input.take k.S.length) = input.take k.S.length := goCopy_full _ _ (by simp; omega)
  have e2 : goCopy k.scalar (input.drop k.S.length) = input.drop k.S.length := goCopy_full _ _ (by simp; omega)
  have lt : (input.take k.S.length).length = k.S.length := by simp; omega
  simp only [PrivateKey.exportKey, e1, e2]
  have e3 : goCopy out (input.take k.S.length) = input.take k.S.length ++ out.drop k.S.length := by
    rw [goCopy, List.take_of_length_le (by rw [lt]; omega), lt]
  rw [e3, copyFrom, if_pos (by rw [List.length_append]; omega), lt, List.take_left' lt, List.drop_left' lt]
  congr 1
  rw [goCopy, List.take_of_length_le (l := input.drop _) (by simp; omega), List.drop_drop, ← List.append_assoc, List.take_append_drop]
  congr 2
  simp; omega

/-- C34. A key exported and imported again (into any key of the same field and variant) is the same key. -/
theorem c34_import_export (f : Fld) (v : W64) (k k0 : PrivateKey) (hk : PrivOf f v k) (h0 : PrivOf f v k0) (out : List Byte)
    (ho : out.length = privateKeySize f v) : ∃ b, k.exportKey out = some b ∧ k0.importKey b = some (k, true) := by
  obtain ⟨hs, hl⟩ := privOf_size hk
  obtain ⟨hs0, hl0⟩ := privOf_size h0
  have e3 : goCopy out k.S = k.S ++ out.drop k.S.length := by rw [goCopy, List.take_of_length_le (by omega)]
  have hb : k.exportKey out = some (k.S ++ k.scalar) := by
    rw [PrivateKey.exportKey, e3, copyFrom, if_pos (by simp), List.take_left' rfl, List.drop_left' rfl, goCopy_full _ _ (by simp; omega)]
  have l1 : k0.S.length = k.S.length := by rw [h0.S, hk.S]
  have l2 : k0.scalar.length = k.scalar.length := by rw [h0.scalar, hk.scalar]
  refine ⟨_, hb, ?_⟩
  rw [PrivateKey.importKey, if_neg (by simp; omega), sliceTo, if_pos (by simp; omega), sliceFrom, if_pos (by simp; omega)]
  simp only [Option.bind_eq_bind, Option.bind_some]
  rw [List.take_left' l1.symm, List.drop_left' l1.symm, goCopy_full _ _ (by omega), goCopy_full _ _ (by omega)]
  congr 2
  obtain ⟨p, w, s, S⟩ := k
  obtain ⟨p0, w0, s0, S0⟩ := k0
  have := hk.params
  have := hk.variant
  have := h0.params
  have := h0.variant
  simp_all

/-- Non-vacuity: keys of every field and variant exist. -/
example (f : Fld) (v : W64) : ∃ k, newPrivateKey (idOf f) v = some k ∧ PrivOf f v k := c34_new f v

example : privateKeySize .p503 1 = 32 ∧ privateKeySize .p434 2 = 28 ∧ privateKeySize .p751 6 = 80 := by decide +kernel

/-! ### C35, C36 -/

/-- Bytes of one coordinate. -/
def fieldBytes : Fld → Nat
  | .p434 => 55
  | .p503 => 63
  | .p751 => 94

/-- The six coordinates of an encoded public key: real and imaginary parts of x(P), x(Q), x(P−Q). -/
def coords (f : Fld) (input : List Byte) : List Nat :=
  (List.range 6).map fun i => bval ((input.drop (i * fieldBytes f)).take (fieldBytes f))

/-- The canonical encoding of six coordinates. -/
def encode (f : Fld) (cs : List Nat) : List Byte := (cs.map fun c => leBytes (fieldBytes f) (c % f.p)).flatten

/-- A public key object of field f whose points represent the three field elements. -/
structure PubOf (f : Fld) (v : W64) (k : PublicKey) (P Q R : Fq f) : Prop where
  params : k.params = paramsOf f
  variant : k.variant = v
  p : IsElt f k.pts.p P
  q : IsElt f k.pts.q Q
  r : IsElt f k.pts.r R

theorem pkg_of (f : Fld) : pkg (paramsOf f).id = some (paramsOf f) := by cases f <;> rfl
theorem sizes (f : Fld) : (paramsOf f).sharedSecretSize = 2 * fieldBytes f ∧ (paramsOf f).bytelen = fieldBytes f ∧
    (paramsOf f).publicKeySize = 6 * fieldBytes f ∧ (paramsOf f).prime = primeOf f ∧ fieldBytes f ≤ 8 * f.words ∧ f.p < 256 ^ fieldBytes f := by
  cases f <;> refine ⟨rfl, rfl, rfl, rfl, by decide, by decide +kernel⟩

theorem newPublicKey_eq (f : Fld) (v : W64) :
    newPublicKey (idOf f) v = some ⟨paramsOf f, v, ⟨zeroFp2 f.words, zeroFp2 f.words, zeroFp2 f.words⟩⟩ := by
  rw [newPublicKey, (c33_std 0).2.1]
  have h : (paramsOf f).prime.n = f.words := by rw [(sizes f).2.2.2.1, n_eq]
  simp only [Option.bind_eq_bind, Option.bind_some, h]

/-- one of the three points -/
theorem import1 (f : Fld) (input : List Byte) (h : input.length = 2 * fieldBytes f) :
    ∃ y, bytesToFp2 (zeroFp2 f.words) input (fieldBytes f) = some y ∧
      IsElt f (toMontgomery (primeOf f) y) ⟨(bval (input.take (fieldBytes f)) : ZMod f.p), (bval (input.drop (fieldBytes f)) : ZMod f.p)⟩ ∧
      ∀ out : List Byte, out.length = 2 * fieldBytes f → fp2ToBytes out (fromMontgomery (primeOf f) (toMontgomery (primeOf f) y)) (fieldBytes f) =
        some (leBytes (fieldBytes f) (bval (input.take (fieldBytes f)) % f.p) ++ leBytes (fieldBytes f) (bval (input.drop (fieldBytes f)) % f.p)) := by
  obtain ⟨y, h1, h2, h3, h4, h5⟩ := (c32_fromBytes f.words (fieldBytes f) (sizes f).2.2.2.2.1 input).2 (by omega)
  rw [List.take_of_length_le (l := input.drop _) (by simp; omega)] at h5
  obtain ⟨c1, c2, c3⟩ := c45_montgomery f y h2 h3
  refine ⟨y, h1, ?_, fun out ho => ?_⟩
  · rw [← h4, ← h5]; exact c1
  · rw [(c32_toBytes _ _ _).2 (by omega), c2, c3, h4, h5, List.drop_eq_nil_of_le (as := out) (by omega), List.append_nil]

theorem splits (f : Fld) (input : List Byte) :
    (((input.take (2 * fieldBytes f)).take (fieldBytes f) = input.take (fieldBytes f)) ∧
      ((input.take (2 * fieldBytes f)).drop (fieldBytes f) = (input.drop (fieldBytes f)).take (fieldBytes f))) ∧
    ((((input.drop (2 * fieldBytes f)).take (2 * fieldBytes f)).take (fieldBytes f) = (input.drop (2 * fieldBytes f)).take (fieldBytes f)) ∧
      (((input.drop (2 * fieldBytes f)).take (2 * fieldBytes f)).drop (fieldBytes f) = (input.drop (3 * fieldBytes f)).take (fieldBytes f))) ∧
    ((((input.drop (4 * fieldBytes f)).take (2 * fieldBytes f)).take (fieldBytes f) = (input.drop (4 * fieldBytes f)).take (fieldBytes f)) ∧
      (((input.drop (4 * fieldBytes f)).take (2 * fieldBytes f)).drop (fieldBytes f) = (input.drop (5 * fieldBytes f)).take (fieldBytes f))) := by
  have h : 2 * fieldBytes f - fieldBytes f = fieldBytes f := by omega
  refine ⟨⟨?_, ?_⟩, ⟨?_, ?_⟩, ⟨?_, ?_⟩⟩
  · rw [List.take_take, Nat.min_eq_left (by omega)]
  · rw [List.drop_take, h]
  · rw [List.take_take, Nat.min_eq_left (by omega)]
  · rw [List.drop_take, List.drop_drop, h, show 2 * fieldBytes f + fieldBytes f = 3 * fieldBytes f by omega]
  · rw [List.take_take, Nat.min_eq_left (by omega)]
  · rw [List.drop_take, List.drop_drop, h, show 4 * fieldBytes f + fieldBytes f = 5 * fieldBytes f by omega]

/-- C35. `Import` into a new public key accepts exactly the strings of PublicKeySize bytes.  The points then represent
the coordinates modulo p, and `Export` returns their canonical encoding. -/
theorem c35_import (f : Fld) (v : W64) (input : List Byte) : ∃ k, newPublicKey (idOf f) v = some k ∧ k.size = 6 * fieldBytes f ∧
    (input.length ≠ 6 * fieldBytes f → k.importKey input = some (k, false)) ∧
    (input.length = 6 * fieldBytes f → ∃ k', k.importKey input = some (k', true) ∧
      PubOf f v k' ⟨((coords f input).getD 0 0 : ZMod f.p), ((coords f input).getD 1 0 : ZMod f.p)⟩
        ⟨((coords f input).getD 2 0 : ZMod f.p), ((coords f input).getD 3 0 : ZMod f.p)⟩
        ⟨((coords f input).getD 4 0 : ZMod f.p), ((coords f input).getD 5 0 : ZMod f.p)⟩ ∧
      ∀ out : List Byte, out.length = 6 * fieldBytes f → k'.exportKey out = some (encode f (coords f input))) := by
  obtain ⟨s1, s2, s3, s4, s5, s6⟩ := sizes f
  refine ⟨_, newPublicKey_eq f v, s3, ?_, ?_⟩
  · intro h
    rw [PublicKey.importKey, if_pos]
    rw [PublicKey.size, s3]; exact h
  · intro h
    obtain ⟨y0, a0, b0, c0⟩ := import1 f (input.take (2 * fieldBytes f)) (by simp; omega)
    obtain ⟨y1, a1, b1, c1⟩ := import1 f ((input.drop (2 * fieldBytes f)).take (2 * fieldBytes f)) (by simp; omega)
    obtain ⟨y2, a2, b2, c2⟩ := import1 f ((input.drop (4 * fieldBytes f)).take (2 * fieldBytes f)) (by simp; omega)
    obtain ⟨h0, h1, h2⟩ := splits f input
    rw [h0.1, h0.2] at b0 c0
    rw [h1.1, h1.2] at b1 c1
    rw [h2.1, h2.2] at b2 c2
    refine ⟨⟨paramsOf f, v, ⟨toMontgomery (primeOf f) y0, toMontgomery (primeOf f) y1, toMontgomery (primeOf f) y2⟩⟩, ?_, ?_, ?_⟩
    · rw [PublicKey.importKey, if_neg (by rw [PublicKey.size, s3]; simpa using h)]
      simp only [s1, s2, show 2 * (2 * fieldBytes f) = 4 * fieldBytes f by ring, a0, a1, a2, pkg_of, s4, Option.bind_eq_bind, Option.bind_some]
    · refine ⟨rfl, rfl, ?_, ?_, ?_⟩
      · simpa [coords] using b0
      · simpa [coords] using b1
      · simpa [coords] using b2
    · intro out ho
      rw [PublicKey.exportKey]
      simp only [pkg_of, s1, s2, s4, Option.bind_eq_bind, Option.bind_some]
      rw [if_neg (by omega), c0 _ (by simp; omega)]
      simp only [Option.bind_some]
      rw [c1 _ (by simp; omega)]
      simp only [Option.bind_some]
      rw [c2 _ (by simp; omega)]
      simp only [Option.bind_some]
      rw [List.drop_eq_nil_of_le (as := out) (by omega)]
      simp [encode, coords, List.range_succ]

/-- C35. The exported string is the imported one exactly when every coordinate is below p. -/
theorem c35_canonical (f : Fld) (input : List Byte) (h : input.length = 6 * fieldBytes f) :
    encode f (coords f input) = input ↔ ∀ c ∈ coords f input, c < f.p := by
  obtain ⟨s1, s2, s3, s4, s5, s6⟩ := sizes f
  have hp := p_gt f
  unfold encode coords
  generalize fieldBytes f = L at *
  have gen : ∀ (m : Nat) (inp : List Byte), inp.length = m * L →
      ((((List.range m).map fun i => bval ((inp.drop (i * L)).take L)).map (fun c => leBytes L (c % f.p))).flatten = inp ↔
      ∀ c ∈ (List.range m).map fun i => bval ((inp.drop (i * L)).take L), c < f.p) := by
    intro m
    induction m with
    | zero => intro inp hi; simp at hi; simp [hi]
    | succ m ih =>
      intro inp hi
      have hi : inp.length = m * L + L := by rw [hi]; ring
      have ih := ih (inp.drop L) (by simp; omega)
      rw [List.range_succ_eq_map]
      simp only [List.map_cons, List.map_map, List.flatten_cons, Nat.zero_mul, List.drop_zero, Function.comp_def, List.mem_cons, forall_eq_or_imp]
      simp only [List.map_map, Function.comp_def, List.drop_drop] at ih
      have hidx : ∀ i, Nat.succ i * L = L + i * L := by intro i; rw [Nat.succ_mul]; omega
      simp only [hidx]
      rw [← ih]
      have ht : (inp.take L).length = L := by simp; omega
      constructor
      · intro he
        have e1 := congrArg (List.take L) he
        have e2 := congrArg (List.drop L) he
        rw [List.take_left' (leBytes_length _ _)] at e1
        rw [List.drop_left' (leBytes_length _ _)] at e2
        refine ⟨?_, e2⟩
        have e3 := congrArg bval e1
        rw [bval_leBytes] at e3
        rw [← e3]
        exact lt_of_le_of_lt (Nat.mod_le _ _) (Nat.mod_lt _ (by omega))
      · rintro ⟨h1, h2⟩
        rw [h2, Nat.mod_eq_of_lt h1]
        have := leBytes_bval (inp.take L)
        rw [ht] at this
        rw [this, List.take_append_drop]
  exact gen 6 input h

/-- `Export` writes the canonical encodings of the six coordinates. -/
theorem c35_export (f : Fld) (v : W64) (k : PublicKey) (P Q R : Fq f) (hk : PubOf f v k P Q R) (out : List Byte)
    (ho : out.length = 6 * fieldBytes f) :
    k.exportKey out = some (leBytes (fieldBytes f) P.re.val ++ leBytes (fieldBytes f) P.im.val ++
      (leBytes (fieldBytes f) Q.re.val ++ leBytes (fieldBytes f) Q.im.val) ++ (leBytes (fieldBytes f) R.re.val ++ leBytes (fieldBytes f) R.im.val)) := by
  obtain ⟨s1, s2, s3, s4, s5, s6⟩ := sizes f
  have one : ∀ (x : Fp2) (a : Fq f), IsElt f x a → ∀ out : List Byte, out.length = 2 * fieldBytes f →
      fp2ToBytes out (fromMontgomery (primeOf f) x) (fieldBytes f) = some (leBytes (fieldBytes f) a.re.val ++ leBytes (fieldBytes f) a.im.val) := by
    intro x a hx out ho
    rw [(c32_toBytes _ _ _).2 (by omega), (c45_from f x a hx).1, (c45_from f x a hx).2, List.drop_eq_nil_of_le (as := out) (by omega), List.append_nil]
  rw [PublicKey.exportKey, hk.params]
  simp only [pkg_of, s1, s2, s4, Option.bind_eq_bind, Option.bind_some]
  rw [if_neg (by omega), one _ _ hk.p _ (by simp; omega)]
  simp only [Option.bind_some]
  rw [one _ _ hk.q _ (by simp; omega)]
  simp only [Option.bind_some]
  rw [one _ _ hk.r _ (by simp; omega)]
  simp only [Option.bind_some]
  rw [List.drop_eq_nil_of_le (as := out) (by omega), List.append_nil]

/-- C35. A public key exported and imported into a new key object represents the same field elements. -/
theorem c35_roundtrip (f : Fld) (v : W64) (k : PublicKey) (P Q R : Fq f) (hk : PubOf f v k P Q R) (out : List Byte)
    (ho : out.length = 6 * fieldBytes f) :
    ∃ b k0 k', k.exportKey out = some b ∧ newPublicKey (idOf f) v = some k0 ∧ k0.importKey b = some (k', true) ∧ PubOf f v k' P Q R := by
  obtain ⟨s1, s2, s3, s4, s5, s6⟩ := sizes f
  have hb := c35_export f v k P Q R hk out ho
  set b := leBytes (fieldBytes f) P.re.val ++ leBytes (fieldBytes f) P.im.val ++
      (leBytes (fieldBytes f) Q.re.val ++ leBytes (fieldBytes f) Q.im.val) ++ (leBytes (fieldBytes f) R.re.val ++ leBytes (fieldBytes f) R.im.val) with hbdef
  obtain ⟨k0, e0, _, _, e1⟩ := c35_import f v b
  obtain ⟨k', e2, e3, _⟩ := e1 (by simp [hbdef, leBytes_length]; omega)
  refine ⟨b, k0, k', hb, e0, e2, ?_⟩
  have cb : coords f b = [P.re.val, P.im.val, Q.re.val, Q.im.val, R.re.val, R.im.val] := by
    have hv : ∀ c : ZMod f.p, bval (leBytes (fieldBytes f) c.val) = c.val := by
      intro c
      rw [bval_leBytes, Nat.mod_eq_of_lt]
      have : NeZero f.p := ⟨by have := p_gt f; omega⟩
      exact lt_trans (ZMod.val_lt c) s6
    have key : ∀ (pre : List Byte) (c : ZMod f.p) (post : List Byte) (n : Nat), pre.length = n →
        bval (((pre ++ (leBytes (fieldBytes f) c.val ++ post)).drop n).take (fieldBytes f)) = c.val := by
      intro pre c post n hn
      rw [List.drop_left' hn, List.take_left' (leBytes_length _ _), hv]
    have hl := fun c : Nat => leBytes_length (fieldBytes f) c
    have d0 := key [] P.re (b.drop (fieldBytes f)) (0 * fieldBytes f) (by simp)
    have : ∀ c0 c1 c2 c3 c4 c5 : ZMod f.p, coords f (leBytes (fieldBytes f) c0.val ++ leBytes (fieldBytes f) c1.val ++
        (leBytes (fieldBytes f) c2.val ++ leBytes (fieldBytes f) c3.val) ++ (leBytes (fieldBytes f) c4.val ++ leBytes (fieldBytes f) c5.val)) =
        [c0.val, c1.val, c2.val, c3.val, c4.val, c5.val] := by
      intro c0 c1 c2 c3 c4 c5
      have k0 := key [] c0 (leBytes (fieldBytes f) c1.val ++ (leBytes (fieldBytes f) c2.val ++ (leBytes (fieldBytes f) c3.val ++ (leBytes (fieldBytes f) c4.val ++ leBytes (fieldBytes f) c5.val)))) (0 * fieldBytes f) (by simp)
      have k1 := key (leBytes (fieldBytes f) c0.val) c1 (leBytes (fieldBytes f) c2.val ++ (leBytes (fieldBytes f) c3.val ++ (leBytes (fieldBytes f) c4.val ++ leBytes (fieldBytes f) c5.val))) (1 * fieldBytes f) (by simp [hl])
      have k2 := key (leBytes (fieldBytes f) c0.val ++ leBytes (fieldBytes f) c1.val) c2 (leBytes (fieldBytes f) c3.val ++ (leBytes (fieldBytes f) c4.val ++ leBytes (fieldBytes f) c5.val)) (2 * fieldBytes f) (by simp [hl]; omega)
      have k3 := key (leBytes (fieldBytes f) c0.val ++ leBytes (fieldBytes f) c1.val ++ leBytes (fieldBytes f) c2.val) c3 (leBytes (fieldBytes f) c4.val ++ leBytes (fieldBytes f) c5.val) (3 * fieldBytes f) (by simp [hl]; omega)
      have k4 := key (leBytes (fieldBytes f) c0.val ++ leBytes (fieldBytes f) c1.val ++ leBytes (fieldBytes f) c2.val ++ leBytes (fieldBytes f) c3.val) c4 (leBytes (fieldBytes f) c5.val) (4 * fieldBytes f) (by simp [hl]; omega)
      have k5 := key (leBytes (fieldBytes f) c0.val ++ leBytes (fieldBytes f) c1.val ++ leBytes (fieldBytes f) c2.val ++ leBytes (fieldBytes f) c3.val ++ leBytes (fieldBytes f) c4.val) c5 [] (5 * fieldBytes f) (by simp [hl]; omega)
      simp only [List.append_assoc, List.nil_append, List.append_nil] at k0 k1 k2 k3 k4 k5
      simp only [coords, List.range_succ, List.range_zero, List.nil_append, List.append_assoc, List.map_append, List.map_cons, List.map_nil, List.cons_append, k0, k1, k2, k3, k4, k5]
    exact this _ _ _ _ _ _
  rw [cb] at e3
  have nz : NeZero f.p := ⟨by have := p_gt f; omega⟩
  have eta : ∀ a : Fq f, (⟨((a.re.val : Nat) : ZMod f.p), ((a.im.val : Nat) : ZMod f.p)⟩ : Fq f) = a := by
    intro a; ext <;> simp
  simpa [eta] using e3

/-- Non-vacuity: there is a public key object for all field elements. -/
example (f : Fld) (v : W64) (P Q R : Fq f) : ∃ k, PubOf f v k P Q R := by
  obtain ⟨x, hx⟩ := c43_total f P
  obtain ⟨y, hy⟩ := c43_total f Q
  obtain ⟨z, hz⟩ := c43_total f R
  exact ⟨⟨paramsOf f, v, ⟨x, y, z⟩⟩, rfl, rfl, hx, hy, hz⟩

/-- C36, what holds: `Import` into any public key object OR-s the coordinates of the string into the words the object
holds, and the key then represents these.  It is the key of the string if the object is new (all words 0). -/
theorem c36_import_used_partial (f : Fld) (v : W64) (k : PublicKey) (hp : k.params = paramsOf f) (hv : k.variant = v)
    (hl : ∀ x, (x = k.pts.p ∨ x = k.pts.q ∨ x = k.pts.r) → x.A.length = f.words ∧ x.B.length = f.words)
    (input : List Byte) (h : input.length = 6 * fieldBytes f) :
    ∃ k', k.importKey input = some (k', true) ∧
      PubOf f v k' ⟨((val k.pts.p.A ||| (coords f input).getD 0 0 : Nat) : ZMod f.p), ((val k.pts.p.B ||| (coords f input).getD 1 0 : Nat) : ZMod f.p)⟩
        ⟨((val k.pts.q.A ||| (coords f input).getD 2 0 : Nat) : ZMod f.p), ((val k.pts.q.B ||| (coords f input).getD 3 0 : Nat) : ZMod f.p)⟩
        ⟨((val k.pts.r.A ||| (coords f input).getD 4 0 : Nat) : ZMod f.p), ((val k.pts.r.B ||| (coords f input).getD 5 0 : Nat) : ZMod f.p)⟩ := by
  obtain ⟨s1, s2, s3, s4, s5, s6⟩ := sizes f
  have one : ∀ (x : Fp2), x.A.length = f.words ∧ x.B.length = f.words → ∀ inp : List Byte, inp.length = 2 * fieldBytes f →
      ∃ y, bytesToFp2 x inp (fieldBytes f) = some y ∧ IsElt f (toMontgomery (primeOf f) y)
        ⟨((val x.A ||| bval (inp.take (fieldBytes f)) : Nat) : ZMod f.p), ((val x.B ||| bval (inp.drop (fieldBytes f)) : Nat) : ZMod f.p)⟩ := by
    intro x hx inp hi
    refine ⟨_, by rw [bytesToFp2, if_neg (by omega)], ?_⟩
    have e1 := val_orBytes (inp.take (fieldBytes f)) x.A 0 (by simp; omega)
    have e2 := val_orBytes ((inp.drop (fieldBytes f)).take (fieldBytes f)) x.B 0 (by simp; omega)
    have := (c45_montgomery f ⟨orBytes x.A 0 (inp.take (fieldBytes f)), orBytes x.B 0 ((inp.drop (fieldBytes f)).take (fieldBytes f))⟩
      (by rw [orBytes_length]; exact hx.1) (by rw [orBytes_length]; exact hx.2)).1
    rw [List.take_of_length_le (l := inp.drop _) (by simp; omega)] at e2 this ⊢
    simp only [e1, e2, Nat.mul_zero, Nat.shiftLeft_zero] at this
    exact this
  obtain ⟨y0, a0, b0⟩ := one k.pts.p (hl _ (by simp)) (input.take (2 * fieldBytes f)) (by simp; omega)
  obtain ⟨y1, a1, b1⟩ := one k.pts.q (hl _ (by simp)) ((input.drop (2 * fieldBytes f)).take (2 * fieldBytes f)) (by simp; omega)
  obtain ⟨y2, a2, b2⟩ := one k.pts.r (hl _ (by simp)) ((input.drop (4 * fieldBytes f)).take (2 * fieldBytes f)) (by simp; omega)
  obtain ⟨h0, h1, h2⟩ := splits f input
  rw [h0.1, h0.2] at b0
  rw [h1.1, h1.2] at b1
  rw [h2.1, h2.2] at b2
  refine ⟨{k with pts := ⟨toMontgomery (primeOf f) y0, toMontgomery (primeOf f) y1, toMontgomery (primeOf f) y2⟩}, ?_, hp, hv, ?_, ?_, ?_⟩
  · rw [PublicKey.importKey, PublicKey.size, hp, if_neg (by rw [s3]; simpa using h)]
    simp only [s1, s2, show 2 * (2 * fieldBytes f) = 4 * fieldBytes f by ring, a0, a1, a2, pkg_of, s4, Option.bind_eq_bind, Option.bind_some]
  · simpa [coords] using b0
  · simpa [coords] using b1
  · simpa [coords] using b2

/-- C36 is false: for every field and variant there are a key made by importing one string into a new object, and a
second string, such that importing the second string into that key does not give the key that importing it into a new
object gives. -/
theorem c36_false (f : Fld) (v : W64) : ∃ (k0 k1 k2 k3 : PublicKey) (str1 str2 : List Byte),
    newPublicKey (idOf f) v = some k0 ∧ k0.importKey str1 = some (k1, true) ∧ k1.importKey str2 = some (k2, true) ∧
    k0.importKey str2 = some (k3, true) ∧
    ∀ out, out.length = 6 * fieldBytes f → k2.exportKey out ≠ k3.exportKey out := by
  obtain ⟨s1, s2, s3, s4, s5, s6⟩ := sizes f
  have hb : 0 < fieldBytes f := by cases f <;> decide
  have nz : NeZero f.p := ⟨by have := p_gt f; omega⟩
  obtain ⟨k0, e0, _, _, e1⟩ := c35_import f v (1 :: List.replicate (6 * fieldBytes f - 1) 0)
  obtain ⟨k1, e2, e3, _⟩ := e1 (by simp; omega)
  obtain ⟨k0', e0', _, _, e4⟩ := c35_import f v (List.replicate (6 * fieldBytes f) 0)
  obtain rfl : k0 = k0' := Option.some.inj (e0.symm.trans e0')
  obtain ⟨k3, e5, e6, _⟩ := e4 (by simp)
  obtain ⟨k2, e7, e8⟩ := c36_import_used_partial f v k1 e3.params e3.variant
    (by rintro x (rfl | rfl | rfl); exacts [⟨e3.p.lenA, e3.p.lenB⟩, ⟨e3.q.lenA, e3.q.lenB⟩, ⟨e3.r.lenA, e3.r.lenB⟩])
    (List.replicate (6 * fieldBytes f) 0) (by simp)
  refine ⟨k0, k1, k2, k3, _, _, e0, e2, e7, e5, fun out ho heq => ?_⟩
  rw [c35_export f v k2 _ _ _ e8 out ho, c35_export f v k3 _ _ _ e6 out ho] at heq
  have heq := congrArg (fun l => bval (l.take (fieldBytes f))) (Option.some.inj heq)
  simp only [List.append_assoc, List.take_left' (leBytes_length _ _), bval_leBytes] at heq
  rw [Nat.mod_eq_of_lt (lt_trans (ZMod.val_lt _) s6), Nat.mod_eq_of_lt (lt_trans (ZMod.val_lt _) s6)] at heq
  have zero : bval (List.replicate (fieldBytes f) (0 : Byte)) = 0 := by
    generalize fieldBytes f = n
    induction n with
    | zero => rfl
    | succ n ih => rw [List.replicate_succ, bval, ih]; rfl
  have z0 : (coords f (List.replicate (6 * fieldBytes f) 0)).getD 0 0 = 0 := by
    simp [coords, zero, List.take_replicate, Nat.min_eq_left (show fieldBytes f ≤ 6 * fieldBytes f by omega)]
    exact zero
  have o0 : (coords f (1 :: List.replicate (6 * fieldBytes f - 1) 0)).getD 0 0 = 1 := by
    obtain ⟨n, hn⟩ : ∃ n, fieldBytes f = n + 1 := ⟨fieldBytes f - 1, by omega⟩
    have zn : bval (List.replicate n (0 : Byte)) = 0 := by
      rw [hn, List.replicate_succ, bval] at zero
      omega
    simp [coords, hn, List.take_replicate, bval, Nat.min_eq_left (show n ≤ 6 * (n + 1) - 1 by omega)]
    exact zn
  rw [z0] at heq
  simp only [Nat.or_zero, Nat.cast_zero, ZMod.val_zero] at heq
  have h1 := e3.p.re
  rw [o0] at h1
  rw [h1] at heq
  simp only [Nat.cast_one, mul_one] at heq
  exact Lemmas.SidhFp2.R_ne f ((ZMod.val_eq_zero _).mp heq)

/-! ### C37 -/

/-- The bit length of the scalars of a variant and the number of bytes they are stored in. -/
def bitLen (f : Fld) (v : W64) : Nat := if v.getLsbD 0 then (paramsOf f).A.secretBitLen else (paramsOf f).B.secretBitLen
def byteLen (f : Fld) (v : W64) : Nat := if v.getLsbD 0 then (paramsOf f).A.secretByteLen else (paramsOf f).B.secretByteLen
/-- Random bytes drawn before the scalar. -/
def seedLen (f : Fld) (v : W64) : Nat := if v = 6 then (paramsOf f).msgLen else 0

theorem lens (f : Fld) (v : W64) : 0 < byteLen f v ∧ bitLen f v ≤ 8 * byteLen f v ∧ 8 * (byteLen f v - 1) ≤ bitLen f v ∧
    (bitLen f v % 8 = 0 ↔ f = .p434 ∧ v.getLsbD 0 = true) ∧ (bitLen f v % 8 ≠ 0 → bitLen f v / 8 = byteLen f v - 1) := by
  unfold byteLen bitLen
  cases f <;> cases v.getLsbD 0 <;> decide +kernel

/-- C37. On a random source with too few bytes `Generate` returns the error. -/
theorem c37_error (f : Fld) (v : W64) (k : PrivateKey) (hk : PrivOf f v k) (rng : List Byte) (h : rng.length < seedLen f v + byteLen f v) :
    ∃ k' rest, k.generate rng = some (k', rest, false) := by
  have hS : k.S.length = seedLen f v := hk.S
  have hs : k.scalar.length = byteLen f v := hk.scalar
  by_cases hv : v = 6
  · by_cases hr : seedLen f v ≤ rng.length
    · refine ⟨⟨k.params, v, goCopy k.scalar (rng.drop (seedLen f v)), goCopy k.S rng⟩, (rng.drop (seedLen f v)).drop (byteLen f v), ?_⟩
      rw [PrivateKey.generate, hk.variant, if_pos (show v = variantSike from hv)]
      simp only [readFull, hS, hs]
      rw [if_neg (by simp; omega), if_pos (by simp; omega)]
    · refine ⟨⟨k.params, v, k.scalar, goCopy k.S rng⟩, rng.drop (seedLen f v), ?_⟩
      rw [PrivateKey.generate, hk.variant, if_pos (show v = variantSike from hv)]
      simp only [readFull, hS, hs]
      rw [if_pos (by simp; omega)]
  · have : seedLen f v = 0 := if_neg hv
    refine ⟨⟨k.params, v, goCopy k.scalar rng, k.S⟩, rng.drop (byteLen f v), ?_⟩
    rw [PrivateKey.generate, hk.variant, if_neg (show ¬ v = variantSike from hv)]
    simp only [readFull, hS, hs, Bool.not_true, Bool.false_eq_true, if_false]
    rw [if_pos (by simp; omega)]

/-- The scalar made from `byteLen` random bytes. -/
def scalarOf (f : Fld) (v : W64) (bytes : List Byte) : List Byte :=
  bytes.dropLast ++ [topByte (bitLen f v) (bytes.getLastD 0)]

/-- C37. With enough random bytes `Generate` succeeds; S and the scalar are functions of the bytes drawn, whatever the
key object held before, and exactly those bytes are consumed. -/
theorem c37_function (f : Fld) (v : W64) (k : PrivateKey) (hk : PrivOf f v k) (rng : List Byte) (h : seedLen f v + byteLen f v ≤ rng.length) :
    ∃ k', k.generate rng = some (k', rng.drop (seedLen f v + byteLen f v), true) ∧ PrivOf f v k' ∧
      k'.S = rng.take (seedLen f v) ∧ k'.scalar = scalarOf f v ((rng.drop (seedLen f v)).take (byteLen f v)) := by
  have hS : k.S.length = seedLen f v := hk.S
  have hs : k.scalar.length = byteLen f v := hk.scalar
  obtain ⟨l1, _⟩ := lens f v
  have hbits : (if isA k.variant then k.params.A else k.params.B).secretBitLen = bitLen f v := by
    rw [hk.variant, hk.params, isA_eq, bitLen]
    split <;> rfl
  have hset : ∀ l : List Byte, l.length = byteLen f v → l.set (l.length - 1) (topByte (bitLen f v) (l.getD (l.length - 1) 0)) = scalarOf f v l := by
    intro l hl
    have hne : l ≠ [] := by intro h0; rw [h0] at hl; simp at hl; omega
    obtain ⟨l', x, rfl⟩ : ∃ l' x, l = l' ++ [x] := ⟨l.dropLast, l.getLast hne, (List.dropLast_append_getLast hne).symm⟩
    simp [scalarOf]
  have hsc : ∀ l : List Byte, l.length = byteLen f v → (scalarOf f v l).length = byteLen f v := by
    intro l hl; simp [scalarOf, hl]; omega
  have hcopy : ∀ (dst src : List Byte), dst.length ≤ src.length → goCopy dst src = src.take dst.length := by
    intro dst src hh; rw [goCopy, List.drop_eq_nil_of_le hh, List.append_nil]
  by_cases hv : v = 6
  · have e1 : goCopy k.S rng = rng.take (seedLen f v) := by rw [hcopy _ _ (by omega), hS]
    have e2 : goCopy k.scalar (rng.drop (seedLen f v)) = (rng.drop (seedLen f v)).take (byteLen f v) := by
      rw [hcopy _ _ (by simp; omega), hs]
    have lt : ((rng.drop (seedLen f v)).take (byteLen f v)).length = byteLen f v := by simp; omega
    refine ⟨{k with S := rng.take (seedLen f v), scalar := scalarOf f v ((rng.drop (seedLen f v)).take (byteLen f v))}, ?_, ?_, rfl, rfl⟩
    · rw [PrivateKey.generate]
      simp only [hbits]
      rw [hk.variant, if_pos (show v = variantSike from hv)]
      simp only [readFull, hS, hs, e1, e2]
      rw [if_neg (by simp; omega), if_neg (by simp; omega), if_neg (by rw [lt]; omega), hset _ lt, List.drop_drop]
    · exact ⟨hk.params, hk.variant, hsc _ lt, by rw [← hk.S, hS]; simp; omega⟩
  · have s0 : seedLen f v = 0 := if_neg hv
    have e2 : goCopy k.scalar rng = rng.take (byteLen f v) := by
      rw [hcopy _ _ (by omega), hs]
    have lt : (rng.take (byteLen f v)).length = byteLen f v := by simp; omega
    have hS0 : k.S = [] := by rw [← List.length_eq_zero_iff]; omega
    rw [s0, List.drop_zero, List.take_zero, Nat.zero_add]
    refine ⟨{k with scalar := scalarOf f v (rng.take (byteLen f v))}, ?_, ?_, hS0, rfl⟩
    · rw [PrivateKey.generate]
      simp only [hbits]
      rw [hk.variant, if_neg (show ¬ v = variantSike from hv)]
      simp only [readFull, hs, e2, Bool.not_true, Bool.false_eq_true, if_false]
      rw [if_neg (by simp; omega), if_neg (by omega), hset _ lt]
    · exact ⟨hk.params, hk.variant, hsc _ lt, hk.S⟩

theorem bval_append (a b : List Byte) : bval (a ++ b) = bval a + 256 ^ a.length * bval b := by
  induction a with
  | nil => simp [bval]
  | cons x a ih => rw [List.cons_append, bval, ih, bval, List.length_cons, Nat.pow_succ]; ring

/-- C37. The scalar as a number: the random bytes taken modulo 2^(bits−1), with bit `bits`−1 set — so it lies in the
documented range [2^(bits−1), 2^bits) — for every variant except 2-torsion keys over p434. -/
theorem c37_range (f : Fld) (v : W64) (hf : ¬ (f = .p434 ∧ v.getLsbD 0 = true)) (bytes : List Byte) (h : bytes.length = byteLen f v) :
    bval (scalarOf f v bytes) = 2 ^ (bitLen f v - 1) + bval bytes % 2 ^ (bitLen f v - 1) ∧
    2 ^ (bitLen f v - 1) ≤ bval (scalarOf f v bytes) ∧ bval (scalarOf f v bytes) < 2 ^ bitLen f v := by
  obtain ⟨l1, l2, l3, l4, l5⟩ := lens f v
  have h8 : bitLen f v % 8 ≠ 0 := fun h => hf (l4.mp h)
  have l6 := l5 h8
  have hne : bytes ≠ [] := by intro h0; rw [h0] at h; simp at h; omega
  obtain ⟨l', x, rfl⟩ : ∃ l' x, bytes = l' ++ [x] := ⟨bytes.dropLast, bytes.getLast hne, (List.dropLast_append_getLast hne).symm⟩
  have hl' : l'.length = byteLen f v - 1 := by simp at h; omega
  have htop : ∀ m < 8, 0 < m → ∀ x : Byte, (topByte m x).toNat = 2 ^ (m - 1) + x.toNat % 2 ^ (m - 1) := by
    intro m hm h0; interval_cases m <;> decide +kernel
  have htm : topByte (bitLen f v) x = topByte (bitLen f v % 8) x := by simp [topByte]
  have hm : bitLen f v - 1 = 8 * l'.length + (bitLen f v % 8 - 1) := by omega
  have hb := bval_lt l'
  have e1 : bval (scalarOf f v (l' ++ [x])) = bval l' + 256 ^ l'.length * (2 ^ (bitLen f v % 8 - 1) + x.toNat % 2 ^ (bitLen f v % 8 - 1)) := by
    rw [scalarOf, List.dropLast_concat, bval_append]
    simp only [List.getLastD_concat]
    rw [htm, show bval [topByte (bitLen f v % 8) x] = (topByte (bitLen f v % 8) x).toNat by simp [bval], htop _ (by omega) (by omega)]
  have p1 : 2 ^ (bitLen f v - 1) = 256 ^ l'.length * 2 ^ (bitLen f v % 8 - 1) := by
    rw [hm, Nat.pow_add, Nat.pow_mul]
  have e2 : bval (l' ++ [x]) % 2 ^ (bitLen f v - 1) = bval l' + 256 ^ l'.length * (x.toNat % 2 ^ (bitLen f v % 8 - 1)) := by
    rw [p1, bval_append, show bval [x] = x.toNat by simp [bval], Nat.mod_mul, Nat.add_mul_mod_self_left, Nat.mod_eq_of_lt hb,
      Nat.add_mul_div_left _ _ (by positivity), Nat.div_eq_of_lt hb, Nat.zero_add]
  have e3 : bval (scalarOf f v (l' ++ [x])) = 2 ^ (bitLen f v - 1) + bval (l' ++ [x]) % 2 ^ (bitLen f v - 1) := by
    rw [e1, e2, p1]; ring
  refine ⟨e3, by omega, ?_⟩
  have : bval (l' ++ [x]) % 2 ^ (bitLen f v - 1) < 2 ^ (bitLen f v - 1) := Nat.mod_lt _ (by positivity)
  have : 2 ^ bitLen f v = 2 * 2 ^ (bitLen f v - 1) := by
    rw [← Nat.pow_succ', show (bitLen f v - 1).succ = bitLen f v by omega]
  omega

/-- C37. For 2-torsion keys over p434 the last byte is cleared: the scalar is the first 27 random bytes, below
2^SecretBitLen. -/
theorem c37_p434A_partial (v : W64) (hv : v.getLsbD 0 = true) (bytes : List Byte) (h : bytes.length = byteLen .p434 v) :
    bval (scalarOf .p434 v bytes) = bval bytes % 2 ^ 216 ∧ bval (scalarOf .p434 v bytes) < 2 ^ bitLen .p434 v := by
  have hb : bitLen .p434 v = 216 := by rw [bitLen, hv]; rfl
  have hl : byteLen .p434 v = 28 := by rw [byteLen, hv]; rfl
  rw [hl] at h
  have hne : bytes ≠ [] := by intro h0; rw [h0] at h; simp at h
  obtain ⟨l', x, rfl⟩ : ∃ l' x, bytes = l' ++ [x] := ⟨bytes.dropLast, bytes.getLast hne, (List.dropLast_append_getLast hne).symm⟩
  have hl' : l'.length = 27 := by simp at h; omega
  have hlt := bval_lt l'
  have htop : ∀ x : Byte, topByte 216 x = 0 := by decide +kernel
  rw [hb, scalarOf, hb, List.dropLast_concat, htop, bval_append, bval_append, hl']
  rw [hl'] at hlt
  rw [show (256 : Nat) ^ 27 = 2 ^ 216 by norm_num] at *
  have : bval [(0 : Byte)] = 0 := rfl
  rw [this, Nat.mul_zero, Nat.add_zero, Nat.add_mul_mod_self_left, Nat.mod_eq_of_lt hlt]
  exact ⟨rfl, hlt⟩

/-- C37 is false for 2-torsion keys over p434: the documented key space starts at 2^(e2−1), but a generated key can be
the scalar 0. -/
theorem c37_p434A_false : ∃ (k k' : PrivateKey) (rng rest : List Byte), newPrivateKey (idOf .p434) 1 = some k ∧
    k.generate rng = some (k', rest, true) ∧ bval k'.scalar = 0 ∧ ¬ 2 ^ (bitLen .p434 1 - 1) ≤ bval k'.scalar := by
  refine ⟨⟨params434, 1, List.replicate 28 0, []⟩, ⟨params434, 1, List.replicate 28 0, []⟩, List.replicate 28 0, [], rfl, ?_, ?_, ?_⟩
  · rfl
  · decide +kernel
  · decide +kernel

/-- C37. The package-level wrapper `GeneratePrivateKey` drops the error: with an empty random source the key object is
left as it was and the caller is not told. -/
theorem c37_wrapper_false (f : Fld) (v : W64) : ∃ k, newPrivateKey (idOf f) v = some k ∧ ∃ k', generatePrivateKey k [] = some (k', []) ∧ bval k'.scalar = 0 := by
  have z : ∀ n, bval (List.replicate n (0 : Byte)) = 0 := by
    intro n
    induction n with
    | zero => rfl
    | succ n ih => rw [List.replicate_succ, bval, ih]; rfl
  obtain ⟨k, h1, h2⟩ := c34_new f v
  refine ⟨k, h1, ?_⟩
  have hs : k.scalar = List.replicate (byteLen f v) 0 := by
    rw [newPrivateKey, (c33_std 0).2.1] at h1
    have := Option.some.inj h1
    rw [← this, isA_eq, byteLen]
  have h0 : 0 < byteLen f v := (lens f v).1
  have hg : goCopy k.scalar [] = k.scalar := by simp [goCopy]
  have hg' : goCopy k.S [] = k.S := by simp [goCopy]
  by_cases hv : v = 6
  · have hm : 0 < k.S.length := by rw [h2.S, if_pos hv]; cases f <;> decide
    refine ⟨k, ?_, by rw [hs, z]⟩
    rw [generatePrivateKey, PrivateKey.generate, h2.variant, if_pos (show v = variantSike from hv)]
    simp only [readFull, hg', List.length_nil, List.drop_nil]
    rw [if_pos (by simpa using List.ne_nil_of_length_pos hm), ← h2.variant]
    rfl
  · refine ⟨k, ?_, by rw [hs, z]⟩
    rw [generatePrivateKey, PrivateKey.generate, h2.variant, if_neg (show ¬ v = variantSike from hv)]
    simp only [readFull, hg, List.length_nil, List.drop_nil, Bool.not_true, Bool.false_eq_true, if_false]
    rw [if_pos (by simp [hs]; omega), ← h2.variant]
    rfl

/-- Non-vacuity of `c37_range`: a generated SIKE key over p503. -/
example : bval (scalarOf .p503 6 (List.replicate 32 0xff)) = 2 ^ 252 - 1 ∧ bval (scalarOf .p503 6 (List.replicate 32 0)) = 2 ^ 251 := by
  decide +kernel

/-! ### C52 -/

/-- C52. `GeneratePublicKey` panics when the variants or the fields differ and returns otherwise; only the points of the
public key object change. -/
theorem c52_publicKey (f g : Fld) (v w : W64) (k : PrivateKey) (hk : PrivOf f v k) (pub : PublicKey) (hp : pub.params = paramsOf g) (hv : pub.variant = w) :
    ((w ≠ v ∨ g ≠ f) → k.generatePublicKey pub = none) ∧
    (w = v → g = f → ∃ pub', k.generatePublicKey pub = some pub' ∧ pub'.params = pub.params ∧ pub'.variant = pub.variant) := by
  have hid : (paramsOf g).id = (paramsOf f).id ↔ g = f := by cases f <;> cases g <;> decide
  constructor
  · intro h
    rw [PrivateKey.generatePublicKey, if_pos]
    rw [hk.variant, hv, hk.params, hp]
    rcases h with h | h
    · exact Or.inl h
    · exact Or.inr fun e => h (hid.mp e)
  · rintro rfl rfl
    rw [PrivateKey.generatePublicKey, if_neg (by rw [hk.variant, hv, hk.params, hp]; simp), hk.params, pkg_of, hk.variant]
    simp only [Option.bind_eq_bind, Option.bind_some]
    have hg : paramsOf g = params434 ∨ paramsOf g = params503 ∨ paramsOf g = params751 := by cases g <;> simp [paramsOf]
    have hsc := hk.scalar
    rw [isA_eq]
    cases hA : w.getLsbD 0 with
    | true =>
      rw [hA] at hsc
      obtain ⟨t, ht⟩ := publicKeyGenA_total (limbOps (paramsOf g).prime) (paramsOf g).curve k.scalar (stratA_ok _ hg) (by
        rw [hsc]; cases g <;> decide)
      exact ⟨{pub with pts := t}, by simp [ht], rfl, rfl⟩
    | false =>
      rw [hA] at hsc
      obtain ⟨t, ht⟩ := publicKeyGenB_total (limbOps (paramsOf g).prime) (paramsOf g).curve k.scalar (stratB_ok _ hg) (by
        rw [hsc]; cases g <;> decide)
      exact ⟨{pub with pts := t}, by simp [ht], rfl, rfl⟩

/-- C52. `DeriveSecret` panics when the variants agree or the fields differ, and also when the buffer is too small;
otherwise it returns, for every public key, whatever its points. -/
theorem c52_derive (f g : Fld) (v w : W64) (k : PrivateKey) (hk : PrivOf f v k) (pub : PublicKey) (hp : pub.params = paramsOf g) (hv : pub.variant = w)
    (ss : List Byte) :
    ((w = v ∨ g ≠ f) → k.deriveSecret ss pub = none) ∧
    (w ≠ v → g = f → ss.length < 2 * fieldBytes f → k.deriveSecret ss pub = none) ∧
    (w ≠ v → g = f → 2 * fieldBytes f ≤ ss.length → ∃ ss', k.deriveSecret ss pub = some ss' ∧ ss'.length = ss.length ∧
      ss'.drop (2 * fieldBytes f) = ss.drop (2 * fieldBytes f)) := by
  have hid : (paramsOf g).id = (paramsOf f).id ↔ g = f := by cases f <;> cases g <;> decide
  have hg : paramsOf f = params434 ∨ paramsOf f = params503 ∨ paramsOf f = params751 := by cases f <;> simp [paramsOf]
  have main : w ≠ v → g = f → ∃ j, k.deriveSecret ss pub = fp2ToBytes ss (fromMontgomery (primeOf f) j) (fieldBytes f) := by
    rintro h rfl
    rw [PrivateKey.deriveSecret, if_neg (by rw [hk.variant, hv, hk.params, hp]; simp [h]), hk.params, pkg_of, hk.variant]
    simp only [Option.bind_eq_bind, Option.bind_some]
    have hsc := hk.scalar
    rw [isA_eq, deriveSecretPkg, (sizes g).2.1, (sizes g).2.2.2.1]
    cases hA : v.getLsbD 0 with
    | true =>
      rw [hA] at hsc
      obtain ⟨t, ht⟩ := deriveA_total (limbOps (primeOf g)) (paramsOf g).curve k.scalar pub.pts (stratA_ok _ hg) (by
        rw [hsc]; cases g <;> decide)
      exact ⟨t, by simp [ht]⟩
    | false =>
      rw [hA] at hsc
      obtain ⟨t, ht⟩ := deriveB_total (limbOps (primeOf g)) (paramsOf g).curve k.scalar pub.pts (stratB_ok _ hg) (by
        rw [hsc]; cases g <;> decide)
      exact ⟨t, by simp [ht]⟩
  refine ⟨?_, ?_, ?_⟩
  · intro h
    rw [PrivateKey.deriveSecret, if_pos]
    rw [hk.variant, hv, hk.params, hp]
    rcases h with h | h
    · exact Or.inl h
    · exact Or.inr fun e => h (hid.mp e)
  · intro h1 h2 h3
    obtain ⟨j, hj⟩ := main h1 h2
    rw [hj, (c32_toBytes _ _ _).1 h3]
  · intro h1 h2 h3
    obtain ⟨j, hj⟩ := main h1 h2
    refine ⟨_, by rw [hj, (c32_toBytes _ _ _).2 h3], ?_, ?_⟩
    · simp [leBytes_length]; omega
    · rw [List.drop_left']
      simp [leBytes_length]; omega

/-- Non-vacuity of C52: key objects of all fields and variants exist. -/
example (f : Fld) (v w : W64) : ∃ k pub, PrivOf f v k ∧ newPublicKey (idOf f) w = some pub ∧ pub.params = paramsOf f ∧ pub.variant = w := by
  obtain ⟨k, _, hk⟩ := c34_new f v
  exact ⟨k, _, hk, newPublicKey_eq f w, rfl, rfl⟩

end Props.SidhKeys
