import Verif.Lemmas.Slices
import Verif.Props.DRBG
import Verif.Props.SidhKeys
/-!
C112–C114: what the calls do with the memory behind a slice's length and with overlapping arguments.  The model is
`Verif/Model/Slices.lean`.
-/
namespace Props.Slices
open Model Model.Slices Lemmas.Slices

/-! ### C112 -/
section
open Model.Sha3 Spec.Sponge Spec.Sha3 Lemmas.Sha3

/-- The bytes the specification object delivers at `Sum` after the calls `h`. -/
def digestAfter (i : Inst) (h : List Call) : List Byte :=
  let o := (calls i.rate i.suffix i.digestLen (.absorbing []) h).1.pos
  Spec.Keccak.spongeBytes Spec.Keccak.keccakF i.rate i.suffix o.1 o.2 i.digestLen

theorem digestAfter_length (i : Inst) (h : List Call) : (digestAfter i h).length = i.digestLen := by
  unfold digestAfter
  simp [Spec.Keccak.spongeBytes]

/-- What a `Sum` in the middle of a history leads to, for the calls after it. -/
theorem after_sum {P : Plat} (hP : Supported P) (i : Inst) (h ks : List Call) (b : List Byte) {c : State}
    (hc : Squeezing c (calls i.rate i.suffix i.digestLen (.absorbing []) h).1.pos.1
      ((calls i.rate i.suffix i.digestLen (.absorbing []) h).1.pos.2 + i.digestLen)) (hp : SameParams (new i) c) :
    (callsModel P c ks).map (·.2) = (callsModel P (new i) (h ++ .sum b :: ks)).map (fun y => y.2.drop (h.length + 1)) := by
  obtain ⟨c1, e1, -, -⟩ := calls_sim hP.good ks (c := c) (o := .squeezing _ _) hc
  obtain ⟨c2, e2, -, -⟩ := history hP i (h ++ .sum b :: ks)
  rw [e1, e2, calls_append, hp.1, hp.2.1, hp.2.2, (new_params i).1, (new_params i).2.1, (new_params i).2.2]
  simp only [Option.map_some, calls, call]
  have hl : ∀ (o : Obj) (h : List Call), (calls i.rate i.suffix i.digestLen o h).2.length = h.length := by
    intro o h
    induction h generalizing o with
    | nil => rfl
    | cons a h ih => simp only [calls, List.length_cons, ih]
  rw [List.drop_append, hl, List.drop_eq_nil_of_le (by rw [hl]; omega), List.nil_append, Nat.add_sub_cancel_left, List.drop_succ_cons, List.drop_zero]

/-- C112. `Sum(in)` after any calls `h`, for a slice with any memory behind its length: the result is `in` followed by the
digest.  The caller's memory is written if it has room for the digest after `in`, and then only there; otherwise it is not
written at all.  Later calls see what they would see after a `Sum` of the elements of `in`. -/
theorem c112_sum {P : Plat} (hP : Supported P) (i : Inst) (h : List Call) (s : Slice) :
    ∃ c x r, callsModel P (new i) h = some (c, x) ∧ sumC P c (some s) = some r ∧
      r.result = s.bytes ++ digestAfter i h ∧
      (s.len + i.digestLen ≤ s.mem.length → r.mem = s.bytes ++ digestAfter i h ++ s.mem.drop (s.len + i.digestLen)) ∧
      (s.mem.length < s.len + i.digestLen → r.mem = s.mem) ∧
      ∀ ks, (callsModel P r.st ks).map (·.2) = (callsModel P (new i) (h ++ .sum s.bytes :: ks)).map (fun y => y.2.drop (h.length + 1)) := by
  obtain ⟨c, h1, h2, h3⟩ := history hP i h
  have hd : c.dsize = i.digestLen := by rw [h3.2.1, (new_params i).2.2]
  have hr : c.rate = i.rate := by rw [h3.1, (new_params i).1]
  have hx : c.sfx = i.suffix := by rw [h3.2.2, (new_params i).2.1]
  obtain ⟨c', g1, g2, g3⟩ := sumC_eq hP.good h2 (some s) (digestAfter i h) (by rw [hd, hr, hx]; rfl)
  rw [hd] at g1 g3
  refine ⟨c, _, _, h1, g3, rfl, ?_, ?_, fun ks => after_sum hP i h ks _ g1 (h3.trans g2)⟩
  · intro hle
    exact if_neg (by omega)
  · intro hlt
    exact if_pos hlt

/-- C112. `Sum(nil)` gives the digest, and later calls see what they would see after a `Sum` of an empty slice. -/
theorem c112_nil {P : Plat} (hP : Supported P) (i : Inst) (h : List Call) :
    ∃ c x r, callsModel P (new i) h = some (c, x) ∧ sumC P c none = some r ∧ r.result = digestAfter i h ∧
      ∀ ks, (callsModel P r.st ks).map (·.2) = (callsModel P (new i) (h ++ .sum [] :: ks)).map (fun y => y.2.drop (h.length + 1)) := by
  obtain ⟨c, h1, h2, h3⟩ := history hP i h
  have hd : c.dsize = i.digestLen := by rw [h3.2.1, (new_params i).2.2]
  have hr : c.rate = i.rate := by rw [h3.1, (new_params i).1]
  have hx : c.sfx = i.suffix := by rw [h3.2.2, (new_params i).2.1]
  obtain ⟨c', g1, g2, g3⟩ := sumC_eq hP.good h2 none (digestAfter i h) (by rw [hd, hr, hx]; rfl)
  rw [hd] at g1
  exact ⟨c, _, _, h1, g3, rfl, fun ks => after_sum hP i h ks _ g1 (h3.trans g2)⟩

/-- C112. After writing a message to a new SHA-3 object the digest is the one of FIPS 202. -/
theorem c112_digest (m : List Byte) : digestAfter .sha3_256 [.write m] = Spec.Keccak.sha3_256 m := rfl

/-- A slice of two elements with memory for the digest and three more bytes behind, and one with too little. -/
example : ∃ s : Slice, s.bytes = [1, 2] ∧ s.len + Inst.sha3_256.digestLen < s.mem.length :=
  ⟨⟨[1, 2] ++ List.replicate 35 7, 2, by decide⟩, rfl, by decide⟩
example : ∃ s : Slice, s.bytes = [1, 2] ∧ s.mem.length < s.len + Inst.sha3_256.digestLen ∧ s.len < s.mem.length :=
  ⟨⟨[1, 2] ++ List.replicate 31 7, 2, by decide⟩, rfl, by decide, by decide⟩

end

/-! ### C113 -/
section
open Model.Sidh Spec Spec.Sidh Lemmas.SidhBytes Lemmas.SidhTrace Lemmas.SidhGood Props.SidhFp2 Props.SidhKeys

/-- The encoding of a field element in the wire format: real part, then imaginary part, little endian. -/
def encElt (f : Fld) (a : Fq f) : List Byte := leBytes (fieldBytes f) a.re.val ++ leBytes (fieldBytes f) a.im.val

theorem encElt_length (f : Fld) (a : Fq f) : (encElt f a).length = 2 * fieldBytes f := by
  rw [encElt, List.length_append, leBytes_length, leBytes_length]; omega

/-- The encoding of a public key. -/
def encKey (f : Fld) (P Q R : Fq f) : List Byte := encElt f P ++ encElt f Q ++ encElt f R

/-- C113. What `Export` does for a slice with any memory behind its length: with room for the key up to the capacity it
returns and has written the key at the start; otherwise it panics, and has written as many of the three coordinates as
there is room for.  The length of the slice plays no role. -/
theorem c113_export (f : Fld) (v : W64) (k : PublicKey) (P Q R : Fq f) (hk : PubOf f v k P Q R) (s : Slice) :
    exportC k s = (((([P, Q, R].take (s.mem.length / (2 * fieldBytes f))).map (encElt f)).flatten ++
        s.mem.drop (2 * fieldBytes f * min 3 (s.mem.length / (2 * fieldBytes f)))), decide (6 * fieldBytes f ≤ s.mem.length)) := by
  obtain ⟨s1, s2, s3, s4, s5, s6⟩ := sizes f
  have hpos : 0 < 2 * fieldBytes f := by cases f <;> decide
  have e : ∀ (x : Fp2) (a : Fq f), IsElt f x a →
      leBytes (fieldBytes f) (val (fromMontgomery (primeOf f) x).A) ++ leBytes (fieldBytes f) (val (fromMontgomery (primeOf f) x).B) = encElt f a := by
    intro x a hx
    rw [(c45_from f x a hx).1, (c45_from f x a hx).2, encElt]
  rw [exportC, hk.params, pkg_of]
  simp only
  rw [s1, s2, s4, exportParts_eq (2 * fieldBytes f) (fieldBytes f) hpos
    (fun x => leBytes (fieldBytes f) (val x.A) ++ leBytes (fieldBytes f) (val x.B)) _ 0 s.mem ?_ (by omega)]
  · rw [Prod.mk.injEq, Nat.zero_mul, Nat.sub_zero]
    refine ⟨?_, by simp only [List.length_cons, List.length_nil]; congr 2; omega⟩
    rw [List.map_take, List.map_take]
    simp only [List.map_cons, List.map_nil, e _ _ hk.p, e _ _ hk.q, e _ _ hk.r]
    rw [putAt, List.take_zero, List.nil_append, Nat.zero_add]
    congr 2
    have := encElt_length f
    rcases hm : s.mem.length / (2 * fieldBytes f) with _ | _ | _ | m <;> simp [this] <;> omega
  · intro x _
    refine ⟨by rw [List.length_append, leBytes_length, leBytes_length]; omega, ?_⟩
    intro out ho
    rw [(c32_toBytes _ _ _).2 (by omega), List.drop_eq_nil_of_le (by omega), List.append_nil]

/-- C113, what holds: with a slice at least as long as the key `Export` returns, has written the key at its start, and no
other byte of the slice or behind it changes.  Missing: for a shorter slice the claim that nothing behind its length is
written is false (`c113_full_false`). -/
theorem c113_within_partial (f : Fld) (v : W64) (k : PublicKey) (P Q R : Fq f) (hk : PubOf f v k P Q R) (s : Slice)
    (hs : 6 * fieldBytes f ≤ s.len) :
    exportC k s = (encKey f P Q R ++ s.mem.drop (6 * fieldBytes f), true) ∧
    ∀ j, s.len ≤ j → (exportC k s).1[j]? = s.mem[j]? := by
  have hl := s.fits
  have hpos : 0 < 2 * fieldBytes f := by cases f <;> decide
  have hd : 3 ≤ s.mem.length / (2 * fieldBytes f) := (Nat.le_div_iff_mul_le hpos).mpr (by omega)
  have e : exportC k s = (encKey f P Q R ++ s.mem.drop (6 * fieldBytes f), true) := by
    rw [c113_export f v k P Q R hk s, decide_eq_true (by omega), List.take_of_length_le (by simpa using hd), Nat.min_eq_left hd]
    simp only [List.map_cons, List.map_nil, List.flatten_cons, List.flatten_nil, List.append_nil, encKey, List.append_assoc]
    rw [show 2 * fieldBytes f * 3 = 6 * fieldBytes f by omega]
  refine ⟨e, ?_⟩
  intro j hj
  have hk6 : (encKey f P Q R).length = 6 * fieldBytes f := by
    simp only [encKey, List.length_append, encElt_length]; omega
  rw [e]
  simp only
  rw [List.getElem?_append_right (by omega), hk6, List.getElem?_drop]
  congr 1
  omega

/-- C113, the full claim is false, for every key of the three fields: `Export` into a slice without elements, but with
capacity for the key, returns, and may have changed each byte behind the slice's length. -/
theorem c113_full_false (f : Fld) (v : W64) (k : PublicKey) (P Q R : Fq f) (hk : PubOf f v k P Q R) :
    ∃ s : Slice, s.bytes = [] ∧ s.mem.length = 6 * fieldBytes f ∧
      ∃ mem, exportC k s = (mem, true) ∧ ∀ j, j < 6 * fieldBytes f → mem[j]? ≠ s.mem[j]? := by
  have hk6 : (encKey f P Q R).length = 6 * fieldBytes f := by
    simp only [encKey, List.length_append, encElt_length]; omega
  have hpos : 0 < 2 * fieldBytes f := by cases f <;> decide
  let s : Slice := ⟨(encKey f P Q R).map (· + 1), 0, Nat.zero_le _⟩
  have hl : s.mem.length = 6 * fieldBytes f := by rw [← hk6]; exact List.length_map _
  have hd : s.mem.length / (2 * fieldBytes f) = 3 := by
    rw [hl, show 6 * fieldBytes f = 3 * (2 * fieldBytes f) by omega, Nat.mul_div_cancel _ hpos]
  refine ⟨s, rfl, hl, encKey f P Q R, ?_, ?_⟩
  · rw [c113_export f v k P Q R hk s, hd, decide_eq_true (by omega), show min 3 3 = 3 from rfl, List.drop_eq_nil_of_le (by omega)]
    simp [encKey]
  · intro j hj
    rw [← hk6] at hj
    rw [show s.mem[j]? = (encKey f P Q R)[j]?.map (· + 1) from List.getElem?_map .., List.getElem?_eq_getElem hj]
    generalize (encKey f P Q R)[j] = b
    simp only [Option.map_some, ne_eq, Option.some.injEq]
    revert b
    decide +kernel

/-- C113. A slice with room for one coordinate only, up to its capacity: `Export` panics after having written it. -/
theorem c113_panic_writes (f : Fld) (v : W64) (k : PublicKey) (P Q R : Fq f) (hk : PubOf f v k P Q R) (s : Slice)
    (hs : s.mem.length = 2 * fieldBytes f) : exportC k s = (encElt f P, false) := by
  have hpos : 0 < 2 * fieldBytes f := by cases f <;> decide
  rw [c113_export f v k P Q R hk s, hs, Nat.div_self hpos, decide_eq_false (by omega), show min 3 1 = 1 from rfl, List.drop_eq_nil_of_le (by omega)]
  simp

example (f : Fld) (v : W64) (P Q R : Fq f) : ∃ k, PubOf f v k P Q R := by
  obtain ⟨x, hx⟩ := c43_total f P
  obtain ⟨y, hy⟩ := c43_total f Q
  obtain ⟨z, hz⟩ := c43_total f R
  exact ⟨⟨paramsOf f, v, ⟨x, y, z⟩⟩, rfl, rfl, hx, hy, hz⟩

end

/-! ### C114 -/
section
open Model.DRBG Props.DRBG

/-- C114. `ReadWithAdditionalData(out, ad)` when `out` and `ad` are any two parts of the same memory, disjoint or not: `out`
gets what it would get from a copy of `ad`, no other byte changes, and the generator's state is the same. -/
theorem c114_overlap (hw : Bool) (c : CtrDrbg) (hc : Reached hw c) (mem : List Byte) (o n a k : Nat) (ho : o + n ≤ mem.length)
    (ha : a + k ≤ mem.length) :
    ∃ c' out, readAD c ((mem.drop o).take n) ((mem.drop a).take k) = some (c', out, n) ∧ out.length = n ∧
      readADM c mem o n a k = some (c', mem.take o ++ out ++ mem.drop (o + n)) := by
  obtain ⟨_, s, k', hi, hr⟩ := reached_inv hc
  have hn : ((mem.drop o).take n).length = n := by rw [List.length_take, List.length_drop]; omega
  obtain ⟨c', out, h1, h2, _⟩ := c26_whole_blocks_partial hw c hc ((mem.drop o).take n) ((mem.drop a).take k)
  rw [hn] at h1 h2
  refine ⟨c', out, h1, h2, ?_⟩
  rw [readADM_eq hi mem o n a k ho]
  unfold window
  rw [h1, Option.map_some, putAt, h2]

example (hw : Bool) : ∃ c, Reached hw c := by
  obtain ⟨c, rs, h⟩ := c25_no_panic hw [] [] [.read [0, 0, 0] [1]]
  exact ⟨c, [], [], _, rs, h⟩

end
end Props.Slices
