import Verif.Model.CsidhAmd64
import Verif.Spec.Asm
import Verif.Lemmas.AsmCertCsidh
import Verif.Lemmas.AsmSwap
import Verif.Lemmas.AsmKeccak
/- The certificates of the CSIDH routines put together. -/
namespace Lemmas.AsmCsidh
open Model Model.Asm Model.Csidh Spec Spec.Asm Lemmas.Limb Lemmas.CsidhArith Lemmas.AsmCall Lemmas.AsmFam Lemmas.AsmFamCsidh Lemmas.AsmCertCsidh

theorem returns_of {R : Routine} {data : List (List W64)} {args : List Arg} {zb : Nat} {res z : List W64} (hz : data[zb]? = some z)
    (hl : z.length = res.length) (h : GivesA R data args zb [] true res) : Returns R data args (data.set zb res) := by
  intro junk fr bp fp hf
  obtain ⟨data', bp', h1, h2, h3⟩ := h junk fr bp fp hf
  rw [h1, h3 rfl]
  congr 2
  refine List.ext_getElem? fun b => ?_
  rw [List.getElem?_map, List.getElem?_set]
  by_cases hb : zb = b
  · subst hb
    have hlt : zb < data.length := (List.getElem?_eq_some_iff.mp hz).1
    rw [if_pos rfl, if_pos hlt, h2.out z hz, List.drop_of_length_le (by omega), List.append_nil]
    rfl
  · rw [if_neg hb]
    rcases hd : data[b]? with _ | d
    · have : data'[b]? = none := by
        rw [List.getElem?_eq_none_iff] at hd ⊢
        rw [h2.len]; exact hd
      rw [this]; rfl
    · rw [h2.keep b d (Ne.symm hb) (by simp) hd]; rfl

theorem words_w (d : List W64) : CsidhAmd64.wordsOf (d.map .w) = some d := by
  induction d with
  | nil => rfl
  | cons x d ih => rw [List.map_cons, CsidhAmd64.wordsOf, ih]; rfl

theorem arrays_w (ds : List (List W64)) : CsidhAmd64.arraysOf (ds.map fun d => d.map .w) = some ds := by
  induction ds with
  | nil => rfl
  | cons d ds ih => rw [List.map_cons, CsidhAmd64.arraysOf, words_w, ih]

variable {z x y : List W64}

theorem mul512_hv (m : W64) (lx : x.length = 8) : val (mul512 x m) = val x * m.toNat % 2 ^ (64 * 8) := (mul512_spec x m lx).2

theorem mul576_hv (m : W64) (lx : x.length = 8) : val (mul576 x m) = val x * m.toNat % 2 ^ (64 * 9) := by
  obtain ⟨h1, h2⟩ := mul576_spec x m lx
  have := val_lt (mul576 x m)
  rw [h1] at this
  rw [← h2, Nat.mod_eq_of_lt this]

theorem mul512_base (m : W64) (lz : z.length = 8) (lx : x.length = 8) :
    Returns AsmCsidh.mul512 [z, x] [.arr 0, .arr 1, .num m] [mul512 x m, x] := by
  have h := mul1_ok (R := AsmCsidh.mul512) (C := AsmCertCsidh.C.mul512) (data := [z, x]) (x := x) AsmCertCsidh.mul512_ok
    (by simp only [List.map_cons, List.map_nil, lz, lx]; rfl) rfl lx m (mul512_spec x m lx).1 (mul512_hv m lx)
  exact returns_of (zb := 0) (z := z) rfl (by rw [lz, (mul512_spec x m lx).1]) h

theorem mul512_base_zx (m : W64) (lx : x.length = 8) : Returns AsmCsidh.mul512 [x] [.arr 0, .arr 0, .num m] [mul512 x m] := by
  have h := mul1_ok (R := AsmCsidh.mul512) (C := AsmCertCsidh.C.mul512_zx) (data := [x]) (x := x) AsmCertCsidh.mul512_zx_ok
    (by simp only [List.map_cons, List.map_nil, lx]; rfl) rfl lx m (mul512_spec x m lx).1 (mul512_hv m lx)
  exact returns_of (zb := 0) (z := x) rfl (by rw [lx, (mul512_spec x m lx).1]) h

theorem mul512_b (m : W64) (lz : z.length = 8) (lx : x.length = 8) :
    Returns AsmCsidh.mul512_bmi2 [z, x] [.arr 0, .arr 1, .num m] [mul512 x m, x] := by
  have h := mul1_ok (R := AsmCsidh.mul512_bmi2) (C := AsmCertCsidh.C.mul512_bmi2) (data := [z, x]) (x := x) AsmCertCsidh.mul512_bmi2_ok
    (by simp only [List.map_cons, List.map_nil, lz, lx]; rfl) rfl lx m (mul512_spec x m lx).1 (mul512_hv m lx)
  exact returns_of (zb := 0) (z := z) rfl (by rw [lz, (mul512_spec x m lx).1]) h

theorem mul512_b_zx (m : W64) (lx : x.length = 8) : Returns AsmCsidh.mul512_bmi2 [x] [.arr 0, .arr 0, .num m] [mul512 x m] := by
  have h := mul1_ok (R := AsmCsidh.mul512_bmi2) (C := AsmCertCsidh.C.mul512_bmi2_zx) (data := [x]) (x := x) AsmCertCsidh.mul512_bmi2_zx_ok
    (by simp only [List.map_cons, List.map_nil, lx]; rfl) rfl lx m (mul512_spec x m lx).1 (mul512_hv m lx)
  exact returns_of (zb := 0) (z := x) rfl (by rw [lx, (mul512_spec x m lx).1]) h

theorem mul576_ret (m : W64) (lz : z.length = 9) (lx : x.length = 8) :
    Returns AsmCsidh.mul576 [z, x] [.arr 0, .arr 1, .num m] [mul576 x m, x] := by
  have h := mul1_ok (R := AsmCsidh.mul576) (C := AsmCertCsidh.C.mul576) (data := [z, x]) (x := x) AsmCertCsidh.mul576_ok
    (by simp only [List.map_cons, List.map_nil, lz, lx]; rfl) rfl lx m (mul576_spec x m lx).1 (mul576_hv m lx)
  exact returns_of (zb := 0) (z := z) rfl (by rw [lz, (mul576_spec x m lx).1]) h

theorem bmi (lz : z.length = 8) (lx : x.length = 8) (ly : y.length = 8) (lm : (mulGeneric x y).length = 8) :
    Returns AsmCsidh.mulBmi [z, x, y] [.arr 0, .arr 1, .arr 2] [mulGeneric x y, x, y] := by
  have h := mulBmi_ok (R := AsmCsidh.mulBmi) (C := AsmCertCsidh.C.mulBmi) (data := [z, x, y]) (x := x) (y := y) AsmCertCsidh.mulBmi_ok
    (by simp only [List.map_cons, List.map_nil, lz, lx, ly]; rfl) rfl rfl lx ly
  exact returns_of (zb := 0) (z := z) rfl (by rw [lz, lm]) h

theorem bmi_zx (lx : x.length = 8) (ly : y.length = 8) (lm : (mulGeneric x y).length = 8) :
    Returns AsmCsidh.mulBmi [x, y] [.arr 0, .arr 0, .arr 1] [mulGeneric x y, y] := by
  have h := mulBmi_ok (R := AsmCsidh.mulBmi) (C := AsmCertCsidh.C.mulBmi_zx) (data := [x, y]) (x := x) (y := y) AsmCertCsidh.mulBmi_zx_ok
    (by simp only [List.map_cons, List.map_nil, lx, ly]; rfl) rfl rfl lx ly
  exact returns_of (zb := 0) (z := x) rfl (by rw [lx, lm]) h

theorem bmi_zy (lx : x.length = 8) (ly : y.length = 8) (lm : (mulGeneric x y).length = 8) :
    Returns AsmCsidh.mulBmi [y, x] [.arr 0, .arr 1, .arr 0] [mulGeneric x y, x] := by
  have h := mulBmi_ok (R := AsmCsidh.mulBmi) (C := AsmCertCsidh.C.mulBmi_zy) (data := [y, x]) (x := x) (y := y) AsmCertCsidh.mulBmi_zy_ok
    (by simp only [List.map_cons, List.map_nil, lx, ly]; rfl) rfl rfl lx ly
  exact returns_of (zb := 0) (z := y) rfl (by rw [ly, lm]) h

theorem bmi_xy (lz : z.length = 8) (lx : x.length = 8) (lm : (mulGeneric x x).length = 8) :
    Returns AsmCsidh.mulBmi [z, x] [.arr 0, .arr 1, .arr 1] [mulGeneric x x, x] := by
  have h := mulBmi_ok (R := AsmCsidh.mulBmi) (C := AsmCertCsidh.C.mulBmi_xy) (data := [z, x]) (x := x) (y := x) AsmCertCsidh.mulBmi_xy_ok
    (by simp only [List.map_cons, List.map_nil, lz, lx]; rfl) rfl rfl lx lx
  exact returns_of (zb := 0) (z := z) rfl (by rw [lz, lm]) h

theorem bmi_zxy (lx : x.length = 8) (lm : (mulGeneric x x).length = 8) :
    Returns AsmCsidh.mulBmi [x] [.arr 0, .arr 0, .arr 0] [mulGeneric x x] := by
  have h := mulBmi_ok (R := AsmCsidh.mulBmi) (C := AsmCertCsidh.C.mulBmi_zxy) (data := [x]) (x := x) (y := x) AsmCertCsidh.mulBmi_zxy_ok
    (by simp only [List.map_cons, List.map_nil, lx]; rfl) rfl rfl lx lx
  exact returns_of (zb := 0) (z := x) rfl (by rw [lx, lm]) h

/-- The product has 8 words, whatever the operands. -/
theorem mulGeneric_len (lx : x.length = 8) (ly : y.length = 8) : (mulGeneric x y).length = 8 := by
  rw [mulGeneric_fold x y lx ly]; exact fold_length y ly _ _ List.length_replicate

theorem bmi_all (a : Alias) (lz : z.length = 8) (lx : x.length = 8) (ly : y.length = 8) :
    Returns AsmCsidh.mulBmi (a.data z x y) (a.args.map .arr) ((a.data z x y).set 0 (mulGeneric x (a.snd x y))) := by
  cases a
  · exact bmi lz lx ly (mulGeneric_len lx ly)
  · exact bmi_zx lx ly (mulGeneric_len lx ly)
  · exact bmi_zy lx ly (mulGeneric_len lx ly)
  · exact bmi_xy lz lx (mulGeneric_len lx lx)
  · exact bmi_zxy lx (mulGeneric_len lx lx)

end Lemmas.AsmCsidh
