import Verif.Lemmas.SM3Stream
import Verif.Model.SM3Calls
/-!
Properties of hash/sm3 (C14-C19).  Model: `Verif/Model/SM3*.lean`; specification: `Verif/Spec/SM3.lean`.
-/
namespace Props.SM3
open Model Model.SM3 Lemmas.SM3

/-! ### Every history -/

/-- The data written since the last Reset. -/
def data : List Byte → List Call → List Byte
  | m, [] => m
  | m, .write p :: cs => data (m ++ p) cs
  | m, .sum _ :: cs => data m cs
  | _, .reset :: cs => data [] cs

/-- What the calls return, in terms of the data written and the SM3 function. -/
def results : List Byte → List Call → List Res
  | _, [] => []
  | m, .write p :: cs =>
    .wrote (if p.length + m.length % 64 < 64 then 0 else p.length - (64 - m.length % 64)) :: results (m ++ p) cs
  | m, .sum b :: cs => .summed (Spec.SM3.hash (m ++ b)) :: results m cs
  | _, .reset :: cs => .unit :: results [] cs

theorem run_spec (cs : List Call) : ∀ {d : Digest} {m : List Byte}, Absorbed d m →
    ∃ d', run d cs = some (d', results m cs) ∧ Absorbed d' (data m cs) := by
  induction cs with
  | nil => intro d m h; exact ⟨d, rfl, h⟩
  | cons c cs ih =>
    intro d m h
    cases c with
    | write p =>
      obtain ⟨d1, h1, h2⟩ := write_spec h p
      obtain ⟨d', g1, g2⟩ := ih h2
      refine ⟨d', ?_, g2⟩
      simp [run, call, h1, g1, results, writeCount]
    | sum b =>
      obtain ⟨d', g1, g2⟩ := ih h
      refine ⟨d', ?_, g2⟩
      simp [run, call, sum_spec h, g1, results]
    | reset =>
      obtain ⟨d', g1, g2⟩ := ih (absorbed_reset h.bLen)
      refine ⟨d', ?_, g2⟩
      simp [run, call, g1, results]

/-- Every history of calls on a new object: no panic, and these results. -/
theorem c14_history (cs : List Call) : (run new cs).map (·.2) = some (results [] cs) := by
  obtain ⟨d, h, -⟩ := run_spec cs absorbed_new
  rw [h]; rfl

theorem run_append (a b : List Call) (d : Digest) :
    run d (a ++ b) = (run d a).bind fun (d, r) => (run d b).map fun (d, r') => (d, r ++ r') := by
  induction a generalizing d with
  | nil => simp [run]
  | cons c a ih =>
    simp only [List.cons_append, run, Option.bind_eq_bind]
    cases call d c with
    | none => rfl
    | some x =>
      simp only [Option.bind_some, ih]
      cases run x.1 a with
      | none => rfl
      | some y =>
        simp only [Option.bind_some]
        cases run y.1 b <;> simp

theorem results_append (a b : List Call) (m : List Byte) : results m (a ++ b) = results m a ++ results (data m a) b := by
  induction a generalizing m with
  | nil => rfl
  | cons c a ih => cases c <;> simp [results, data, ih]

theorem data_writes (ws : List (List Byte)) (m : List Byte) : data m (ws.map .write) = m ++ ws.flatten := by
  induction ws generalizing m with
  | nil => simp [data]
  | cons w ws ih => simp [data, ih]

theorem results_last (a : List Call) (c : Call) (m : List Byte) :
    (results m (a ++ [c])).getLast? = (results (data m a) [c]).getLast? := by
  rw [results_append]
  cases c <;> simp [results]

/-- C14.  After any history and a Reset, writing a message in any pieces and calling Sum(nil) gives
its SM3 digest. -/
theorem c14_stream (h : List Call) (ws : List (List Byte)) :
    ∃ d rs, run new (h ++ [.reset] ++ ws.map .write ++ [.sum []]) = some (d, rs) ∧
      rs.getLast? = some (.summed (Spec.SM3.hash ws.flatten)) := by
  obtain ⟨d, g, -⟩ := run_spec (h ++ [.reset] ++ ws.map .write ++ [.sum []]) absorbed_new
  refine ⟨d, _, g, ?_⟩
  rw [results_last]
  have : data [] (h ++ [Call.reset] ++ ws.map .write) = ws.flatten := by
    clear g
    suffices ∀ m, data m (h ++ [Call.reset] ++ ws.map .write) = ws.flatten from this _
    induction h with
    | nil => intro m; simp [data, data_writes]
    | cons c h ih => intro m; simp only [List.cons_append]; cases c <;> exact ih _
  rw [this]; simp [results]

/-- C14 for a new object. -/
theorem c14_stream_new (ws : List (List Byte)) :
    ∃ d rs, run new (ws.map .write ++ [.sum []]) = some (d, rs) ∧
      rs.getLast? = some (.summed (Spec.SM3.hash ws.flatten)) := by
  obtain ⟨d, g, -⟩ := run_spec (ws.map .write ++ [.sum []]) absorbed_new
  refine ⟨d, _, g, ?_⟩
  rw [results_last, data_writes]; simp [results]

/-- The digest of "abc" written in two pieces, as printed in GB/T 32905-2016 A.1. -/
example : (run new [.write [0x61], .write [0x62, 0x63], .sum []]).map (fun x => x.2.getLast?) =
    some (some (.summed
      [0x66, 0xc7, 0xf0, 0xf4, 0x62, 0xee, 0xed, 0xd9, 0xd1, 0xf2, 0xd4, 0x6b, 0xdc, 0x10, 0xe4, 0xe2,
       0x41, 0x67, 0xc4, 0x87, 0x5c, 0xf2, 0xf7, 0xa2, 0x29, 0x7d, 0xa0, 0x2b, 0x8f, 0x4b, 0xa8, 0xe0])) := by
  decide +kernel

/-! ### C15 -/

/-- The first `n` 64-byte blocks of a byte string. -/
def blocks (input : List Byte) : Nat → List (List Byte)
  | 0 => []
  | n + 1 => input.take 64 :: blocks (input.drop 64) n

theorem compressFrom_blocks (n : Nat) : ∀ (h : Vector W32 8) (input : List Byte) (i : Nat), (i + n) * 64 ≤ input.length →
    ∃ h', compressFrom h input i n = some h' ∧
      toRegs h' = (blocks (input.drop (i * 64)) n).foldl Spec.SM3.CF (toRegs h) := by
  induction n with
  | zero => intro h input i _; exact ⟨h, rfl, rfl⟩
  | succ n ih =>
    intro h input i hl
    obtain ⟨w, hw1, hw2⟩ := loadBlock_spec (input.drop (i * 64)) (by rw [List.length_drop]; omega)
    obtain ⟨h', g1, g2⟩ := ih (compress1 h w) input (i + 1) (by omega)
    refine ⟨h', ?_, ?_⟩
    · rw [compressFrom, sliceFrom, if_pos (by omega)]
      simp [hw1, g1]
    · rw [g2, compress1_eq h w _ hw2, blocks, List.foldl_cons, List.drop_drop]
      congr 3
      omega

/-- C15.  `compress(input, n)` folds the SM3 compression function over the first `n` blocks of the
input, for every chaining value, and changes nothing else. -/
theorem c15_compress (d : Digest) (input : List Byte) (n : Nat) (h : n * 64 ≤ input.length) :
    ∃ h', compress d input n = some { d with h := h' } ∧
      toRegs h' = (blocks input n).foldl Spec.SM3.CF (toRegs d.h) := by
  obtain ⟨h', g1, g2⟩ := compressFrom_blocks n d.h input 0 (by omega)
  exact ⟨h', by rw [compress, g1]; rfl, by simpa using g2⟩

/-- On less than `n` blocks `compress` panics. -/
theorem c15_short (d : Digest) (input : List Byte) (n : Nat) (h : input.length < n * 64) :
    compress d input n = none := by
  have key : ∀ n h i, input.length < (i + n) * 64 → i * 64 ≤ input.length → compressFrom h input i n = none := by
    intro n
    induction n with
    | zero => intro h i h1 h2; omega
    | succ n ih =>
      intro h i h1 h2
      rw [compressFrom, sliceFrom, if_pos h2]
      simp only [Option.bind_eq_bind, Option.bind_some]
      by_cases h3 : (i + 1) * 64 ≤ input.length
      · cases loadBlock (input.drop (i * 64)) with
        | none => rfl
        | some w => simpa using ih _ (i + 1) (by omega) h3
      · have hb : loadBlock (input.drop (i * 64)) = none := by
          have hl : (input.drop (i * 64)).length < 64 := by rw [List.length_drop]; omega
          generalize input.drop (i * 64) = blk at *
          rw [loadBlock]
          have : (List.range 16).mapM (fun k => (sliceFrom blk (4 * k)).bind loadBe32) = none := by
            rw [show List.range 16 = List.range 15 ++ [15] from rfl, List.mapM_append]
            have h15 : (sliceFrom blk (4 * 15)).bind loadBe32 = none := by
              rw [sliceFrom]
              split
              · simp only [Option.bind_some]
                have : (blk.drop (4 * 15)).length < 4 := by rw [List.length_drop]; omega
                generalize blk.drop (4 * 15) = x at *
                match x, this with
                | [], _ | [_], _ | [_, _], _ | [_, _, _], _ => rfl
              · rfl
            cases (List.range 15).mapM fun k => (sliceFrom blk (4 * k)).bind loadBe32 with
            | none => rfl
            | some l => simp [h15]
          simp only [Option.bind_eq_bind]
          rw [this]; rfl
        rw [hb]; rfl
  rw [compress, key n d.h 0 (by omega) (by omega)]; rfl

/-- One block of zeros under the zero chaining value: hypotheses met, value not trivial. -/
example : 1 * 64 ≤ (List.replicate 64 (0 : Byte)).length ∧
    (compress { h := Vector.replicate 8 0, len := 0, b := [] } (List.replicate 64 0) 1).map (fun d => d.h.get 0) ≠ some 0 := by
  decide +kernel

/-! ### C16 -/

/-- C16.  A Sum between two call sequences changes no other result: the second sequence returns what
it would have returned without it. -/
theorem c16_sum_pure (h1 h2 : List Call) (b : List Byte) :
    ∃ d r rs1 rs2, run new (h1 ++ [.sum b] ++ h2) = some (d, rs1 ++ [.summed r] ++ rs2) ∧
      run new (h1 ++ h2) = some (d, rs1 ++ rs2) ∧ rs1.length = h1.length := by
  obtain ⟨d1, g1, a1⟩ := run_spec h1 absorbed_new
  obtain ⟨d2, g2, -⟩ := run_spec h2 a1
  refine ⟨d2, Spec.SM3.hash (data [] h1 ++ b), results [] h1, results (data [] h1) h2, ?_, ?_, ?_⟩
  · rw [run_append, run_append, g1]
    simp [run, call, sum_spec a1, g2]
  · rw [run_append, g1]; simp [g2]
  · clear g1 g2 a1
    generalize ([] : List Byte) = m
    induction h1 generalizing m with
    | nil => rfl
    | cons c h ih => cases c <;> simp [results, ih]

/-- C16, the object itself: Sum leaves every field as it was. -/
theorem c16_state (d d' : Digest) (b : List Byte) (r : Res) (h : call d (.sum b) = some (d', r)) : d' = d := by
  simp only [call, Option.map_eq_some_iff] at h
  obtain ⟨_, _, h⟩ := h
  exact (Prod.mk.inj h).1.symm

/-- C16, twice the same digest. -/
theorem c16_repeat (h : List Call) (b : List Byte) :
    ∃ d rs r, run new (h ++ [.sum b, .sum b]) = some (d, rs ++ [r, r]) := by
  obtain ⟨d1, g1, a1⟩ := run_spec h absorbed_new
  exact ⟨d1, results [] h, .summed (Spec.SM3.hash (data [] h ++ b)), by
    rw [run_append, g1]; simp [run, call, sum_spec a1]⟩

/-! ### C17 -/

/-- C17, proved part: Write never fails and everything in `p` is absorbed (Sum(nil) afterwards is the
digest of the data including all of `p`).  Missing: the count; `c17_full_false`. -/
theorem c17_write_partial (h : List Call) (p : List Byte) :
    ∃ d n rs, run new (h ++ [.write p, .sum []]) =
      some (d, rs ++ [.wrote n, .summed (Spec.SM3.hash (data [] h ++ p))]) := by
  obtain ⟨d1, g1, a1⟩ := run_spec h absorbed_new
  obtain ⟨d2, w1, a2⟩ := write_spec a1 p
  refine ⟨d2, writeCount ((data [] h).length % 64) p.length, results [] h, ?_⟩
  rw [run_append, g1]
  simp [run, call, w1, sum_spec a2]

/-- The count `Write` does return: 0 when the data fits the block buffer, else the number of bytes
after the one that filled it. -/
theorem c17_count (h : List Call) (p : List Byte) :
    ∃ d rs, run new (h ++ [.write p]) = some (d, rs) ∧
      rs.getLast? = some (.wrote (if p.length + (data [] h).length % 64 < 64 then 0
        else p.length - (64 - (data [] h).length % 64))) := by
  obtain ⟨d, g, -⟩ := run_spec (h ++ [.write p]) absorbed_new
  exact ⟨d, _, g, by rw [results_last]; simp [results]⟩

/-- C17 is false: the count is never right for a non-empty `p`. -/
theorem c17_full_false (h : List Call) (p : List Byte) (hp : p ≠ []) :
    ∃ d rs n, run new (h ++ [.write p]) = some (d, rs) ∧ rs.getLast? = some (.wrote n) ∧ n < p.length := by
  obtain ⟨d, rs, g1, g2⟩ := c17_count h p
  refine ⟨d, rs, _, g1, g2, ?_⟩
  have h1 : 0 < p.length := List.length_pos_iff.mpr hp
  have h2 := Nat.mod_lt (data [] h).length (show 0 < 64 by decide)
  split <;> omega

example : (run new [.write [1, 2, 3]]).map (·.2) = some [.wrote 0] := by decide +kernel
example : (run new [.write (List.replicate 100 7)]).map (·.2) = some [.wrote 36] := by decide +kernel

/-! ### C18 -/

/-- C18, what is true: Sum(b) is the digest of the data followed by `b`; with b = nil it is as
documented.  Missing: the appending, which is false (`c18_full_false`). -/
theorem c18_sum_partial (h : List Call) (b : List Byte) :
    ∃ d rs, run new (h ++ [.sum b]) = some (d, rs) ∧
      rs.getLast? = some (.summed (Spec.SM3.hash (data [] h ++ b))) := by
  obtain ⟨d, g, -⟩ := run_spec (h ++ [.sum b]) absorbed_new
  exact ⟨d, _, g, by rw [results_last]; simp [results]⟩

theorem hash_length (m : List Byte) : (Spec.SM3.hash m).length = 32 := rfl

/-- C18 is false for every history and every non-empty `b`: the length is always 32. -/
theorem c18_full_false (h : List Call) (b : List Byte) (hb : b ≠ []) :
    ∃ d rs r, run new (h ++ [.sum b]) = some (d, rs) ∧ rs.getLast? = some (.summed r) ∧
      r ≠ b ++ Spec.SM3.hash (data [] h) := by
  obtain ⟨d, rs, g1, g2⟩ := c18_sum_partial h b
  refine ⟨d, rs, _, g1, g2, fun e => ?_⟩
  have := congrArg List.length e
  rw [List.length_append, hash_length, hash_length] at this
  have h1 : 0 < b.length := List.length_pos_iff.mpr hb
  omega

example : ([1] : List Byte) ≠ [] := by decide

/-! ### C19 -/

/-- C19.  After any history, Reset and then any calls: the same results as from a new object. -/
theorem c19_reset (h cs : List Call) :
    ∃ d d' rs rs', run new (h ++ [.reset]) = some (d, rs) ∧ run d cs = some (d', rs') ∧
      (run new cs).map (·.2) = some rs' := by
  obtain ⟨d0, g, a⟩ := run_spec h absorbed_new
  have a' := absorbed_reset a.bLen
  obtain ⟨d', g', -⟩ := run_spec cs a'
  refine ⟨_, d', results [] h ++ [.unit], _, ?_, g', c14_history cs⟩
  rw [run_append, g]; rfl

/-- The reset object is not the new object (the buffer keeps old bytes), so C19 has content. -/
example : (run new [.write [1, 2, 3], .reset]).map (·.1) ≠ some new := by decide +kernel

end Props.SM3
