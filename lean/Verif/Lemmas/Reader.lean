import Verif.Spec.Source
/-!
`io.ReadFull` on any reader.
-/
namespace Lemmas.Reader
open Model Model.Reader Spec.Source

variable {σ : Type} {R : Reader σ}

theorem Delivers.trans {s s' s'' : σ} {d d' : List Byte} (h : Delivers R s d s') (h' : Delivers R s' d' s'') : Delivers R s (d ++ d') s'' := by
  induction h with
  | nothing s => exact h'
  | more hr _ ih => rw [List.append_assoc]; exact .more hr (ih h')

theorem gather_any (hl : Lawful R) (s : σ) (buf : List Byte) (n : Nat) (r : List Byte × Nat × σ) (h : gather R s buf n = some r) :
    n ≤ buf.length → ∃ d, Delivers R s d r.2.2 ∧ r.2.1 = n + d.length ∧ r.2.1 ≤ buf.length ∧ r.1.length = buf.length ∧
      r.1.take r.2.1 = buf.take n ++ d := by
  refine gather.partial_correctness R (fun s buf n r => n ≤ buf.length → ∃ d, Delivers R s d r.2.2 ∧ r.2.1 = n + d.length ∧ r.2.1 ≤ buf.length ∧
      r.1.length = buf.length ∧ r.1.take r.2.1 = buf.take n ++ d) ?_ s buf n r h
  clear h r n buf s
  intro g ih s buf n r h hn
  by_cases hlt : n < buf.length
  · rw [if_pos hlt] at h
    cases hx : R.read s (buf.drop n) with
    | none => rw [hx] at h; simp at h
    | some x =>
      obtain ⟨m, e, p', s'⟩ := x
      obtain ⟨l1, l2⟩ := hl _ _ _ _ _ _ hx
      rw [List.length_drop] at l1 l2
      rw [hx] at h
      simp only [Option.bind_eq_bind, Option.bind_some] at h
      have hlen : (buf.take n ++ p').length = buf.length := by rw [List.length_append, List.length_take]; omega
      have htk : (buf.take n ++ p').take (n + m) = buf.take n ++ p'.take m := by
        rw [List.take_append, List.take_of_length_le (by rw [List.length_take]; omega), List.length_take,
          show n + m - min n buf.length = m by omega]
      cases e with
      | true =>
        simp only [if_true] at h
        cases h
        refine ⟨p'.take m ++ [], .more hx (.nothing _), ?_, by simp only; omega, hlen, ?_⟩
        · simp only [List.append_nil, List.length_take]; omega
        · simp only [List.append_nil]; exact htk
      | false =>
        simp only [Bool.false_eq_true, if_false] at h
        obtain ⟨d, a1, a2, a3, a4, a5⟩ := ih _ _ _ _ h (by rw [hlen]; omega)
        refine ⟨p'.take m ++ d, .more hx a1, ?_, by rw [hlen] at a3; exact a3, by rw [a4, hlen], ?_⟩
        · rw [a2, List.length_append, List.length_take]; omega
        · rw [a5, htk, List.append_assoc]
  · rw [if_neg hlt] at h
    cases h
    exact ⟨[], .nothing _, by simp, hn, rfl, by simp⟩

/-- `io.ReadFull` on any reader: the bytes delivered, never more than asked for. -/
theorem readFull_any (hl : Lawful R) (s : σ) (buf : List Byte) (r : List Byte × Bool × σ) (h : readFull R s buf = some r) :
    ∃ d, Delivers R s d r.2.2 ∧ r.1.length = buf.length ∧ d.length ≤ buf.length ∧ (r.2.1 = true → r.1 = d) ∧
      (r.2.1 = false → d.length < buf.length) := by
  rw [readFull] at h
  cases hg : gather R s buf 0 with
  | none => rw [hg] at h; simp at h
  | some x =>
    rw [hg] at h
    simp only [Option.bind_eq_bind, Option.bind_some, Option.some.injEq] at h
    obtain ⟨d, a1, a2, a3, a4, a5⟩ := gather_any hl s buf 0 x hg (Nat.zero_le _)
    subst h
    simp only [Nat.zero_add] at a2
    refine ⟨d, a1, a4, by omega, ?_, ?_⟩
    · intro h
      have h := of_decide_eq_true h
      have : x.1.take x.2.1 = x.1 := List.take_of_length_le (by omega)
      rw [this, List.take_zero, List.nil_append] at a5
      exact a5
    · intro h
      have h := of_decide_eq_false h
      omega

theorem gather_serves {left : σ → List Byte} {idle : σ → Nat} (hs : Serves R left idle) (k i : Nat) :
    ∀ s (buf : List Byte) (n : Nat), buf.length - n = k → idle s = i → n ≤ buf.length →
    ∃ s', gather R s buf n = some (buf.take n ++ goCopy (buf.drop n) (left s), n + min (buf.length - n) (left s).length, s') ∧
      left s' = (left s).drop (buf.length - n) := by
  induction k using Nat.strongRecOn generalizing i with
  | _ k ihk =>
    induction i using Nat.strongRecOn with
    | _ i ihi =>
      intro s buf n hk hi hn
      rw [gather]
      by_cases hlt : n < buf.length
      · rw [if_pos hlt]
        obtain ⟨m, e, s', h1, h2, h3, h4, h5, h6⟩ := hs s (buf.drop n) (by rw [List.length_drop]; omega)
        rw [h1]
        rw [List.length_drop] at h2
        simp only [Option.bind_eq_bind, Option.bind_some]
        have hlen : (buf.take n ++ ((left s).take m ++ (buf.drop n).drop m)).length = buf.length := by
          simp only [List.length_append, List.length_take, List.length_drop]; omega
        have htk : (buf.take n ++ ((left s).take m ++ (buf.drop n).drop m)).take (n + m) = buf.take n ++ (left s).take m := by
          rw [← List.append_assoc, List.take_left' (by simp only [List.length_append, List.length_take]; omega)]
        have hdr : (buf.take n ++ ((left s).take m ++ (buf.drop n).drop m)).drop (n + m) = buf.drop (n + m) := by
          rw [← List.append_assoc, List.drop_left' (by simp only [List.length_append, List.length_take]; omega), List.drop_drop]
        cases e with
        | true =>
          simp only [if_true]
          have h5 := h5 rfl
          rw [h4] at h5
          have hm : (left s).length ≤ m := by simpa using h5
          have hm' : (left s).length = m := by omega
          refine ⟨s', ?_, ?_⟩
          · have e1 : goCopy (buf.drop n) (left s) = (left s).take m ++ (buf.drop n).drop m := by
              rw [goCopy, List.take_of_length_le (by rw [List.length_drop]; omega), List.take_of_length_le (by omega), hm']
            rw [e1, hm', show min (buf.length - n) m = m by omega]
          · rw [h4, h5, List.drop_eq_nil_of_le (by omega)]
        | false =>
          simp only [Bool.false_eq_true, if_false]
          have key : ∃ s'', gather R s' (buf.take n ++ ((left s).take m ++ (buf.drop n).drop m)) (n + m) =
              some ((buf.take n ++ (left s).take m) ++ goCopy (buf.drop (n + m)) (left s'), n + m + min (buf.length - (n + m)) (left s').length, s'') ∧
              left s'' = (left s').drop (buf.length - (n + m)) := by
            rcases Nat.eq_zero_or_pos m with h0 | h0
            · have := ihi (idle s') (hi ▸ h6 h0 rfl) s' (buf.take n ++ ((left s).take m ++ (buf.drop n).drop m)) (n + m) (by rw [hlen]; omega) rfl (by rw [hlen]; omega)
              rw [hlen, htk, hdr] at this
              exact this
            · have := ihk (buf.length - (n + m)) (by omega) (idle s') s' (buf.take n ++ ((left s).take m ++ (buf.drop n).drop m)) (n + m) (by rw [hlen]) rfl (by rw [hlen]; omega)
              rw [hlen, htk, hdr] at this
              exact this
          obtain ⟨s'', k1, k2⟩ := key
          refine ⟨s'', ?_, ?_⟩
          · rw [k1]
            have e1 : goCopy (buf.drop n) (left s) = (left s).take m ++ goCopy (buf.drop (n + m)) (left s') := by
              rw [goCopy, goCopy, h4, List.length_drop, List.length_drop, List.drop_drop, List.length_drop, ← List.append_assoc,
                List.drop_drop, show n + m + ((left s).length - m) = n + (left s).length by omega]
              congr 1
              rw [show buf.length - n = m + (buf.length - (n + m)) by omega, List.take_add]
            rw [e1, List.append_assoc, h4, List.length_drop]
            congr 3
            omega
          · rw [k2, h4, List.drop_drop, show m + (buf.length - (n + m)) = buf.length - n by omega]
      · rw [if_neg hlt]
        have : n = buf.length := by omega
        subst this
        refine ⟨s, ?_, by simp⟩
        simp [goCopy]

/-- `io.ReadFull` on a reader that hands out given bytes in pieces: as if the bytes were there at once. -/
theorem readFull_serves {left : σ → List Byte} {idle : σ → Nat} (hs : Serves R left idle) (s : σ) (buf : List Byte) :
    ∃ s', readFull R s buf = some (goCopy buf (left s), decide (buf.length ≤ (left s).length), s') ∧ left s' = (left s).drop buf.length := by
  obtain ⟨s', h1, h2⟩ := gather_serves hs _ _ s buf 0 rfl rfl (Nat.zero_le _)
  refine ⟨s', ?_, by simpa using h2⟩
  rw [readFull, h1]
  simp only [Option.bind_eq_bind, Option.bind_some, List.take_zero, List.nil_append, List.drop_zero, Nat.sub_zero, Nat.zero_add]
  congr 3
  rw [decide_eq_decide]
  omega

end Lemmas.Reader
