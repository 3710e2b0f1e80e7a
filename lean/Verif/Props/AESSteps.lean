import Verif.Lemmas.AESSteps
import Verif.Props.AES
/-!
C117: the steps of the portable AES.  `encryptT` and `decryptT` (`Verif/Model/AESSteps.lean`) are `Encrypt` and `Decrypt` together with the
list of everything an observer sees: outcomes of conditions, indices into the key schedule, indices into the tables.  `blur` forgets the
indices into the tables.
-/
namespace Props.AESSteps
open Model Model.AES Model.AES.Steps Model.Steps Lemmas.Steps Lemmas.AES Lemmas.AESSteps Props.AES

/-- Recording the steps changes no result. -/
theorem c117_value (c : AES) (dst src : List Byte) :
    (encryptT c dst src).val = c.encrypt dst src ∧ (decryptT c dst src).val = c.decrypt dst src :=
  ⟨encryptT_val c dst src, decryptT_val c dst src⟩

/-- The full statement: with keys of the same length, the steps are the same for all keys and blocks. -/
def StepsHideAll : Prop := ∀ (k k' : List Byte) (c c' : AES) (dst src src' : List Byte), Legal k → k.length = k'.length →
  AES.new.setKey k = some (c, none) → AES.new.setKey k' = some (c', none) → dst.length = 16 → src.length = 16 → src'.length = 16 →
  (encryptT c dst src).log = (encryptT c' dst src').log

theorem key_len {c c' : AES} {key : List Byte} (h : c.setKey key = some (c', none)) :
    Holds c' key ∧ (c'.enc.take (c'.keyLen + 28)).length = key.length + 28 ∧ (c'.dec.take (c'.keyLen + 28)).length = key.length + 28 := by
  by_cases hk : Legal key
  · obtain ⟨c2, h1, h2⟩ := setKey_ok c key hk
    rw [h1] at h
    obtain rfl : c2 = c' := by simpa using h
    obtain ⟨nk, e1, e2, e3, e4, e5⟩ := id h2
    refine ⟨h2, ?_, ?_⟩
    · rw [e4.1, e1]; omega
    · rw [e5.1, e1]; omega
  · rw [setKey_bad c key hk] at h
    simp at h

/-- Proved part: whatever the keys, of one length, and whatever the blocks, the steps differ in indices into tables only; there are as
many of them, in the same places. -/
theorem c117_steps_partial (o o' c c' : AES) (k k' dst dst' src src' : List Byte) (hl : k.length = k'.length)
    (h : o.setKey k = some (c, none)) (h' : o'.setKey k' = some (c', none)) (hd : 16 ≤ dst.length) (hd' : 16 ≤ dst'.length)
    (hs : 16 ≤ src.length) (hs' : 16 ≤ src'.length) :
    (encryptT c dst src).log.map blur = (encryptT c' dst' src').log.map blur ∧
    (decryptT c dst src).log.map blur = (decryptT c' dst' src').log.map blur := by
  obtain ⟨-, e1, e2⟩ := key_len h
  obtain ⟨-, e1', e2'⟩ := key_len h'
  have d1 : decide (src.length < 16) = false := decide_eq_false (by omega)
  have d2 : decide (src'.length < 16) = false := decide_eq_false (by omega)
  have d3 : decide (dst.length < 16) = false := decide_eq_false (by omega)
  have d4 : decide (dst'.length < 16) = false := decide_eq_false (by omega)
  constructor
  · rw [encryptT, encryptT, if_neg (by omega), if_neg (by omega), if_neg (by omega), if_neg (by omega), d1, d2, d3, d4]
    refine (relB_bind (R := fun _ _ => True) (S := fun _ _ => True) ⟨rfl, .some trivial⟩ fun _ _ _ =>
      relB_bind (R := fun _ _ => True) ⟨rfl, .some trivial⟩ fun _ _ _ => ?_).1
    exact relB_bind (cryptBlockT_relB _ _ _ _ (fun _ _ _ => rfl) (fun _ _ _ => rfl) (by rw [e1, e1', hl]) hs hs') fun _ _ _ => ⟨rfl, .some trivial⟩
  · rw [decryptT, decryptT, if_neg (by omega), if_neg (by omega), if_neg (by omega), if_neg (by omega), d1, d2, d3, d4]
    refine (relB_bind (R := fun _ _ => True) (S := fun _ _ => True) ⟨rfl, .some trivial⟩ fun _ _ _ =>
      relB_bind (R := fun _ _ => True) ⟨rfl, .some trivial⟩ fun _ _ _ => ?_).1
    exact relB_bind (cryptBlockT_relB _ _ _ _ (fun _ _ _ => rfl) (fun _ _ _ => rfl) (by rw [e2, e2', hl]) hs hs') fun _ _ _ => ⟨rfl, .some trivial⟩

theorem encrypt_log {c : AES} {dst src : List Byte} (hd : 16 ≤ dst.length) (hs : 16 ≤ src.length) :
    (encryptT c dst src).log = [.test false, .test false] ++
      (cryptBlockT encMid encLast encMidLog encLastLog (c.enc.take (c.keyLen + 28)) src).log := by
  rw [encryptT, if_neg (by omega), if_neg (by omega), decide_eq_false (by omega : ¬ src.length < 16),
    decide_eq_false (by omega : ¬ dst.length < 16)]
  change _ :: _ :: _ = _
  generalize cryptBlockT encMid encLast encMidLog encLastLog (c.enc.take (c.keyLen + 28)) src = m
  rcases m with ⟨_ | a, l⟩
  · rfl
  · change _ :: _ :: (l ++ []) = _; rw [List.append_nil]; rfl

theorem key_ext {k k' : List Byte} {nk : Nat} (h : k.length = 4 * nk) (h' : k'.length = 4 * nk)
    (e : ∀ i < nk, Spec.AES.keyWord k i = Spec.AES.keyWord k' i) : k = k' := by
  apply List.ext_getElem (by rw [h, h'])
  intro j hj hj'
  have hq := e (j / 4) (by omega)
  unfold Spec.AES.keyWord at hq
  have g : ∀ (x : List Byte) (hx : j < x.length), x.getD j 0 = x[j] := by
    intro x hx
    rw [List.getD_eq_getElem?_getD, List.getElem?_eq_getElem hx]; rfl
  rw [← g k hj, ← g k' hj']
  rcases (show j % 4 = 0 ∨ j % 4 = 1 ∨ j % 4 = 2 ∨ j % 4 = 3 by omega) with hm | hm | hm | hm
  · have := congrArg (Spec.AES.wordByte · 0) hq
    simp only [mk0] at this
    rwa [show 4 * (j / 4) = j by omega] at this
  · have := congrArg (Spec.AES.wordByte · 1) hq
    simp only [mk1] at this
    rwa [show 4 * (j / 4) + 1 = j by omega] at this
  · have := congrArg (Spec.AES.wordByte · 2) hq
    simp only [mk2] at this
    rwa [show 4 * (j / 4) + 2 = j by omega] at this
  · have := congrArg (Spec.AES.wordByte · 3) hq
    simp only [mk3] at this
    rwa [show 4 * (j / 4) + 3 = j by omega] at this

/-- Who sees the indices into the tables while one known block is enciphered knows the whole key: different keys give different steps,
for every block. -/
theorem c117_reveals_key (o o' c c' : AES) (k k' dst src : List Byte) (hl : k.length = k'.length)
    (h : o.setKey k = some (c, none)) (h' : o'.setKey k' = some (c', none)) (hd : 16 ≤ dst.length) (hs : 16 ≤ src.length) :
    (encryptT c dst src).log = (encryptT c' dst src).log ↔ k = k' := by
  obtain ⟨⟨nk, e1, e2, e3, e4, -⟩, -, -⟩ := key_len h
  obtain ⟨⟨nk', f1, f2, f3, f4, -⟩, -, -⟩ := key_len h'
  obtain rfl : nk = nk' := by omega
  constructor
  · intro e
    rw [encrypt_log hd hs, encrypt_log hd hs] at e
    obtain ⟨-, e⟩ := List.append_inj e rfl
    obtain ⟨s, hs', -⟩ := loadQuad_eq src hs
    have hw := crypt_words (by omega) e4 f4 hs' e
    refine key_ext e1 f1 fun i hi => ?_
    have := hw i (by omega)
    rwa [Spec.AES.w, dif_pos (Or.inl hi), Spec.AES.w, dif_pos (Or.inl hi)] at this
  · intro e
    subst e
    rw [encrypt_log hd hs, encrypt_log hd hs, sched_unique e4 f4]

/-- And with one key, different blocks give different steps. -/
theorem c117_reveals_block (o c : AES) (k dst src src' : List Byte) (h : o.setKey k = some (c, none)) (hd : 16 ≤ dst.length)
    (hs : src.length = 16) (hs' : src'.length = 16) : (encryptT c dst src).log = (encryptT c dst src').log ↔ src = src' := by
  obtain ⟨⟨nk, e1, e2, e3, e4, -⟩, -, -⟩ := key_len h
  refine ⟨fun e => ?_, fun e => by rw [e]⟩
  rw [encrypt_log hd (Nat.le_of_eq hs.symm), encrypt_log hd (Nat.le_of_eq hs'.symm)] at e
  obtain ⟨-, e⟩ := List.append_inj e rfl
  obtain ⟨s, a1, a2⟩ := loadQuad_eq src (Nat.le_of_eq hs.symm)
  obtain ⟨s', b1, b2⟩ := loadQuad_eq src' (Nat.le_of_eq hs'.symm)
  have := crypt_block (by omega) e4 a1 b1 e
  subst this
  rw [a2] at b2
  rw [← ofState_toState src hs, ← ofState_toState src' hs', b2]

/-- The full statement is false of the portable code. -/
theorem c117_full_false : ¬ StepsHideAll := by
  intro H
  obtain ⟨c, h1, -⟩ := setKey_ok AES.new (List.replicate 16 0) (Or.inl List.length_replicate)
  obtain ⟨c', h2, -⟩ := setKey_ok AES.new (List.replicate 16 1) (Or.inl List.length_replicate)
  have := H _ _ c c' (List.replicate 16 0) (List.replicate 16 0) (List.replicate 16 0) (Or.inl List.length_replicate)
    (by rw [List.length_replicate, List.length_replicate]) h1 h2 List.length_replicate List.length_replicate List.length_replicate
  rw [c117_reveals_key AES.new AES.new c c' _ _ _ _ (by rw [List.length_replicate, List.length_replicate]) h1 h2
    (Nat.le_of_eq List.length_replicate.symm) (Nat.le_of_eq List.length_replicate.symm)] at this
  exact absurd (congrArg List.head? this) (by decide)

/-- Hypotheses met: a key of 16 bytes; the first table index is a byte of the key. -/
example : ∃ c, AES.new.setKey ((List.range 16).map (BitVec.ofNat 8)) = some (c, none) ∧
    (encryptT c (List.replicate 16 0) (List.replicate 16 0)).log.take 11 =
      [.test false, .test false, .word 0, .word 1, .word 2, .word 3, .test true, .word 4, .look 0 0, .look 1 5, .look 2 10] := by
  obtain ⟨c, h1, -⟩ := setKey_ok AES.new ((List.range 16).map (BitVec.ofNat 8)) (Or.inl rfl)
  refine ⟨c, h1, ?_⟩
  have : (AES.new.setKey ((List.range 16).map (BitVec.ofNat 8))).map (fun x => (encryptT x.1 (List.replicate 16 0) (List.replicate 16 0)).log.take 11) =
    some [.test false, .test false, .word 0, .word 1, .word 2, .word 3, .test true, .word 4, .look 0 0, .look 1 5, .look 2 10] := by
    decide +kernel
  rw [h1] at this
  exact Option.some.inj this

end Props.AESSteps
