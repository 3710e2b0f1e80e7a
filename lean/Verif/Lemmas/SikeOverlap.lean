import Verif.Model.SikeOverlap
import Verif.Lemmas.Slices
import Verif.Props.Mkem
/-! Helper lemmas: slices on one memory. -/
namespace Lemmas.SikeOverlap
open Model Model.Sidh Model.Sha3 Model.Sike Model.Mkem Model.SikeOverlap Model.Slices Spec Spec.Sidh Lemmas.Sike Lemmas.Slices Props.Sike Props.SidhKeys Props.SidhCurve Lemmas.SidhNat Lemmas.Sha3

variable {P : Plat} {f : Fld}

/-- a slice within the memory -/
def In (mem : List Byte) (w : Part) : Prop := w.off + w.len ≤ mem.length

theorem rd_length {mem : List Byte} {w : Part} (h : In mem w) : (rd mem w).length = w.len := by
  unfold In at h
  rw [rd, List.length_take, List.length_drop]; omega

theorem wr_length {mem b : List Byte} {w : Part} (h : In mem w) (hb : b.length ≤ w.len) : (wr mem w b).length = mem.length :=
  putAt_length (by unfold In at h; omega)

theorem wr_get {mem b : List Byte} {w : Part} (h : In mem w) (hb : b.length ≤ w.len) (j : Nat) :
    (wr mem w b)[j]? = if w.off ≤ j ∧ j < w.off + b.length then b[j - w.off]? else mem[j]? :=
  getElem?_putAt (by unfold In at h; omega) j

theorem rd_get {mem : List Byte} {w : Part} (i : Nat) (hi : i < w.len) : (rd mem w)[i]? = mem[w.off + i]? := by
  rw [rd, List.getElem?_take_of_lt hi, List.getElem?_drop]

theorem rd_wr {mem b : List Byte} {w : Part} (h : In mem w) (hb : b.length = w.len) : rd (wr mem w b) w = b := by
  have l := wr_length h (Nat.le_of_eq hb)
  apply List.ext_getElem?
  intro i
  by_cases hi : i < w.len
  · rw [rd_get i hi, wr_get h (Nat.le_of_eq hb), if_pos ⟨by omega, by omega⟩, Nat.add_sub_cancel_left]
  · rw [List.getElem?_eq_none (by rw [rd_length (by unfold In at *; omega)]; omega), List.getElem?_eq_none (by omega)]

theorem wr_wr {mem b b' : List Byte} {w : Part} (h : In mem w) (hb : b.length = b'.length) (hb' : b'.length ≤ w.len) : wr (wr mem w b) w b' = wr mem w b' := by
  have l := wr_length h (b := b) (by omega)
  have h' : In (wr mem w b) w := by unfold In at *; omega
  apply List.ext_getElem?
  intro i
  rw [wr_get h' hb', wr_get h hb', wr_get h (by omega), hb]
  split <;> rfl

theorem in_wr {mem b : List Byte} {w v : Part} (h : In mem w) (hb : b.length ≤ w.len) (hv : In mem v) : In (wr mem w b) v := by
  unfold In at *
  rw [wr_length h hb]; exact hv

/-! ### `generateCiphertext` -/

theorem copyFrom_length {d s r : List Byte} {n : Nat} (h : copyFrom d n s = some r) : r.length = d.length := by
  rw [copyFrom] at h
  split at h
  · rw [← Option.some.inj h]
    simp only [goCopy, List.length_append, List.length_take, List.length_drop]
    omega
  · cases h

theorem gen_mem {c : KEM} {mem b : List Byte} {ct : Part} {skA : PrivateKey} {pkA pkB : PublicKey} {ptext : List Byte} (hw : In mem ct)
    (he : pkA.exportKey (rd mem ct) = some b) (hb : b.length = ct.len) :
    SikeOverlap.generateCiphertext P c mem ct skA pkA pkB ptext =
      (c.generateCiphertext P (rd mem ct) skA pkA pkB ptext).map fun (c, x) => (c, wr mem ct x) := by
  rw [SikeOverlap.generateCiphertext, KEM.generateCiphertext, he]
  cases skA.deriveSecret (List.replicate maxSharedSecretBsz 0) pkB with
  | none => rfl
  | some j =>
  simp only [Option.bind_eq_bind, Option.bind_some]
  cases sliceTo j skA.params.sharedSecretSize with
  | none => rfl
  | some j1 =>
  simp only [Option.bind_some]
  cases sliceTo (List.replicate maxMsgBsz 0) skA.params.msgLen with
  | none => rfl
  | some n1 =>
  simp only [Option.bind_some]
  rcases c.hash P [j1] n1 with _ | ⟨c', n2⟩
  · rfl
  simp only [Option.bind_some]
  cases xorInto (n2 ++ (List.replicate maxMsgBsz 0).drop skA.params.msgLen) ptext with
  | none => rfl
  | some n =>
  simp only [Option.bind_some]
  cases sliceTo n skA.params.msgLen with
  | none => rfl
  | some n3 =>
  simp only [Option.bind_some, rd_wr hw hb]
  cases hc : copyFrom b pkA.size n3 with
  | none => rfl
  | some r =>
    have := copyFrom_length hc
    simp only [Option.bind_some, Option.map_some]
    rw [wr_wr hw (by omega) (by omega)]

/-! ### `Decapsulate` -/

/-- what the function on one memory gives, compared with the one on separate buffers -/
def Same {σ : Type} (size : σ → Nat) (mem : List Byte) (secret : Part) : Option (σ × List Byte × Bool) → Option (σ × List Byte × Bool) → Prop
  | none, none => True
  | some (c, s, ok), some (c', m, ok') => c = c' ∧ ok = ok' ∧ (ok = true → ∃ k, s = k ++ (rd mem secret).drop (size c) ∧ m = wr mem secret k)
  | _, _ => False

theorem same_bind {σ α : Type} {size : σ → Nat} {mem : List Byte} {secret : Part} (v : Option α) {g h : α → Option (σ × List Byte × Bool)}
    (H : ∀ a, Same size mem secret (g a) (h a)) : Same size mem secret (v >>= g) (v >>= h) := by
  cases v with
  | none => trivial
  | some a => exact H a

theorem decaps_same (c : KEM) (mem : List Byte) (secret : Part) (prv : Priv) (pub : PublicKey) (ct : Part) (hs : In mem secret) (hc : In mem ct) :
    Same (fun c => c.params.kemSize) mem secret (c.decapsulate P (rd mem secret) (prv.at mem) pub (rd mem ct))
      (SikeOverlap.decapsulate P c mem secret prv pub ct) := by
  rw [KEM.decapsulate, SikeOverlap.decapsulate, rd_length hs, rd_length hc, show (prv.at mem).variant = prv.variant from rfl]
  split
  · trivial
  split
  · trivial
  split
  · trivial
  split
  · trivial
  split
  · trivial
  refine same_bind _ fun pkA => same_bind _ fun (c, m, l, ok) => ?_
  cases ok with
  | false => exact ⟨rfl, rfl, fun h => absurd h (by decide)⟩
  | true =>
  simp only
  rw [if_neg (by decide), if_neg (by decide)]
  refine same_bind _ fun _ => same_bind _ fun _ => same_bind _ fun _ => same_bind _ fun _ => same_bind _ fun (c, r) => same_bind _ fun _ =>
    same_bind _ fun (k, ok) => ?_
  cases ok with
  | false => exact ⟨rfl, rfl, fun h => absurd h (by decide)⟩
  | true =>
  simp only
  rw [if_neg (by decide), if_neg (by decide)]
  refine same_bind _ fun _ => same_bind _ fun _ => same_bind _ fun _ => same_bind _ fun _ => same_bind _ fun _ => same_bind _ fun _ =>
    same_bind _ fun (c, s) => ⟨rfl, rfl, fun _ => ⟨s, rfl, rfl⟩⟩

theorem multi_same (c : MultiKEM) (mem : List Byte) (secret : Part) (prv : Priv) (pub : PublicKey) (ct : Part) (hs : In mem secret) (hc : In mem ct) :
    Same (fun c => c.kem.params.kemSize) mem secret (c.decapsulate P (rd mem secret) (prv.at mem) pub (rd mem ct))
      (SikeOverlap.multiDecapsulate P c mem secret prv pub ct) := by
  rw [MultiKEM.decapsulate, SikeOverlap.multiDecapsulate, rd_length hs, rd_length hc, show (prv.at mem).variant = prv.variant from rfl]
  split
  · trivial
  split
  · trivial
  split
  · trivial
  split
  · trivial
  split
  · trivial
  refine same_bind _ fun _ => same_bind _ fun _ => same_bind _ fun (pkA, ok) => ?_
  cases ok with
  | false => exact ⟨rfl, rfl, fun h => absurd h (by decide)⟩
  | true =>
  simp only
  rw [if_neg (by decide), if_neg (by decide)]
  refine same_bind _ fun _ => same_bind _ fun _ => same_bind _ fun _ => same_bind _ fun (k, _) => same_bind _ fun _ => same_bind _ fun _ =>
    same_bind _ fun _ => same_bind _ fun (k, _) => same_bind _ fun _ => same_bind _ fun _ => same_bind _ fun _ => same_bind _ fun _ =>
    same_bind _ fun _ => same_bind _ fun _ => same_bind _ fun _ => same_bind _ fun (k, _) => same_bind _ fun _ => same_bind _ fun _ =>
    same_bind _ fun _ => same_bind _ fun _ => same_bind _ fun _ => same_bind _ fun _ => same_bind _ fun _ => same_bind _ fun (k, s) =>
    ⟨rfl, rfl, fun _ => ⟨s, rfl, rfl⟩⟩

end Lemmas.SikeOverlap
