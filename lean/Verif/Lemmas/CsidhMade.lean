import Verif.Lemmas.CsidhAgree
import Verif.Lemmas.CsidhPke
import Verif.Props.CsidhKeys

/-!
Public keys in the orbit of the starting curve, with the private keys that lead there.
-/

namespace Lemmas.CsidhMade

open Model Model.Limb Model.Csidh Lemmas.CsidhNat Lemmas.CsidhField Lemmas.CsidhCurve Lemmas.CsidhAction Lemmas.CsidhCof
  Lemmas.CsidhKeys Lemmas.CsidhOrbit Lemmas.CsidhAgree Verif.XOnly Verif.Colon Spec Spec.Csidh

local notation "𝕡" => Spec.Csidh.p

/-- the number of isogenies of the i-th degree in one direction -/
def total (l : List PrivateKey) (sg : Bool) (i : Nat) : Nat := (l.map fun sk => target sk.e sg i).sum

/-- the list of steps fits the private keys -/
structure Fits (l : List PrivateKey) (L : List (ℕ × Bool)) : Prop where
  count : ∀ i < 74, ∀ sg, L.count ((word primes i).toNat, sg) = total l sg i
  mem : ∀ e ∈ L, ∃ i < 74, e.1 = (word primes i).toNat

theorem Fits.nil : Fits [] [] := ⟨fun _ _ _ => rfl, by simp⟩

theorem degs_fits {la : Fp} {prv : PrivateKey} {rng rest : List Byte} {s : RoundSt} (h : groupActionLog la prv rng = some (s, rest)) : Fits [prv] (degs s.log) := by
  obtain ⟨i1, d0, d1, -, e1⟩ := groupActionLog_spec prv h
  constructor
  · intro i hi sg
    rw [count_degs, total, List.map_singleton, List.sum_singleton]
    cases sg
    · have := i1.h0.sum i hi
      rw [i1.d0 d0 i hi] at this
      rw [← this]; exact (Nat.zero_add _).symm
    · have := i1.h1.sum i hi
      rw [i1.d1 d1 i hi] at this
      rw [← this]; exact (Nat.zero_add _).symm
  · intro e he
    obtain ⟨ev, hev, rfl⟩ := List.mem_map.mp he
    obtain ⟨j, hj, hw⟩ := (e1 ev hev).1
    exact ⟨j, hj, by rw [← hw]⟩

theorem Fits.append {l l' : List PrivateKey} {L L' : List (ℕ × Bool)} (h : Fits l L) (h' : Fits l' L') : Fits (l' ++ l) (L ++ L') := by
  constructor
  · intro i hi sg
    rw [List.count_append, h.count i hi, h'.count i hi, total, total, total, List.map_append, List.sum_append, Nat.add_comm]
  · intro e he
    rcases List.mem_append.mp he with he | he
    · exact h.mem e he
    · exact h'.mem e he

theorem Fits.perm {l l' : List PrivateKey} {L L' : List (ℕ × Bool)} (h : Fits l L) (h' : Fits l' L') (ht : ∀ i < 74, ∀ sg, total l sg i = total l' sg i) : L.Perm L' := by
  rw [List.perm_iff_count]
  rintro ⟨d, sg⟩
  by_cases hd : ∃ i < 74, d = (word primes i).toNat
  · obtain ⟨i, hi, rfl⟩ := hd
    rw [h.count i hi, h'.count i hi, ht i hi]
  · rw [List.count_eq_zero.mpr fun hm => hd (h.mem _ hm), List.count_eq_zero.mpr fun hm => hd (h'.mem _ hm)]

/-- the public key is in the orbit of the starting curve, reached by the private keys -/
def Orbit (l : List PrivateKey) (pk : PublicKey) : Prop :=
  ∃ a : ZMod 𝕡, IsElt pk.a a ∧ ∃ L, Fits l L ∧ ∀ (Γ : Type) (_ : AddCommGroup Γ) (π : Γ →+ Γ) (T τ : Γ) (g0 : Γ → F),
    (∀ s, Nat.card (eig π s).ker = 𝕡 + 1) → Good π T τ g0 (0 : F) [] → Good π T τ g0 (algebraMap (ZMod 𝕡) F a) L

theorem orbit_start : Orbit [] ⟨fp0⟩ := ⟨0, zero_elt, [], Fits.nil, fun Γ _ π T τ g0 _ h => by rw [map_zero]; exact h⟩

theorem orbit_act {l : List PrivateKey} {pk : PublicKey} {sk : PrivateKey} {rng rest : List Byte} {a : Fp} (h : Orbit l pk) (hg : groupAction pk.a sk rng = some (a, rest)) :
    Orbit (sk :: l) ⟨a⟩ := by
  rw [groupAction, Option.map_eq_some_iff] at hg
  obtain ⟨⟨s, r⟩, h1, h2⟩ := hg
  cases h2
  obtain ⟨α, ha, L, hL, H⟩ := h
  obtain ⟨Γ, _, π, T, τ, g0, hc, hb⟩ := base
  obtain ⟨a', ha', -⟩ := groupAction_good hc ha (H Γ _ π T τ g0 hc hb) h1
  refine ⟨a', ha', L ++ degs s.log, hL.append (degs_fits h1), ?_⟩
  intro Γ _ π T τ g0 hc hb
  obtain ⟨a'', ha'', hg⟩ := groupAction_good hc ha (H Γ _ π T τ g0 hc hb) h1
  rw [elt_inj ha' ha'']
  exact hg

theorem orbit_unique {l l' : List PrivateKey} {pk pk' : PublicKey} (h : Orbit l pk) (h' : Orbit l' pk') (ht : ∀ i < 74, ∀ sg, total l sg i = total l' sg i) : pk = pk' := by
  obtain ⟨α, ha, L, hL, H⟩ := h
  obtain ⟨α', ha', L', hL', H'⟩ := h'
  obtain ⟨Γ, _, π, T, τ, g0, hc, hb⟩ := base
  have := Good.unique (H Γ _ π T τ g0 hc hb) (H' Γ _ π T τ g0 hc hb) (hL.perm hL' ht)
  have := (algebraMap (ZMod 𝕡) F).injective this
  subst this
  cases pk; cases pk'
  congr 1
  exact elt_unique ha ha'

theorem orbit_gen {sk : PrivateKey} {rng rest : List Byte} {pk : PublicKey} (h : generatePublicKey sk rng = some (pk, rest)) : Orbit [sk] pk := by
  rw [generatePublicKey, Option.map_eq_some_iff] at h
  obtain ⟨⟨a, r⟩, h1, h2⟩ := h
  cases h2
  exact orbit_act orbit_start h1

theorem orbit_len {l : List PrivateKey} {pk : PublicKey} (h : Orbit l pk) : pk.a.length = 8 := by
  obtain ⟨α, ha, -⟩ := h
  exact ha.len

theorem orbit_valid {l : List PrivateKey} {pk : PublicKey} (h : Orbit l pk) {rng rest : List Byte} {ok : Bool} (hv : validate pk rng = some (ok, rest)) : ok = true := by
  obtain ⟨α, ha, L, hL, H⟩ := h
  obtain ⟨Γ, _, π, T, τ, g0, hc, hb⟩ := base
  cases ok
  · exact absurd hv (good_validate hc ha (H Γ _ π T τ g0 hc hb))
  · rfl

theorem import_le {pk : PublicKey} (h : pk.a.length = 8) : (PublicKey.zero.importKey (leBytes 64 (val pk.a))).1 = pk := by
  have hlen : (leBytes 64 (val pk.a)).length = 64 := Lemmas.SidhBytes.leBytes_length _ _
  obtain ⟨h1, h2⟩ := import_val _ hlen
  rw [PublicKey.importKey, if_neg (by omega)]
  have hb : val pk.a < 256 ^ 64 := by
    have := Lemmas.Limb.val_lt pk.a
    rw [h] at this
    exact lt_of_lt_of_le this (by decide +kernel)
  have : orBytes (leBytes 64 (val pk.a)) 0 fp0 = pk.a := by
    apply Lemmas.Limb.val_inj (h1.trans h.symm)
    rw [h2, Lemmas.SidhBytes.bval_leBytes, Nat.mod_eq_of_lt hb]
  show PublicKey.mk (orBytes (leBytes 64 (val pk.a)) 0 fp0) = _
  rw [this]

theorem import_export {pk : PublicKey} (h : pk.a.length = 8) {buf : List Byte} (hb : buf.length = 64) : (PublicKey.zero.importKey (pk.exportKey buf).1).1 = pk := by
  rw [PublicKey.exportKey, if_neg (by omega), fpBytes_eq]
  exact import_le h

theorem import_inj {o o' : List Byte} (h : o.length = 64) (h' : o'.length = 64) (he : (PublicKey.zero.importKey o).1 = (PublicKey.zero.importKey o').1) : o = o' := by
  obtain ⟨k, e1, -, e2, e3⟩ := Props.CsidhKeys.c68_roundtrip o o h h
  obtain ⟨k', e1', -, e2', e3'⟩ := Props.CsidhKeys.c68_roundtrip o' o h' h
  rw [e1, e1'] at he
  simp only at he
  subst he
  rw [e3] at e3'
  simpa using e3'

theorem orbit_derive {l : List PrivateKey} {pk : PublicKey} {sk : PrivateKey} {out out' rng rest : List Byte} {ok : Bool} (h : Orbit l pk) (ho : out.length = 64)
    (hd : deriveSecret out pk sk rng = some (out', ok, rest)) : Orbit (sk :: l) (PublicKey.zero.importKey out').1 := by
  rw [deriveSecret] at hd
  match hv : validate pk rng with
  | none => rw [hv] at hd; cases hd
  | some (b, r) =>
    obtain rfl := orbit_valid h hv
    rw [hv] at hd
    simp only at hd
    match hg : groupAction pk.a sk r with
    | none => rw [hg] at hd; cases hd
    | some (a, r') =>
      rw [hg] at hd
      simp only [Option.some.injEq, Prod.mk.injEq] at hd
      have := orbit_act h hg
      rw [← hd.1, import_export (orbit_len this) ho]
      exact this

end Lemmas.CsidhMade
