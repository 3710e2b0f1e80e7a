import Verif.Lemmas.CsidhRunAct
import Verif.Props.CsidhValidate

/-!
A key exchange between two parties, evaluated: one private key has the exponent 1 for the prime 3, the other -1 for the
prime 5, and all other exponents are zero.
-/

namespace Lemmas.CsidhRunKeys
open Model Model.Limb Model.Csidh Lemmas.CsidhNat Spec Spec.Csidh Lemmas.CsidhField Lemmas.CsidhRun Lemmas.CsidhRunAct Lemmas.CsidhKeys Lemmas.CsidhValidate

local notation "𝕡" => Spec.Csidh.p

/-- exponent 1 for 3 -/
def keyA : PrivateKey := ⟨0x10 :: List.replicate 36 0⟩

/-- exponent -1 for 5 -/
def keyB : PrivateKey := ⟨0x0f :: List.replicate 36 0⟩

/-- the curve reached by an isogeny of degree 3 -/
def eA : Nat := 4385247212471901548491547154585915332233249222229355860844196559554166148328263293258252685762566734440466280680375995658564192356371335676339788052165440

/-- the curve reached by an isogeny of degree 5 in the other direction -/
def eB : Nat := 3546483353658968123885624809917056919745686980759039651517393239448012203301663133338475181726802823569430616092532011718789443114563063780347006723290984

/-- the curve reached by both -/
def eAB : Nat := 4334597650697560251301955700326317187061570109094283321400116028113372733032417892012057743676337509265456435611348915245327220662518313643935597202775110

theorem runA (rest : List Byte) : groupAction (lit 0) keyA (fpBytes (lit 12) ++ (fpBytes (lit 2) ++ rest)) = some (lit eA, rest) :=
  single_act keyA false 0 (by decide) (by decide +kernel) (by decide +kernel)
    (w := 4370524105297055829694282724019968374125632591126176805501610880183961297747353531395584596367071531739892665092097471324377892709094165083579203669576936)
    (u := 4199236821579950068601787163412764731077771047756923987887909207801100108417670308032740437641871252361542163377894106366053285939697607276643048259017569)
    (by decide +kernel) (by decide +kernel) (by decide +kernel) (by decide +kernel) (by decide +kernel) (by decide +kernel) (by decide +kernel) (by decide +kernel)
    (by decide +kernel) (by decide +kernel) (by decide +kernel) rest

theorem runB (rest : List Byte) : groupAction (lit 0) keyB (fpBytes (lit 2) ++ (fpBytes (lit 2) ++ rest)) = some (lit eB, rest) :=
  single_act keyB true 1 (by decide) (by decide +kernel) (by decide +kernel)
    (w := 2127975427818179179708454130112492708973065568570291200951927512306021231829951519347668580900638356662864523826073869318997667868937441845078747247900598)
    (u := 2548924139758314111224908343192025185373007195827116869164743874859812562582695323859650391238694951701638468506511778456607243165676660865685560712558435)
    (by decide +kernel) (by decide +kernel) (by decide +kernel) (by decide +kernel) (by decide +kernel) (by decide +kernel) (by decide +kernel) (by decide +kernel)
    (by decide +kernel) (by decide +kernel) (by decide +kernel) rest

theorem runAB (rest : List Byte) : groupAction (lit eA) keyB (fpBytes (lit 2) ++ (fpBytes (lit 2) ++ rest)) = some (lit eAB, rest) :=
  single_act keyB true 1 (by decide) (by decide +kernel) (by decide +kernel)
    (w := 4199236821579950068601787163412764731077771047756923987887909207801100108417670308032740437641871252361542163377894106366053285939697607276643048259017569)
    (u := 924959411417702049849228049663106242729052528750916711454524714211835765266541748567519883515018718976813840096449319983325520371789196299685126481245075)
    (by decide +kernel) (by decide +kernel) (by decide +kernel) (by decide +kernel) (by decide +kernel) (by decide +kernel) (by decide +kernel) (by decide +kernel)
    (by decide +kernel) (by decide +kernel) (by decide +kernel) rest

theorem runBA (rest : List Byte) : groupAction (lit eB) keyA (fpBytes (lit 2) ++ (fpBytes (lit 3) ++ rest)) = some (lit eAB, rest) :=
  single_act keyA false 0 (by decide) (by decide +kernel) (by decide +kernel)
    (w := 2548924139758314111224908343192025185373007195827116869164743874859812562582695323859650391238694951701638468506511778456607243165676660865685560712558435)
    (u := 3928802209285260916936522147844756216183723490078891905608136998080083798588947429953153098940885634197138788143189205674102934606000551587232411051263371)
    (by decide +kernel) (by decide +kernel) (by decide +kernel) (by decide +kernel) (by decide +kernel) (by decide +kernel) (by decide +kernel) (by decide +kernel)
    (by decide +kernel) (by decide +kernel) (by decide +kernel) rest

theorem lit_zero : lit 0 = fp0 := by decide +kernel

theorem publicA (rest : List Byte) : generatePublicKey keyA (fpBytes (lit 12) ++ (fpBytes (lit 2) ++ rest)) = some (⟨lit eA⟩, rest) := by
  rw [generatePublicKey, ← lit_zero, runA]; rfl

theorem publicB (rest : List Byte) : generatePublicKey keyB (fpBytes (lit 2) ++ (fpBytes (lit 2) ++ rest)) = some (⟨lit eB⟩, rest) := by
  rw [generatePublicKey, ← lit_zero, runB]; rfl

theorem accepts {a : Nat} (ha : a < 𝕡) (h2 : a ≠ 2) (hm2 : a + 2 ≠ 𝕡) (h : (roundN a 4).1 = true ∧ (roundN a 4).2.1 = true) (rest : List Byte) :
    validate ⟨lit a⟩ (fpBytes (lit 4) ++ rest) = some (true, rest) := by
  have ra := lit_rn ha
  have r4 := lit_rn (n := 4) (by decide +kernel)
  generalize lit a = la at *
  generalize lit 4 = l4 at *
  rw [Props.CsidhValidate.validate_eq (pub := ⟨la⟩) ra.elt, validateLoop_run ra r4 (rand_elt r4.elt rest) h.1, h.2]
  · intro e
    exact h2 (eq_of_cast ha (by decide +kernel) (by rw [e]; rfl))
  · intro e
    have : ((a + 2 : Nat) : ZMod 𝕡) = 0 := by rw [Nat.cast_add, e]; exact neg_add_cancel _
    have h3 : 𝕡 ∣ a + 2 := (ZMod.natCast_eq_zero_iff _ _).mp this
    have l2 : 2 < 𝕡 := by decide +kernel
    exact hm2 (Nat.eq_of_dvd_of_lt_two_mul (Nat.succ_ne_zero _) h3 (by rw [Nat.two_mul]; exact Nat.add_lt_add ha l2))

theorem validA (rest : List Byte) : validate ⟨lit eA⟩ (fpBytes (lit 4) ++ rest) = some (true, rest) :=
  accepts (by decide +kernel) (by decide +kernel) (by decide +kernel) (by decide +kernel) rest

theorem validB (rest : List Byte) : validate ⟨lit eB⟩ (fpBytes (lit 4) ++ rest) = some (true, rest) :=
  accepts (by decide +kernel) (by decide +kernel) (by decide +kernel) (by decide +kernel) rest

/-- the secret -/
def secret : List Byte := fpBytes (lit eAB)

theorem deriveA (out : List Byte) (ho : out.length = 64) (rest : List Byte) :
    deriveSecret out ⟨lit eB⟩ keyA (fpBytes (lit 4) ++ (fpBytes (lit 2) ++ (fpBytes (lit 3) ++ rest))) = some (secret, true, rest) := by
  rw [deriveSecret, validB]
  simp only
  rw [runBA]
  simp only
  rw [PublicKey.exportKey, if_neg (by omega)]
  rfl

theorem deriveB (out : List Byte) (ho : out.length = 64) (rest : List Byte) :
    deriveSecret out ⟨lit eA⟩ keyB (fpBytes (lit 4) ++ (fpBytes (lit 2) ++ (fpBytes (lit 2) ++ rest))) = some (secret, true, rest) := by
  rw [deriveSecret, validA]
  simp only
  rw [runAB]
  simp only
  rw [PublicKey.exportKey, if_neg (by omega)]
  rfl

/-- the random bytes for which the first key is generated -/
def drawA : List Byte := [0, 1] ++ List.replicate 62 0

theorem genA (rest : List Byte) : generatePrivateKey (drawA ++ (List.replicate 64 0 ++ rest)) = (keyA, rest, true) := by
  have f1 : fillKey drawA 0 (List.replicate 37 0) = (64, keyA.e) := by decide +kernel
  have f2 : fillKey (List.replicate 64 0) 64 keyA.e = (74, keyA.e) := by decide +kernel
  rw [generatePrivateKey, genLoop, if_pos (by omega), if_neg (by simp [drawA]), List.take_left' (by rfl), f1]
  simp only
  rw [List.drop_left' (by rfl), genLoop, if_pos (by omega), if_neg (by simp), List.take_left' (by simp), f2]
  simp only
  rw [List.drop_left' (by simp), genLoop, if_neg (by omega)]

end Lemmas.CsidhRunKeys
