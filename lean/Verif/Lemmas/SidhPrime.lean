import Verif.Lemmas.NPlusOne
import Verif.Lemmas.SidhGood
import Mathlib.NumberTheory.LegendreSymbol.Basic
/-! The three SIDH moduli are prime. -/
namespace Lemmas.SidhPrime
open Spec.Sidh Lemmas.NPlusOne Lemmas.SidhGood

theorem p_succ (f : Fld) : f.p + 1 = 2 ^ f.e2 * 3 ^ f.e3 := by
  have : 0 < 2 ^ f.e2 * 3 ^ f.e3 := by positivity
  rw [Fld.p]; omega

theorem prime_div (f : Fld) (r : Nat) (hr : r.Prime) (hd : r ∣ f.p + 1) : r = 2 ∨ r = 3 := by
  rw [p_succ] at hd
  rcases hr.dvd_mul.mp hd with h | h
  · exact Or.inl ((Nat.prime_dvd_prime_iff_eq hr Nat.prime_two).mp (hr.dvd_of_dvd_pow h))
  · exact Or.inr ((Nat.prime_dvd_prime_iff_eq hr Nat.prime_three).mp (hr.dvd_of_dvd_pow h))

/-- Elements of norm 1 and order p + 1. -/
def wit : Fld → Nat × Nat
  | .p434 => (19551538929076177241527316009165994895268624195009277209060645868964176991465581380776173337462894756718975221354307951473851786853,
      14663654196807132931145487006874496171451468146256957906795484401723132743599186035582130003097171067539231416015730963605388840141)
  | .p503 => (10540674525525693904671402332959476033993749414062691198756530781628675145616608986815131929236819481286885720312070125586385845064815675168923389945445,
      7905505894144270428503551749719607025495312060547018399067398086221506359212456740111348946927614610965164290234052594189789383798611756376692542459085)
  | .p751 => (6372133994934957078755549684841110967032239781876351489302270571725956271189217751694081782499117977615109668688517047621663945831706187318796406442320708810447204209279331282682092142124784570449375438062148616537025016354972,
      796516749366869634844443710605138870879029972734543936162783821465744533898652218961760222812389747201888708586064630952707993228963273414849550805290088601305900526159916410335261517765598071306171929757768577067128127044372)

theorem prime (f : Fld) : f.p.Prime := by
  apply prime_of_order f.p (by have := p_gt f; omega) (wit f) 752
  · cases f <;> decide +kernel
  · cases f <;> decide +kernel
  · intro r hr hd
    rcases prime_div f r hr hd with rfl | rfl
    · cases f <;> decide +kernel
    · cases f <;> decide +kernel

end Lemmas.SidhPrime
