import Verif.Lemmas.PairingRelEdw

/-!
# Values of the pairing of edwards

The values below are the results of running the model of the code over `NM p` inside the kernel.
-/
namespace Libff
set_option synthInstance.maxSize 2000
set_option maxRecDepth 100000

namespace edwards_K
/-- The Miller value of the generators. -/
def v : Fq6 := ⟨⟨NM.of 3010577279001681914065358213186322929578611545204570061, NM.of 5618353368457309593054337300774990250166756821679850747, NM.of 2837027916314475764697614550212314885587963055392429195⟩, ⟨NM.of 4557466233322943134698510074535588384613434241178712380, NM.of 301854671724495061669326582948705242274709710850302305, NM.of 65568807659901680239471654094008099074403919868594777⟩⟩
theorem v_eq : ate.pairing g1 g2 = .ok v := by decide +kernel
theorem v_ne : v ≠ 0 := by decide +kernel
theorem v_E : edwards_E < 2 ^ 1000 := by decide +kernel
theorem v_pow : fastPow 1000 v edwards_E ≠ 1 := by decide +kernel
theorem v_zero : ate.pairing g1 Edw.zero = .ok 0 := by decide +kernel
end edwards_K

open edwards_K in
theorem edwards_value : ∃ w, edwards_reduced_pairing edwards_G1_one edwards_G2_one = .ok w ∧ w ≠ 1 := by
  have h := reduced_ne_one o6 C49_edwards (AteEdw.pairing_relates ate_rel g1_rel g2_rel) v_eq v_ne 1000 v_E v_pow
  unfold edwards_reduced_pairing AteEdw.reducedPairing
  with_reducible_and_instances exact h

open edwards_K in
theorem edwards_value_zero : edwards_reduced_pairing edwards_G1_one Edw.zero = .abort := by
  obtain ⟨w, hw, h⟩ := (AteEdw.pairing_relates ate_rel g1_rel z2_rel).ok_right v_zero
  have h0 : w = 0 := (o6.eq h o6.zero).1 rfl
  rw [h0] at hw
  unfold edwards_reduced_pairing AteEdw.reducedPairing
  rw [hw, Outcome.bind, C49_edwards.zero]

end Libff
