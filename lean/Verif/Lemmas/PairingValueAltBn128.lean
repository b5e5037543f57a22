import Verif.Lemmas.PairingEval

/-!
# A value of the pairing of alt_bn128

The values below are the results of running the model of the code over `NM p` inside the kernel.
-/
namespace Libff
set_option synthInstance.maxSize 2000
set_option maxRecDepth 100000

namespace alt_bn128_K
/-- The Miller value of the generators. -/
def v : Fq12 := ⟨⟨⟨NM.of 4714826967496253038810415888793580886499721197355726686043721807416479608041, NM.of 16612284226403179064203498997608324438809660653576420019331288523318686904565⟩, ⟨NM.of 5499724972439054161316847915312115982734369995561480324090275866444342327501, NM.of 19572865142346121746697121694242140967981684672565154398712645144797102544299⟩, ⟨NM.of 16736768207354444244315473464481778379143975090582943584720980109950627091736, NM.of 2809336336286560830457670135371748383881370476380951335176126250610605988134⟩⟩, ⟨⟨NM.of 14705083509344610963023657932189908173017152781709565070429573837127604281808, NM.of 21817041897726733129661212560527934323614274223682721970475334855662202122308⟩, ⟨NM.of 742017842435041895615718622968942622502560827456580782084965344205634740952, NM.of 11650381214974505187139744744834108090508633615161117113411652702609466218394⟩, ⟨NM.of 15615236418035355731364815206704972933517778021171111280828787106509536844353, NM.of 17847769639158566426171171976265457432481354297567678712428494457015004955445⟩⟩⟩
theorem v_eq : ate.bnPairing g1 g2 = .ok v := by decide +kernel
theorem v_ne : v ≠ 0 := by decide +kernel
theorem v_E : alt_bn128_E < 2 ^ 3100 := by decide +kernel
theorem v_pow : fastPow 3100 v alt_bn128_E ≠ 1 := by decide +kernel
end alt_bn128_K

open alt_bn128_K in
theorem alt_bn128_value : ∃ w, alt_bn128_reduced_pairing alt_bn128_G1_one alt_bn128_G2_one = .ok w ∧ w ≠ 1 :=
  reduced_ne_one ate_rel.o12 C49_alt_bn128 (Ate12.bnPairing_relates ate_rel g1_rel g2_rel) v_eq v_ne 3100 v_E v_pow

end Libff
