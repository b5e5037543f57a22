import Verif.Lemmas.PairingEval

/-!
# Values of the pairings of mnt4 and mnt6

The values below are the results of running the model of the code over `NM p` inside the kernel.
-/
namespace Libff
set_option synthInstance.maxSize 2000
set_option maxRecDepth 100000

namespace mnt4_K
/-- The Miller value of the generators. -/
def v : Fq4 := ⟨⟨NM.of 318433858706017692594014811468464221165930346197892530862548863189722920027360217979448234, NM.of 167286560141199364074966400022793654026312285603553083793866687829689617089084364244158863⟩, ⟨NM.of 286690424426546864427637513299798265504082677524464382251808838158695121669481858406077100, NM.of 474355851301449670127538002585454726046380303330740026600501359318444302863381897154164316⟩⟩
theorem v_eq : ate.pairing g1 g2 = .ok v := by decide +kernel
theorem v_ne : v ≠ 0 := by decide +kernel
theorem v_E : mnt4_final_exponent < 2 ^ 900 := by decide +kernel
theorem v_pow : fastPow 900 v mnt4_final_exponent ≠ 1 := by decide +kernel
/-- The Miller value of `G1::zero()` and `G2::one()`. -/
def v0 : Fq4 := ⟨⟨NM.of 226399539564334653207103561701806860520600785037879025071266818123320317163620183145767259, NM.of 257148046962316830304072975951386898701449954853174568388550586260050879418851471837090673⟩, ⟨NM.of 334515922842666363621280077843471590634568294333689045878046492854198897934925979523118951, NM.of 393415975206387517802512207324983300759381617106184770217270863456360134059107442894804611⟩⟩
theorem v0_eq : ate.pairing ⟨0, 1, 0⟩ g2 = .ok v0 := by decide +kernel
theorem v0_ne : v0 ≠ 0 := by decide +kernel
theorem v0_pow : fastPow 900 v0 mnt4_final_exponent ≠ 1 := by decide +kernel
/-- The Miller value of `G1::one()` and `G2::zero()`. -/
def v1 : Fq4 := ⟨⟨NM.of 197276807404512531402583457180864073370320623142847837217261901517105225596606326634241948, NM.of 345653841893365790022421916705954429482316293267947167844100522791788306818757342585567295⟩, ⟨NM.of 157744767148713084895537605817900763773823025717715673525090222178909769385370074562518518, NM.of 371177718837629613104743983887460738257093033435881387442407184137627854196952965913019797⟩⟩
theorem v1_eq : ate.pairing g1 ⟨0, 1, 0⟩ = .ok v1 := by decide +kernel
theorem v1_ne : v1 ≠ 0 := by decide +kernel
theorem v1_pow : fastPow 900 v1 mnt4_final_exponent ≠ 1 := by decide +kernel
end mnt4_K

open mnt4_K in
theorem mnt4_value : ∃ w, mnt4_reduced_pairing mnt4_G1_one mnt4_G2_one = .ok w ∧ w ≠ 1 :=
  reduced_ne_one o4 C49_mnt4 (AteMnt.pairing_relates ate_rel g1_rel g2_rel) v_eq v_ne 900 v_E v_pow

open mnt4_K in
theorem mnt4_value_zero₁ : ∃ w, mnt4_reduced_pairing ⟨0, 1, 0⟩ mnt4_G2_one = .ok w ∧ w ≠ 1 :=
  reduced_ne_one o4 C49_mnt4 (AteMnt.pairing_relates ate_rel z1_rel g2_rel) v0_eq v0_ne 900 v_E v0_pow

open mnt4_K in
theorem mnt4_value_zero₂ : ∃ w, mnt4_reduced_pairing mnt4_G1_one ⟨0, 1, 0⟩ = .ok w ∧ w ≠ 1 :=
  reduced_ne_one o4 C49_mnt4 (AteMnt.pairing_relates ate_rel g1_rel z2_rel) v1_eq v1_ne 900 v_E v1_pow

namespace mnt6_K
/-- The Miller value of the generators. -/
def v : Fq6 := ⟨⟨NM.of 298281854308058329221712838910231017091828145038011465297031170965173669867612179747992943, NM.of 338063352366451749808819148677927730815337042563795084171267836128188650390390958260201230, NM.of 341959488170075319341198186674552887252883751116518963607520516568451244599535322478829488⟩, ⟨NM.of 47517784555058319433436395226882142158104805639542712630837031548710915404813985498270562, NM.of 256204577706538108454188659467794213077272219875604559640217419482983188678666647773979663, NM.of 392621735215384142953544738140200974234954895971491578273326344177989770619527978556489927⟩⟩
theorem v_eq : ate.pairing g1 g2 = .ok v := by decide +kernel
theorem v_ne : v ≠ 0 := by decide +kernel
theorem v_E : mnt6_final_exponent < 2 ^ 1500 := by decide +kernel
theorem v_pow : fastPow 1500 v mnt6_final_exponent ≠ 1 := by decide +kernel
/-- The Miller value of `G1::zero()` and `G2::one()`. -/
def v0 : Fq6 := ⟨⟨NM.of 46636454535204985587925650614746439399721127606763174683628155693579532883901904502011708, NM.of 272768115918110061224888237675399840528482040963802049115102853880202290513498377186139575, NM.of 30613795511069200935693233268993808139167281039355856079504348524047976802586594491728052⟩, ⟨NM.of 30417351372559416455509105820735353291139956928864856483257577286665984079328821576892082, NM.of 111269429168347067979302376570059422125662149254938354689317979171439667159305101170447557, NM.of 151281894418263937333497737179758247003227573103968755733381775806025621670944303320738959⟩⟩
theorem v0_eq : ate.pairing ⟨0, 1, 0⟩ g2 = .ok v0 := by decide +kernel
theorem v0_ne : v0 ≠ 0 := by decide +kernel
theorem v0_pow : fastPow 1500 v0 mnt6_final_exponent ≠ 1 := by decide +kernel
end mnt6_K

open mnt6_K in
theorem mnt6_value : ∃ w, mnt6_reduced_pairing mnt6_G1_one mnt6_G2_one = .ok w ∧ w ≠ 1 :=
  reduced_ne_one o6 C49_mnt6 (AteMnt.pairing_relates ate_rel g1_rel g2_rel) v_eq v_ne 1500 v_E v_pow

open mnt6_K in
theorem mnt6_value_zero₁ : ∃ w, mnt6_reduced_pairing ⟨0, 1, 0⟩ mnt6_G2_one = .ok w ∧ w ≠ 1 :=
  reduced_ne_one o6 C49_mnt6 (AteMnt.pairing_relates ate_rel z1_rel g2_rel) v0_eq v0_ne 1500 v_E v0_pow

end Libff
