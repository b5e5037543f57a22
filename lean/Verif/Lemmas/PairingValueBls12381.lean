import Verif.Lemmas.PairingEval

/-!
# A value of the pairing of bls12_381

The values below are the results of running the model of the code over `NM p` inside the kernel.
-/
namespace Libff
set_option synthInstance.maxSize 2000
set_option maxRecDepth 100000

namespace bls12_381_K
/-- The Miller value of the generators. -/
def v : Fq12 := ⟨⟨⟨NM.of 2161962906222842095668194416159877600461559372053768884627632546271744838023612442301105097334311424569288420461288, NM.of 307443857782065903161354011102701275396659678285966360005726769609158862879682903148785308147632268360331587428193⟩, ⟨NM.of 417036122314467879833123222803778001868058884776094187582652708028818845069182705690846858866174847404703685037887, NM.of 1679466170112884235517924316490868067861001558185392096368562822256651336338532602155945444890442700854228264038693⟩, ⟨NM.of 683789173135602836674491466260924753247702053905241867030463510509606409479631833996520056823929713268757539858099, NM.of 1109808298092527922113246212117725871839173605751004906866575234993674121799535791638206120093134447792802109903815⟩⟩, ⟨⟨NM.of 2946963377498090403348272708776871514295215273878277774320689595719929233339231147946598121925568238483963829482388, NM.of 2163978313073537526348772007668156034721163976253872711832775737152142587191043912318649643984783172016541382629345⟩, ⟨NM.of 2317884073790673239748085941846896033431681267591487328211400635701424698902272686703837456821962803234819499629157, NM.of 3170354317654421529016468696434750368439134164622826682509044334714278162127529608959741077787287418769535096795266⟩, ⟨NM.of 171595665860946419321961420429320857139649772311218341032732898046890549030883111809475946821889695665437076894320, NM.of 3598425707368133945253944894156709701867570976414393176354250570925784033350567942505489897778573045890178264811546⟩⟩⟩
theorem v_eq : ate.blsPairing g1 g2 = .ok v := by decide +kernel
theorem v_ne : v ≠ 0 := by decide +kernel
theorem v_E : bls12_381_E < 2 ^ 4400 := by decide +kernel
theorem v_pow : fastPow 4400 v bls12_381_E ≠ 1 := by decide +kernel
end bls12_381_K

open bls12_381_K in
theorem bls12_381_value : ∃ w, bls12_381_reduced_pairing bls12_381_G1_one bls12_381_G2_one = .ok w ∧ w ≠ 1 :=
  reduced_ne_one ate_rel.o12 C49_bls12_381 (Ate12.blsPairing_relates ate_rel g1_rel g2_rel) v_eq v_ne 4400 v_E v_pow

end Libff
