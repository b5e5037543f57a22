import Verif.Lemmas.PointCount
import Verif.Lemmas.PrimesCof
import Verif.Props.GenMnt6
import Verif.Props.MulByQ

/-!
# The number of points of the groups of mnt6

The witnesses are points of prime order (or independent pairs of points of prime power order) for every prime dividing
the cofactor. The kernel computes with them.
-/
namespace Libff
set_option synthInstance.maxSize 2000
open mnt6_K

/-- The number of points of the curve of `mnt6_G1`. -/
theorem mnt6_G1_card : Nat.card (sw mnt6_a mnt6_b).Point = 1 * mnt6_Fr_params.p :=
  C52_mnt6_G1_generator.2.2.2.elim fun _ hP => card_of_le (h := 1) (Nat.card_eq_fintype_card.trans (Fp.card (P := mnt6_Fq_params))) (by decide +kernel) (one_dvd _) hP.2 (by decide +kernel)

/-- Witnesses for the prime factors of the cofactor. -/
def mnt6_G2_tests : List (OrdTest ((Nat × Nat × Nat) × (Nat × Nat × Nat))) := [
  .pair ((204482997133486419057665026068206771838257561954396107318366549778773772962502940859380112, 233215577841905342816866023840781968255247810994408439246391124346831805660778283035633588, 94256086222786472562978988590025785289585629225132087875741372604297509037211334350186381), (18759030380432586036365229493425249012111926701598960710428574975378375222412607507974915, 278318774675870961855552362370594124320735766701206718630757563446236442287826271414956162, 380030056882406458267104945746614175429423304546161559633162845005896235459178586612375250)) ((32934698111854368453973482646490222252893628073933670450545176388120402881942643232473646, 280798801315584150552151116077000506761160641319396672902396547277543819452013637111356933, 430832717532669229704883375652084451379573849671179999310320298449129520571875380310283076), (154656127084170828308816823464847223704313623902781084306041358749659501376531200168429681, 297534969395537230303138890483084238469793637551569088258767461398971764093119374969236852, 283900316899128898528602419243377107203432071556583216801461911641016038966026594916045707)) 2 16,
  .pair ((223528973994211817745728576473814881871210290567413343754489789757185050011131583873281787, 409932643986227504323747558430906853248905816937406770587542276719135305451062100131489875, 342745855462212214773857520765198099849131634275542902488365924771086042085482432163989439), (394313640002407973433018275015894848726937603650201065485156092944256458287918122407278327, 426486307232236130896480851924992599078118706516644487809147181972615160986945258020736207, 428063662399713494106730646954394210705041513199119980511052509699968242508005286070059446)) ((57908609621115171202691738263277065797433574529223567209709644958826939707888189670844345, 51975716186951891535731423163223447605919700891173912110610530848594642762333680904195297, 455134658825156950136973157906043138547716589403398950887757246055506473550006780605008743), (9441625456732835029114203462971847655629643312209022195377955243679138652107367269492248, 190968737746425160160800377419200798292043645803104801274934496364038221824233511341948304, 159264185008403289813761384986366253193261541548062154938001687559607909704305458149309929)) 3 2,
  .one ((0, 155449982256483646167176970062223520910058627904678623545604754667621381980732798882502145, 0), (270746176361196716541053176778347306009861327495790205746993128227061550395361165547049291, 0, 0)) 5,
  .pair ((401535170712533513904256705910732948552874520042541776128934218747512046627640022188707962, 414111258301147246131267471503217534568083108026234570566098575827620877026572815464111558, 250912959584298680523917897365286569680933965222540634185255994633482022384477072223043805), (66359656546215647506348412237810110657484048586541343105466587814851977365375126843277717, 12740754691428326181164529307331291140819639629401598318389493438659851308272409144145104, 431074902054612656493961177967645720221623947366884636901600621473220589714189216892521217)) ((19108732843326460727504343062605887244859461414178110450429426178871694874044407808283447, 36242135134116785902530740214690730183234359084063022488824518052733751668935751203367470, 440702788458239333661215478290197198521164067332778730085076432964944941393211705110891097), (245401873386857031862245364494654068866810769008420764533508922371891464258544112424911004, 28689620917998887453178856489047385225929809419842042848898651942418307885613802470871047, 248251171804202896658388953366453817697076121975338528025548151436913645639068928966675231)) 7 1,
  .pair ((148123872196943203614097757968859058249805588544851044478119135096955819790540460797067850, 322702253410343176268949399024668952576649648093659564787931847147357043152410416368441682, 224540481799238979326856346197224039917789821343416397266560958606049726865316337111200895), (29162852682044279668078948053548633618462587525461540938000563787614745372571026141624089, 321045787836876311426780781742119122115937514211196477121193101055404662579630638167952995, 151448130219569257806260952866511234626961385238416005295438476133163165837539164231132604)) ((73260760321570620584017891148982713595719604171897960871333764762510188858916269608005520, 179800341959525926265955236603098525231354661401110874269585527601936500440977548553528001, 157301975810989449772212218174587011077657424842156578154306963577337675260149497070520082), (412823750555731861579907676410049082911682741300241261608197559079128201429331912163410047, 317962788840389335545135656842083897490844244195701675071133395869527712397837137823898908, 112696122240198404644227587287533919451885433029726671839683568750584343921574545483389172)) 43 0,
  .one ((0, 457611479283516336223920306718863273254756377698584727845920334909730772196613894821478837, 0), (75138996877911998498076793520920137246370786742431738872634904909985326862230968047722272, 0, 0)) 76749553,
  .one ((0, 31716981788581059053042432878862156950559218775010099533826180239499621992002030846410200, 0), (130820173099048455130513270628494106460739398545646623884106614121620512745320132161082674, 0, 0)) 254863122529,
  .one ((0, 40929932964762986338783835072065016372569355465655263720921969645316012683758515943747004, 0), (418155650065711175909639353477267631984617786589642453169565803787483185502323869076006458, 0, 0)) 16415677260681114641,
  .irr3 ((315451372176518257687989970393366912499422215246565116555048759357038894557745648930095811, 97096302912247287113174290916363307818584039253204383024907353360957141624360458091920616, 380456742268841378313417192112094873845258110887215588754493500643324907946326919076241665), (221284767882422039010358419382573962890550292072909614281899027839584356511437155590687160, 269813142137463028964857251792566318538203965744337763407891633914748910326534120824713484, 221963940859722404117716587699179635369670448130140248230446674192150324483922314973455498)) 832668823862928114206893884097921187,
  .one ((0, 351271765481684223384880442951904588640138811824772885580858237056351817784019725940279762, 0), (179164855022534566602530405247643931877751157175544615618852953979571016439107073593457681, 0, 0)) 3659648372342200581242468166289843753491957766807]

theorem mnt6_G2_h_dvd : mnt6_G2_h ∣ Nat.card (sw mnt6_twist_a mnt6_twist_b).Point :=
  have ra : R1 (NM.of mnt6_coeff_a_nat) mnt6_a := FpRel.cast (by decide +kernel)
  have rb : R1 (NM.of mnt6_coeff_b_nat) mnt6_b := FpRel.cast (by decide +kernel)
  have rta : R3 (mnt6TwistA (NM.of mnt6_coeff_a_nat)) mnt6_twist_a := ⟨o1.zero, o1.zero, ra⟩
  have rtb : R3 (mnt6TwistB (NM.of mnt6_coeff_b_nat)) mnt6_twist_b := ⟨o1.mul rb rβ, o1.zero, o1.zero⟩
  have hf : ∀ {x y}, R3 x y → R3 (Fp3.frobeniusMap (fun i => NM.of (mnt6_Fq3_frob_c1.getD i 0)) (fun i => NM.of (mnt6_Fq3_frob_c2.getD i 0)) 1 x)
      (frobenius mnt6_Fq3 mnt6_Fq_params.p y) := fun {x y} h => by
    have h' : mnt6_G2_frob y = frobenius mnt6_Fq3 mnt6_Fq_params.p y := by
      have := C23_mnt6_Fq3 1 y
      rw [pow_one] at this
      rw [frobenius_def]; exact this
    rw [← h']
    exact ⟨h.1, o1.mul (FpRel.cast (v := mnt6_Fq3_frob_c1.getD 1 0) (by decide +kernel)) h.2.1,
      o1.mul (FpRel.cast (v := mnt6_Fq3_frob_c2.getD 1 0) (by decide +kernel)) h.2.2⟩
  have hx : R3 (⟨NM.of mnt6_twist_mul_by_q_X_nat, 0, 0⟩) (Cubic.ofBase mnt6_q_X) := ⟨FpRel.cast (v := mnt6_twist_mul_by_q_X_nat) (by decide +kernel), o1.zero, o1.zero⟩
  have hy : R3 (⟨NM.of mnt6_twist_mul_by_q_Y_nat, 0, 0⟩) (Cubic.ofBase mnt6_q_Y) := ⟨FpRel.cast (v := mnt6_twist_mul_by_q_Y_nat) (by decide +kernel), o1.zero, o1.zero⟩
  have h := Proj.ordCheck_dvd o3 (W := (Nat × Nat × Nat) × (Nat × Nat × Nat)) (σ := frobenius mnt6_Fq3 mnt6_Fq_params.p) (f := Fp3.frobeniusMap (fun i => NM.of (mnt6_Fq3_frob_c1.getD i 0)) (fun i => NM.of (mnt6_Fq3_frob_c2.getD i 0)) 1) hf (mA := mnt6MulByA (NM.of mnt6_coeff_a_nat)) (mA' := mnt6_G2_mul_by_a)
    (fun h => ⟨o1.mul (o1.mul ra rβ) h.2.1, o1.mul (o1.mul ra rβ) h.2.2, o1.mul ra h.1⟩) (fun x => ((C36_mul_by_a mnt6_β mnt6_a mnt6_b).2.1 x).1) rta rtb hx (o3.neg hy)
    (bnd := fun w => decide ((w.1.1 < mnt6_Fq_params.p ∧ w.1.2.1 < mnt6_Fq_params.p ∧ w.1.2.2 < mnt6_Fq_params.p) ∧ (w.2.1 < mnt6_Fq_params.p ∧ w.2.2.1 < mnt6_Fq_params.p ∧ w.2.2.2 < mnt6_Fq_params.p))) (dec := fun w => ⟨dec3 NM.of w.1, dec3 NM.of w.2, 1⟩)
    (fun w hw => by
      have hw := of_decide_eq_true hw
      exact ⟨⟨_, _, 1⟩, dec3_rel _ hw.1, dec3_rel _ hw.2, o3.one⟩)
    mnt6_G2_tests (List.forall_mem_cons.2 ⟨prime_2, List.forall_mem_cons.2 ⟨prime_3, List.forall_mem_cons.2 ⟨prime_5, List.forall_mem_cons.2 ⟨prime_7, List.forall_mem_cons.2 ⟨prime_43, List.forall_mem_cons.2 ⟨prime_76749553, List.forall_mem_cons.2 ⟨prime_254863122529, List.forall_mem_cons.2 ⟨prime_cof15, List.forall_mem_cons.2 ⟨prime_c19, List.forall_mem_cons.2 ⟨prime_cof19, List.forall_mem_nil _⟩⟩⟩⟩⟩⟩⟩⟩⟩⟩) (by decide +kernel)
  (show mnt6_G2_h = (mnt6_G2_tests.map OrdTest.factor).prod by decide +kernel) ▸ h

/-- The number of points of the curve of `mnt6_G2`. -/
theorem mnt6_G2_card : Nat.card (sw mnt6_twist_a mnt6_twist_b).Point = mnt6_G2_h * mnt6_Fr_params.p :=
  C52_mnt6_G2_generator.2.2.2.elim fun _ hP => card_of_le (h := mnt6_G2_h) (Nat.card_eq_fintype_card.trans mnt6_Fq3_card) (by decide +kernel) (mnt6_G2_h_dvd) hP.2 (by decide +kernel)

end Libff
