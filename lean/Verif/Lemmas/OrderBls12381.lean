import Verif.Lemmas.PointCount
import Verif.Lemmas.PrimesCof
import Verif.Props.GenBls12381

/-!
# The number of points of the groups of bls12_381

The witnesses are points of prime order (or independent pairs of points of prime power order) for every prime dividing
the cofactor. The kernel computes with them.
-/
namespace Libff
set_option synthInstance.maxSize 2000
open bls12_381_K

/-- Witnesses for the prime factors of the cofactor. -/
def bls12_381_G1_tests : List (OrdTest (Nat × Nat)) := [
  .one (0, 2) 3,
  .pair (36062352831239990719958464914731943671638831985698650995844836482914258665789452956921940214859209278384156547482, 1193751889467020566002914104608893871119428384982355693049481849265752795930854568761413204546340237594420886230382) (3853108926933948309053984383708888424213086521597182515933777470544969310117249101613023907766000174668881695876384, 3004922220081144117111056090529776744477461587997460941364787931975052115911203851236536809299487527518896659706981) 11 0,
  .eig (3941592594517146529486158753797016731657572856180022072345977915552289182594037166872747559717196689874774849064431, 2732860767762596784682156832191155745086888138054895285035951144247641223189854778240345610093057532337639858475854) (1172205435640784217366135999154710922796523501242420284419482752946012805258306127652045473089831823885329298607040, 118750618271405120210126119606402757612052387759116233665316589894636855375455495437218405471326128881177228375629) 10177 4773 630,
  .eig (2437780714247100067817534114130267641263844207917852115635588131136589035965625419786066648651898127191690895024027, 2636847231379494136697335625039049047050117384329358647239854911370672247557980079900151800424440231443470864629781) (3187925271140597877681882216530553419000749674544900339707279147325836371336097710679634814840451574560941052910629, 1856634589741653792727821934861518510467225419540705383621075910593114652146297498393954613572649935901613755900677) 859267 119571 620124,
  .irr3 (3694367447887153595843487178563443087785019134820183433385244757041470801090010874455749075306971324212072922881708, 683588795498539341161730875876300729859298807486683629306053463416864398943950388145215876055430340049841809466555) 52437899]

theorem bls12_381_G1_h_dvd : bls12_381_G1_h ∣ Nat.card (sw 0 bls12_381_b).Point :=
  have hb : R1 (NM.of bls12_381_coeff_b_nat) bls12_381_b := FpRel.cast (by decide +kernel)
  have h := Jac.ordCheck_dvd o1 (W := Nat × Nat) (σ := RingHom.id _) (f := id) (fun h => h) hb (FpRel.cast (v := 793479390729215512621379701633421447060886740281060493010456487427281649075476305620758731620350) (by decide +kernel)) o1.one
    (bnd := fun w => decide (w.1 < bls12_381_Fq_params.p ∧ w.2 < bls12_381_Fq_params.p)) (dec := fun w => ⟨NM.of w.1, NM.of w.2, 1⟩)
    (fun w hw => by
      have hw := of_decide_eq_true hw
      exact ⟨⟨_, _, 1⟩, FpRel.cast hw.1, FpRel.cast hw.2, o1.one⟩)
    bls12_381_G1_tests (List.forall_mem_cons.2 ⟨prime_3, List.forall_mem_cons.2 ⟨prime_11, List.forall_mem_cons.2 ⟨prime_10177, List.forall_mem_cons.2 ⟨prime_859267, List.forall_mem_cons.2 ⟨prime_52437899, List.forall_mem_nil _⟩⟩⟩⟩⟩) (by decide +kernel)
  (show bls12_381_G1_h = (bls12_381_G1_tests.map OrdTest.factor).prod by decide +kernel) ▸ h

/-- The number of points of the curve of `bls12_381_G1`. -/
theorem bls12_381_G1_card : Nat.card (sw 0 bls12_381_b).Point = bls12_381_G1_h * bls12_381_Fr_params.p :=
  C52_bls12_381_G1_generator.2.2.2.2.elim fun _ hP => card_of_le (h := bls12_381_G1_h) (Nat.card_eq_fintype_card.trans (Fp.card (P := bls12_381_Fq_params))) (by decide +kernel) (bls12_381_G1_h_dvd) hP.2 (by decide +kernel)

/-- Witnesses for the prime factors of the cofactor. -/
def bls12_381_G2_tests : List (OrdTest ((Nat × Nat) × (Nat × Nat))) := [
  .pair ((438325332433509284891297019405250192051370461966691183264199175040491826000640085525889962657462103271085080516342, 1763235525651341197793942722487745460278228415526993961333259274448398457313213649566000152425089954123233411526312), (918272763181459299777785049801485251739425764325067183332904369815332912808088109486288125688779618627172051883901, 1520342217214845708397311524493951876842629938360259965595483298367599583510590171163992542460916921937176980633828)) ((3717054121503776952876833699930912411400252899159350743645808664964069044281388643251809511733308077194625414320375, 101199259271753996339922818542703352075922759812701430891554507982051477179904376829740359680038587438838052434544), (2544599157982974306998279693752868009834543504612231086538070010843260218720481614171518411604121307668952920775877, 1684729584089460081602197882316999616126566323598832291850609761258722622737376935547193216385248492415163383744654)) 13 0,
  .pair ((3723155223169010082914444572131679222725905139148394802681480824884883597425648600526693274436314216781953698303032, 281307464694532609475532246970122624053025978673127469734777187445477804034443659707826659983356639126914718001277), (3117634147777188559784518842069238739771642812903140295024897588650381751378081691134800481321868659863872803247272, 3179860730842854303535349317441700298279688033087217549138802158332699323217285547836965590009888405142117401218661)) ((3151180052862435337874920468883581722820506047983142561366332581834368582577751288203372822035761933184780396132525, 3424312509262206425856020983747771230962246874016589908642547340504691700164647395577885934275255047450541149280727), (1140136390856958611171078665221116277378747993645904615062850918493093532636446047912245354254168537685887033971560, 3366925456838153017227235173049503665629238253402973649998860494597985223312619248967857809742896225021584745296950)) 23 0,
  .one ((1557733985741492153591948137832370435242989083997741397444660765392442721534789434481015817190833301407481456244778, 2356559260479439625886697100983032012366114559992676056789597447135065453416831529750470552263339012440814272941464), (2781944054368078290802266291359037779571751106935337156319770761627159096595333188847198814034125750823126350612314, 1287826616152942468050451231893983417555474546552170850169354791114941717702569184921328475948393759061412972318879)) 2713,
  .one ((30243039233870728640507261756999236496416365222894677089235316069813877350408424802748646713108451750545089747799, 1734853695202495237439442964763811842641183267362822279092847480676965486197004373601010089618802519299029431312818), (850593960813789742915719901000339311299107076794626265612753223607574197989912859702364351850205220281409513538395, 741633901072942910529280519464183138312292814694974415166191268447087277349702014373068723082009200415577083659487)) 11953,
  .one ((1161829764858545064654762567657233079428919271436687686069794104391855663628535773974426848455091670686199224800889, 2655563347789496702346113735669092313481236405246598961620340017148385182680933376593975027732067853624767978482350), (1365772107129844237583585954353762902187302785303183424878314149264211237309092427465144761149897592211099894034256, 1993517326733162775803466429435586191368256054062189779274019468918680068912415207340271477003457350049683962812192)) 262069,
  .one ((3864634550375156234387340413264226148814493784528870811741883484874112049256304135253377191773266502145963331373298, 2942145012033188416156108951035678421088811016635241404656243030919981717648644422822591540817754662396616421739119), (552182276803658675727984232664442157779362343931572832288447911834866687998179852986109796434975567722408067285280, 615279495781073782721956368418488969287415359705481228350819830367925601184028273845681360132920725718262893149759)) 402096035359507321594726366720466575392706800671181159425656785868777272553337714697862511267018014931937703598282857976535744623203249]

theorem bls12_381_G2_h_dvd : bls12_381_G2_h ∣ Nat.card (sw 0 bls12_381_twist_b).Point :=
  have h := Jac.ordCheck_dvd o2 (W := (Nat × Nat) × (Nat × Nat)) (σ := RingHom.id _) (f := id) (fun h => h) bls12_381_twist_b_rel o2.one o2.one
    (bnd := fun w => decide ((w.1.1 < bls12_381_Fq_params.p ∧ w.1.2 < bls12_381_Fq_params.p) ∧ (w.2.1 < bls12_381_Fq_params.p ∧ w.2.2 < bls12_381_Fq_params.p))) (dec := fun w => ⟨dec2 NM.of w.1, dec2 NM.of w.2, 1⟩)
    (fun w hw => by
      have hw := of_decide_eq_true hw
      exact ⟨⟨_, _, 1⟩, dec2_rel _ hw.1, dec2_rel _ hw.2, o2.one⟩)
    bls12_381_G2_tests (List.forall_mem_cons.2 ⟨prime_13, List.forall_mem_cons.2 ⟨prime_23, List.forall_mem_cons.2 ⟨prime_2713, List.forall_mem_cons.2 ⟨prime_11953, List.forall_mem_cons.2 ⟨prime_262069, List.forall_mem_cons.2 ⟨prime_cof14, List.forall_mem_nil _⟩⟩⟩⟩⟩⟩) (by decide +kernel)
  (show bls12_381_G2_h = (bls12_381_G2_tests.map OrdTest.factor).prod by decide +kernel) ▸ h

/-- The number of points of the curve of `bls12_381_G2`. -/
theorem bls12_381_G2_card : Nat.card (sw 0 bls12_381_twist_b).Point = bls12_381_G2_h * bls12_381_Fr_params.p :=
  C52_bls12_381_G2_generator.2.2.2.2.elim fun _ hP => card_of_le (h := bls12_381_G2_h) (Nat.card_eq_fintype_card.trans bls12_381_Fq2_card) (by decide +kernel) (bls12_381_G2_h_dvd) hP.2 (by decide +kernel)

end Libff
