import Mathlib.Data.Nat.Notation

/-!
# Curve constants

The numbers stored by the `init_*_params` functions for the groups and the pairing, as they are written in
the source.
-/
namespace Libff

/-! ## alt_bn128 -/

/-- `alt_bn128_coeff_b`, alt_bn128_init.cpp:33. -/
def alt_bn128_coeff_b_nat : Nat := 3
/-- `alt_bn128_twist`, alt_bn128_init.cpp:34. -/
def alt_bn128_twist_nat : Nat × Nat := (9, 1)
/-- `alt_bn128_twist_mul_by_q_X`, alt_bn128_init.cpp:38-39. -/
def alt_bn128_twist_mul_by_q_X_nat : Nat × Nat := (21575463638280843010398324269430826099269044274347216827212613867836435027261, 10307601595873709700152284273816112264069230130616436755625194854815875713954)
/-- `alt_bn128_twist_mul_by_q_Y`, alt_bn128_init.cpp:40-41. -/
def alt_bn128_twist_mul_by_q_Y_nat : Nat × Nat := (2821565182194536844548159561693502659359617185244120367078079554186484126554, 3505843767911556378687030309984248845540243509899259641013678093033130930403)
/-- `alt_bn128_G1::G1_one`, alt_bn128_init.cpp:47-49. The affine coordinates. -/
def alt_bn128_G1_one_nat : Nat × Nat := (1, 2)
/-- `alt_bn128_G2::G2_one`, alt_bn128_init.cpp:113-117. The affine coordinates. -/
def alt_bn128_G2_one_nat : (Nat × Nat) × (Nat × Nat) := ((10857046999023057135944570762232829481370756359578518086990519993285655852781, 11559732032986387107991004021392285783925812861821192530917403151452391805634),
   (8495653923123431417604973247489272438418190587263600148770280649306958101930, 4082367875863433681332203403145435568316851327593401208105741076214120093531))
/-- `alt_bn128_G1::h`, alt_bn128_init.cpp:53. -/
def alt_bn128_G1_h : Nat := 1
/-- `alt_bn128_G2::h`, alt_bn128_init.cpp:126. -/
def alt_bn128_G2_h : Nat := 21888242871839275222246405745257275088844257914179612981679871602714643921549
/-- `alt_bn128_ate_loop_count`, alt_bn128_init.cpp:182. -/
def alt_bn128_ate_loop_count : Nat := 29793968203157093288
/-- `alt_bn128_ate_is_loop_count_neg`, alt_bn128_init.cpp:183. -/
def alt_bn128_ate_is_loop_count_neg : Bool := false
/-- `alt_bn128_final_exponent_z`, alt_bn128_init.cpp:184. -/
def alt_bn128_final_exponent_z : Nat := 4965661367192848881
/-- `alt_bn128_final_exponent_is_z_neg`, alt_bn128_init.cpp:185. -/
def alt_bn128_final_exponent_is_z_neg : Bool := false

/-! ## bls12_381 -/

/-- `bls12_381_coeff_b`, bls12_381_init.cpp:27. -/
def bls12_381_coeff_b_nat : Nat := 4
/-- `bls12_381_twist`, bls12_381_init.cpp:28. -/
def bls12_381_twist_nat : Nat × Nat := (1, 1)
/-- `bls12_381_twist_mul_by_q_X`, bls12_381_init.cpp:32-33. -/
def bls12_381_twist_mul_by_q_X_nat : Nat × Nat := (0, 4002409555221667392624310435006688643935503118305586438271171395842971157480381377015405980053539358417135540939437)
/-- `bls12_381_twist_mul_by_q_Y`, bls12_381_init.cpp:34-35. -/
def bls12_381_twist_mul_by_q_Y_nat : Nat × Nat := (2973677408986561043442465346520108879172042883009249989176415018091420807192182638567116318576472649347015917690530, 1028732146235106349975324479215795277384839936929757896155643118032610843298655225875571310552543014690878354869257)
/-- `bls12_381_G1::G1_one`, bls12_381_init.cpp:42-44. The affine coordinates. -/
def bls12_381_G1_one_nat : Nat × Nat := (3685416753713387016781088315183077757961620795782546409894578378688607592378376318836054947676345821548104185464507, 1339506544944476473020471379941921221584933875938349620426543736416511423956333506472724655353366534992391756441569)
/-- `bls12_381_G2::G2_one`, bls12_381_init.cpp:110-114. The affine coordinates. -/
def bls12_381_G2_one_nat : (Nat × Nat) × (Nat × Nat) := ((352701069587466618187139116011060144890029952792775240219908644239793785735715026873347600343865175952761926303160, 3059144344244213709971259814753781636986470325476647558659373206291635324768958432433509563104347017837885763365758),
   (1985150602287291935568054521177171638300868978215655730859378665066344726373823718423869104263333984641494340347905, 927553665492332455747201965776037880757740193453592970025027978793976877002675564980949289727957565575433344219582))
/-- `bls12_381_G1::h`, bls12_381_init.cpp:46. -/
def bls12_381_G1_h : Nat := 76329603384216526031706109802092473003
/-- `bls12_381_G2::h`, bls12_381_init.cpp:116. -/
def bls12_381_G2_h : Nat := 305502333931268344200999753193121504214466019254188142667664032982267604182971884026507427359259977847832272839041616661285803823378372096355777062779109
/-- `bls12_381_ate_loop_count`, bls12_381_init.cpp:177. -/
def bls12_381_ate_loop_count : Nat := 15132376222941642752
/-- `bls12_381_ate_is_loop_count_neg`, bls12_381_init.cpp:178. -/
def bls12_381_ate_is_loop_count_neg : Bool := true
/-- `bls12_381_final_exponent`, bls12_381_init.cpp:179. -/
def bls12_381_final_exponent : Nat := 322277361516934140462891564586510139908379969514828494218366688025288661041104682794998680497580008899973249814104447692778988208376779573819485263026159588510513834876303014016798809919343532899164848730280942609956670917565618115867287399623286813270357901731510188149934363360381614501334086825442271920079363289954510565375378443704372994881406797882676971082200626541916413184642520269678897559532260949334760604962086348898118982248842634379637598665468817769075878555493752214492790122785850202957575200176084204422751485957336465472324810982833638490904279282696134323072515220044451592646885410572234451732790590013479358343841220074174848221722017083597872017638514103174122784843925578370430843522959600095676285723737049438346544753168912974976791528535276317256904336520179281145394686565050419250614107803233314658825463117900250701199181529205942363159325765991819433914303908860460720581408201373164047773794825411011922305820065611121544561808414055302212057471395719432072209245600258134364584636810093520285711072578721435517884103526483832733289802426157301542744476740008494780363354305116978805620671467071400711358839553375340724899735460480144599782014906586543813292157922220645089192130209334926661588737007768565838519456601560804957985667880395221049249803753582637708560
/-- `bls12_381_final_exponent_z`, bls12_381_init.cpp:180. -/
def bls12_381_final_exponent_z : Nat := 15132376222941642752
/-- `bls12_381_final_exponent_is_z_neg`, bls12_381_init.cpp:181. -/
def bls12_381_final_exponent_is_z_neg : Bool := true

/-! ## mnt4 -/

/-- `mnt4_G1::coeff_a`, mnt4_init.cpp:42. -/
def mnt4_coeff_a_nat : Nat := 2
/-- `mnt4_G1::coeff_b`, mnt4_init.cpp:43. -/
def mnt4_coeff_b_nat : Nat := 423894536526684178289416011533888240029318103673896002803341544124054745019340795360841685
/-- `mnt4_twist_mul_by_q_X`, mnt4_init.cpp:54. -/
def mnt4_twist_mul_by_q_X_nat : Nat := 475922286169261325753349249653048451545124879242694725395555128576210262817955800483758080
/-- `mnt4_twist_mul_by_q_Y`, mnt4_init.cpp:55. -/
def mnt4_twist_mul_by_q_Y_nat : Nat := 7684163245453501615621351552473337069301082060976805004625011694147890954040864167002308
/-- `mnt4_G1::G1_one`, mnt4_init.cpp:63-65. The affine coordinates. -/
def mnt4_G1_one_nat : Nat × Nat := (60760244141852568949126569781626075788424196370144486719385562369396875346601926534016838, 363732850702582978263902770815145784459747722357071843971107674179038674942891694705904306)
/-- `mnt4_G2::G2_one`, mnt4_init.cpp:128-132. The affine coordinates. -/
def mnt4_G2_one_nat : (Nat × Nat) × (Nat × Nat) := ((438374926219350099854919100077809681842783509163790991847867546339851681564223481322252708, 37620953615500480110935514360923278605464476459712393277679280819942849043649216370485641),
   (37437409008528968268352521034936931842973546441370663118543015118291998305624025037512482, 424621479598893882672393190337420680597584695892317197646113820787463109735345923009077489))
/-- `mnt4_G1::h`, mnt4_init.cpp:69. -/
def mnt4_G1_h : Nat := 1
/-- `mnt4_G2::h`, mnt4_init.cpp:136. -/
def mnt4_G2_h : Nat := 475922286169261325753349249653048451545124879932565935237842521413255878328503110407553025
/-- `mnt4_ate_loop_count`, mnt4_init.cpp:191. -/
def mnt4_ate_loop_count : Nat := 689871209842287392837045615510547309923794944
/-- `mnt4_ate_is_loop_count_neg`, mnt4_init.cpp:192. -/
def mnt4_ate_is_loop_count_neg : Bool := false
/-- `mnt4_final_exponent`, mnt4_init.cpp:193. -/
def mnt4_final_exponent : Nat := 107797360357109903430794490309592072278927783803031854357910908121903439838772861497177116410825586743089760869945394610511917274977971559062689561855016270594656570874331111995170645233717143416875749097203441437192367065467706065411650403684877366879441766585988546560
/-- `mnt4_final_exponent_last_chunk_abs_of_w0`, mnt4_init.cpp:194. -/
def mnt4_final_exponent_last_chunk_abs_of_w0 : Nat := 689871209842287392837045615510547309923794945
/-- `mnt4_final_exponent_last_chunk_is_w0_neg`, mnt4_init.cpp:195. -/
def mnt4_final_exponent_last_chunk_is_w0_neg : Bool := false
/-- `mnt4_final_exponent_last_chunk_w1`, mnt4_init.cpp:196. -/
def mnt4_final_exponent_last_chunk_w1 : Nat := 1

/-! ## mnt6 -/

/-- `mnt6_G1::coeff_a`, mnt6_init.cpp:44. -/
def mnt6_coeff_a_nat : Nat := 11
/-- `mnt6_G1::coeff_b`, mnt6_init.cpp:45. -/
def mnt6_coeff_b_nat : Nat := 106700080510851735677967319632585352256454251201367587890185989362936000262606668469523074
/-- `mnt6_twist_mul_by_q_X`, mnt6_init.cpp:60. -/
def mnt6_twist_mul_by_q_X_nat : Nat := 4183387201740296620308398334599285547820769823264541783190415909159130177461911693276180
/-- `mnt6_twist_mul_by_q_Y`, mnt6_init.cpp:61. -/
def mnt6_twist_mul_by_q_Y_nat : Nat := 475922286169261325753349249653048451545124878552823515553267735739164647307408490559963136
/-- `mnt6_G1::G1_one`, mnt6_init.cpp:67-69. The affine coordinates. -/
def mnt6_G1_one_nat : Nat × Nat := (336685752883082228109289846353937104185698209371404178342968838739115829740084426881123453, 402596290139780989709332707716568920777622032073762749862342374583908837063963736098549800)
/-- `mnt6_G2::G2_one`, mnt6_init.cpp:131-137. The affine coordinates. -/
def mnt6_G2_one_nat : (Nat × Nat × Nat) × (Nat × Nat × Nat) := ((421456435772811846256826561593908322288509115489119907560382401870203318738334702321297427, 103072927438548502463527009961344915021167584706439945404959058962657261178393635706405114, 143029172143731852627002926324735183809768363301149009204849580478324784395590388826052558),
   (464673596668689463130099227575639512541218133445388869383893594087634649237515554342751377, 100642907501977375184575075967118071807821117960152743335603284583254620685343989304941678, 123019855502969896026940545715841181300275180157288044663051565390506010149881373807142903))
/-- `mnt6_G1::h`, mnt6_init.cpp:73. -/
def mnt6_G1_h : Nat := 1
/-- `mnt6_G2::h`, mnt6_init.cpp:141. -/
def mnt6_G2_h : Nat := 226502022472576270196498690498308461791828762732602586162207535351960270082712694977333372361549082214519252261735048131889018501404377856786623430385820659037970876666767495659520
/-- `mnt6_ate_loop_count`, mnt6_init.cpp:196. -/
def mnt6_ate_loop_count : Nat := 689871209842287392837045615510547309923794944
/-- `mnt6_ate_is_loop_count_neg`, mnt6_init.cpp:197. -/
def mnt6_ate_is_loop_count_neg : Bool := true
/-- `mnt6_final_exponent`, mnt6_init.cpp:198. -/
def mnt6_final_exponent : Nat := 24416320138090509697890595414313438768353977489862543935904010715439066975957855922532159264213056712140358746422742237328406558352706591021642230618060502855451264045397444793186876199015256781648746888625527075466063075011307800862173764236311342105211681121426931616843635215852236649271569251468773714424208521977615548771268520882870120900360322044218806712027729351845307690474985502587527753847200130592058098363641559341826790559426614919168
/-- `mnt6_final_exponent_last_chunk_abs_of_w0`, mnt6_init.cpp:199. -/
def mnt6_final_exponent_last_chunk_abs_of_w0 : Nat := 689871209842287392837045615510547309923794944
/-- `mnt6_final_exponent_last_chunk_is_w0_neg`, mnt6_init.cpp:200. -/
def mnt6_final_exponent_last_chunk_is_w0_neg : Bool := true
/-- `mnt6_final_exponent_last_chunk_w1`, mnt6_init.cpp:201. -/
def mnt6_final_exponent_last_chunk_w1 : Nat := 1

/-! ## edwards -/

/-- `edwards_coeff_d`, edwards_init.cpp:40. -/
def edwards_coeff_d_nat : Nat := 600581931845324488256649384912508268813600056237543024
/-- `edwards_twist_mul_by_q_Y`, edwards_init.cpp:50. -/
def edwards_twist_mul_by_q_Y_nat : Nat := 1073752683758513276629212192812154536507607213288832062
/-- `edwards_twist_mul_by_q_Z`, edwards_init.cpp:51. -/
def edwards_twist_mul_by_q_Z_nat : Nat := 1073752683758513276629212192812154536507607213288832062
/-- `edwards_G1::G1_one`, edwards_init.cpp:56-57. The affine coordinates. -/
def edwards_G1_one_nat : Nat × Nat := (3713709671941291996998665608188072510389821008693530490, 4869953702976555123067178261685365085639705297852816679)
/-- `edwards_G2::G2_one`, edwards_init.cpp:116-121. The affine coordinates. -/
def edwards_G2_one_nat : (Nat × Nat × Nat) × (Nat × Nat × Nat) := ((4531683359223370252210990718516622098304721701253228128, 5339624155305731263217400504407647531329993548123477368, 3964037981777308726208525982198654699800283729988686552),
   (364634864866983740775341816274081071386963546650700569, 3264380230116139014996291397901297105159834497864380415, 3504781284999684163274269077749440837914479176282903747))
/-- `edwards_ate_loop_count`, edwards_init.cpp:178. -/
def edwards_ate_loop_count : Nat := 4492509698523932320491110403
/-- `edwards_final_exponent_last_chunk_abs_of_w0`, edwards_init.cpp:179. -/
def edwards_final_exponent_last_chunk_abs_of_w0 : Nat := 17970038794095729281964441603
/-- `edwards_final_exponent_last_chunk_is_w0_neg`, edwards_init.cpp:180. -/
def edwards_final_exponent_last_chunk_is_w0_neg : Bool := true
/-- `edwards_final_exponent_last_chunk_w1`, edwards_init.cpp:181. -/
def edwards_final_exponent_last_chunk_w1 : Nat := 4

end Libff
