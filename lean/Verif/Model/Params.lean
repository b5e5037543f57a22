import Verif.Spec.FpParams

/-!
# The static data of the prime fields of all curves

Values copied from the `init_*_fields()` functions (64-bit limb branch).  A decimal literal parsed by
`bigint(const char*)` is written here as `limbsOf n v`; elements constructed from decimal strings
are given as natural numbers.
-/
namespace Libff

/-- Static members of `Fp_model` (fp.hpp:52-75). `multGen`, `rootOfUnity`, `nqr`, `nqrToT` are
field elements, given by the integer they are constructed from. -/
structure PrimeField where
  P : FpParams
  numBits : Nat
  euler : Nat
  s : Nat
  t : Nat
  tMinus1Over2 : Nat
  multGen : Nat
  rootOfUnity : Nat
  nqr : Nat
  nqrToT : Nat

/-- `alt_bn128_Fr`, libff/algebra/curves/alt_bn128/alt_bn128_fields.cpp:24-46. -/
def alt_bn128_Fr_params : FpParams where
  n := 4
  modulus := limbsOf 4 21888242871839275222246405745257275088548364400416034343698204186575808495617
  inv := 0xc2e1f593efffffff
  Rsquared := limbsOf 4 944936681149208446651664254269745548490766851729442924617792859073125903783
  Rcubed := limbsOf 4 5866548545943845227489894872040244720403868105578784105281690076696998248512

/-- `alt_bn128_Fr`, libff/algebra/curves/alt_bn128/alt_bn128_fields.cpp:24-46. -/
def alt_bn128_Fr_data : PrimeField where
  P := alt_bn128_Fr_params
  numBits := 254
  euler := 10944121435919637611123202872628637544274182200208017171849102093287904247808
  s := 28
  t := 81540058820840996586704275553141814055101440848469862132140264610111
  tMinus1Over2 := 40770029410420498293352137776570907027550720424234931066070132305055
  multGen := 5
  rootOfUnity := 19103219067921713944291392827692070036145651957329286315305642004821462161904
  nqr := 5
  nqrToT := 19103219067921713944291392827692070036145651957329286315305642004821462161904

/-- `alt_bn128_Fq`, libff/algebra/curves/alt_bn128/alt_bn128_fields.cpp:50-72. -/
def alt_bn128_Fq_params : FpParams where
  n := 4
  modulus := limbsOf 4 21888242871839275222246405745257275088696311157297823662689037894645226208583
  inv := 0x87d20782e4866389
  Rsquared := limbsOf 4 3096616502983703923843567936837374451735540968419076528771170197431451843209
  Rcubed := limbsOf 4 14921786541159648185948152738563080959093619838510245177710943249661917737183

/-- `alt_bn128_Fq`, libff/algebra/curves/alt_bn128/alt_bn128_fields.cpp:50-72. -/
def alt_bn128_Fq_data : PrimeField where
  P := alt_bn128_Fq_params
  numBits := 254
  euler := 10944121435919637611123202872628637544348155578648911831344518947322613104291
  s := 1
  t := 10944121435919637611123202872628637544348155578648911831344518947322613104291
  tMinus1Over2 := 5472060717959818805561601436314318772174077789324455915672259473661306552145
  multGen := 3
  rootOfUnity := 21888242871839275222246405745257275088696311157297823662689037894645226208582
  nqr := 3
  nqrToT := 21888242871839275222246405745257275088696311157297823662689037894645226208582

/-- `bls12_381_Fr`, libff/algebra/curves/bls12_381/bls12_381_fields.cpp:24-46. -/
def bls12_381_Fr_params : FpParams where
  n := 4
  modulus := limbsOf 4 52435875175126190479447740508185965837690552500527637822603658699938581184513
  inv := 0xfffffffeffffffff
  Rsquared := limbsOf 4 3294906474794265442129797520630710739278575682199800681788903916070560242797
  Rcubed := limbsOf 4 49829253988540319354550742249276084460127446355315915089527227471280320770991

/-- `bls12_381_Fr`, libff/algebra/curves/bls12_381/bls12_381_fields.cpp:24-46. -/
def bls12_381_Fr_data : PrimeField where
  P := bls12_381_Fr_params
  numBits := 255
  euler := 26217937587563095239723870254092982918845276250263818911301829349969290592256
  s := 32
  t := 12208678567578594777604504606729831043093128246378069236549469339647
  tMinus1Over2 := 6104339283789297388802252303364915521546564123189034618274734669823
  multGen := 7
  rootOfUnity := 10238227357739495823651030575849232062558860180284477541189508159991286009131
  nqr := 5
  nqrToT := 937917089079007706106976984802249742464848817460758522850752807661925904159

/-- `bls12_381_Fq`, libff/algebra/curves/bls12_381/bls12_381_fields.cpp:49-72. -/
def bls12_381_Fq_params : FpParams where
  n := 6
  modulus := limbsOf 6 4002409555221667393417789825735904156556882819939007885332058136124031650490837864442687629129015664037894272559787
  inv := 0x89f3fffcfffcfffd
  Rsquared := limbsOf 6 2708263910654730174793787626328176511836455197166317677006154293982164122222515399004018013397331347120527951271750
  Rcubed := limbsOf 6 1639067542774625894236716575548084905938753837211594095883637014582201460755008380976950835174037649440777609978336

/-- `bls12_381_Fq`, libff/algebra/curves/bls12_381/bls12_381_fields.cpp:49-72. -/
def bls12_381_Fq_data : PrimeField where
  P := bls12_381_Fq_params
  numBits := 381
  euler := 2001204777610833696708894912867952078278441409969503942666029068062015825245418932221343814564507832018947136279893
  s := 1
  t := 2001204777610833696708894912867952078278441409969503942666029068062015825245418932221343814564507832018947136279893
  tMinus1Over2 := 1000602388805416848354447456433976039139220704984751971333014534031007912622709466110671907282253916009473568139946
  multGen := 2
  rootOfUnity := 4002409555221667393417789825735904156556882819939007885332058136124031650490837864442687629129015664037894272559786
  nqr := 2
  nqrToT := 4002409555221667393417789825735904156556882819939007885332058136124031650490837864442687629129015664037894272559786

/-- `bn128_Fr`, libff/algebra/curves/bn128/bn128_fields.cpp:25-47. -/
def bn128_Fr_params : FpParams where
  n := 4
  modulus := limbsOf 4 21888242871839275222246405745257275088548364400416034343698204186575808495617
  inv := 0xc2e1f593efffffff
  Rsquared := limbsOf 4 944936681149208446651664254269745548490766851729442924617792859073125903783
  Rcubed := limbsOf 4 5866548545943845227489894872040244720403868105578784105281690076696998248512

/-- `bn128_Fr`, libff/algebra/curves/bn128/bn128_fields.cpp:25-47. -/
def bn128_Fr_data : PrimeField where
  P := bn128_Fr_params
  numBits := 254
  euler := 10944121435919637611123202872628637544274182200208017171849102093287904247808
  s := 28
  t := 81540058820840996586704275553141814055101440848469862132140264610111
  tMinus1Over2 := 40770029410420498293352137776570907027550720424234931066070132305055
  multGen := 5
  rootOfUnity := 19103219067921713944291392827692070036145651957329286315305642004821462161904
  nqr := 5
  nqrToT := 19103219067921713944291392827692070036145651957329286315305642004821462161904

/-- `bn128_Fq`, libff/algebra/curves/bn128/bn128_fields.cpp:50-72. -/
def bn128_Fq_params : FpParams where
  n := 4
  modulus := limbsOf 4 21888242871839275222246405745257275088696311157297823662689037894645226208583
  inv := 0x87d20782e4866389
  Rsquared := limbsOf 4 3096616502983703923843567936837374451735540968419076528771170197431451843209
  Rcubed := limbsOf 4 14921786541159648185948152738563080959093619838510245177710943249661917737183

/-- `bn128_Fq`, libff/algebra/curves/bn128/bn128_fields.cpp:50-72. -/
def bn128_Fq_data : PrimeField where
  P := bn128_Fq_params
  numBits := 254
  euler := 10944121435919637611123202872628637544348155578648911831344518947322613104291
  s := 1
  t := 10944121435919637611123202872628637544348155578648911831344518947322613104291
  tMinus1Over2 := 5472060717959818805561601436314318772174077789324455915672259473661306552145
  multGen := 3
  rootOfUnity := 21888242871839275222246405745257275088696311157297823662689037894645226208582
  nqr := 3
  nqrToT := 21888242871839275222246405745257275088696311157297823662689037894645226208582

/-- `mnt4_Fr`, libff/algebra/curves/mnt/mnt4/mnt4_fields.cpp:27-49. -/
def mnt4_Fr_params : FpParams where
  n := 5
  modulus := limbsOf 5 475922286169261325753349249653048451545124878552823515553267735739164647307408490559963137
  inv := 0xbb4334a3ffffffff
  Rsquared := limbsOf 5 163983144722506446826715124368972380525894397127205577781234305496325861831001705438796139
  Rcubed := limbsOf 5 207236281459091063710247635236340312578688659363066707916716212805695955118593239854980171

/-- `mnt4_Fr`, libff/algebra/curves/mnt/mnt4/mnt4_fields.cpp:27-49. -/
def mnt4_Fr_data : PrimeField where
  P := mnt4_Fr_params
  numBits := 298
  euler := 237961143084630662876674624826524225772562439276411757776633867869582323653704245279981568
  s := 34
  t := 27702323054502562488973446286577291993024111641153199339359284829066871159442729
  tMinus1Over2 := 13851161527251281244486723143288645996512055820576599669679642414533435579721364
  multGen := 10
  rootOfUnity := 120638817826913173458768829485690099845377008030891618010109772937363554409782252579816313
  nqr := 5
  nqrToT := 406220604243090401056429458730298145937262552508985450684842547562990900634752279902740880

/-- `mnt4_Fq`, libff/algebra/curves/mnt/mnt4/mnt4_fields.cpp:53-75. -/
def mnt4_Fq_params : FpParams where
  n := 5
  modulus := limbsOf 5 475922286169261325753349249653048451545124879242694725395555128576210262817955800483758081
  inv := 0xb071a1b67165ffff
  Rsquared := limbsOf 5 273000478523237720910981655601160860640083126627235719712980612296263966512828033847775776
  Rcubed := limbsOf 5 427298980065529822574935274648041073124704261331681436071990730954930769758106792920349077

/-- `mnt4_Fq`, libff/algebra/curves/mnt/mnt4/mnt4_fields.cpp:53-75. -/
def mnt4_Fq_data : PrimeField where
  P := mnt4_Fq_params
  numBits := 298
  euler := 237961143084630662876674624826524225772562439621347362697777564288105131408977900241879040
  s := 17
  t := 3630998887399759870554727551674258816109656366292531779446068791017229177993437198515
  tMinus1Over2 := 1815499443699879935277363775837129408054828183146265889723034395508614588996718599257
  multGen := 17
  rootOfUnity := 264706250571800080758069302369654305530125675521263976034054878017580902343339784464690243
  nqr := 17
  nqrToT := 264706250571800080758069302369654305530125675521263976034054878017580902343339784464690243

/-- `mnt6_Fr`, libff/algebra/curves/mnt/mnt6/mnt6_fields.cpp:27-49. -/
def mnt6_Fr_params : FpParams where
  n := 5
  modulus := limbsOf 5 475922286169261325753349249653048451545124879242694725395555128576210262817955800483758081
  inv := 0xb071a1b67165ffff
  Rsquared := limbsOf 5 273000478523237720910981655601160860640083126627235719712980612296263966512828033847775776
  Rcubed := limbsOf 5 427298980065529822574935274648041073124704261331681436071990730954930769758106792920349077

/-- `mnt6_Fr`, libff/algebra/curves/mnt/mnt6/mnt6_fields.cpp:27-49. -/
def mnt6_Fr_data : PrimeField where
  P := mnt6_Fr_params
  numBits := 298
  euler := 237961143084630662876674624826524225772562439621347362697777564288105131408977900241879040
  s := 17
  t := 3630998887399759870554727551674258816109656366292531779446068791017229177993437198515
  tMinus1Over2 := 1815499443699879935277363775837129408054828183146265889723034395508614588996718599257
  multGen := 17
  rootOfUnity := 264706250571800080758069302369654305530125675521263976034054878017580902343339784464690243
  nqr := 17
  nqrToT := 264706250571800080758069302369654305530125675521263976034054878017580902343339784464690243

/-- `mnt6_Fq`, libff/algebra/curves/mnt/mnt6/mnt6_fields.cpp:53-75. -/
def mnt6_Fq_params : FpParams where
  n := 5
  modulus := limbsOf 5 475922286169261325753349249653048451545124878552823515553267735739164647307408490559963137
  inv := 0xbb4334a3ffffffff
  Rsquared := limbsOf 5 163983144722506446826715124368972380525894397127205577781234305496325861831001705438796139
  Rcubed := limbsOf 5 207236281459091063710247635236340312578688659363066707916716212805695955118593239854980171

/-- `mnt6_Fq`, libff/algebra/curves/mnt/mnt6/mnt6_fields.cpp:53-75. -/
def mnt6_Fq_data : PrimeField where
  P := mnt6_Fq_params
  numBits := 298
  euler := 237961143084630662876674624826524225772562439276411757776633867869582323653704245279981568
  s := 34
  t := 27702323054502562488973446286577291993024111641153199339359284829066871159442729
  tMinus1Over2 := 13851161527251281244486723143288645996512055820576599669679642414533435579721364
  multGen := 10
  rootOfUnity := 120638817826913173458768829485690099845377008030891618010109772937363554409782252579816313
  nqr := 5
  nqrToT := 406220604243090401056429458730298145937262552508985450684842547562990900634752279902740880

/-- `edwards_Fr`, libff/algebra/curves/edwards/edwards_fields.cpp:24-46. -/
def edwards_Fr_params : FpParams where
  n := 3
  modulus := limbsOf 3 1552511030102430251236801561344621993261920897571225601
  inv := 0xdde553277fffffff
  Rsquared := limbsOf 3 621738487827897760168419760282818735947979812540885779
  Rcubed := limbsOf 3 899968968216802386013510389846941393831065658679774050

/-- `edwards_Fr`, libff/algebra/curves/edwards/edwards_fields.cpp:24-46. -/
def edwards_Fr_data : PrimeField where
  P := edwards_Fr_params
  numBits := 181
  euler := 776255515051215125618400780672310996630960448785612800
  s := 31
  t := 722944284836962004768104088187507350585386575
  tMinus1Over2 := 361472142418481002384052044093753675292693287
  multGen := 19
  rootOfUnity := 695314865466598274460565335217615316274564719601897184
  nqr := 11
  nqrToT := 1326707053668679463752768729767248251415639579872144553

/-- `edwards_Fq`, libff/algebra/curves/edwards/edwards_fields.cpp:50-72. -/
def edwards_Fq_params : FpParams where
  n := 3
  modulus := limbsOf 3 6210044120409721004947206240885978274523751269793792001
  inv := 0x76eb690b7fffffff
  Rsquared := limbsOf 3 5943559676554581037560514598978484097352477055348195432
  Rcubed := limbsOf 3 1081560488703514202058739223469726982199727506489234349

/-- `edwards_Fq`, libff/algebra/curves/edwards/edwards_fields.cpp:50-72. -/
def edwards_Fq_data : PrimeField where
  P := edwards_Fq_params
  numBits := 183
  euler := 3105022060204860502473603120442989137261875634896896000
  s := 31
  t := 2891777139347848019072416350658041552884388375
  tMinus1Over2 := 1445888569673924009536208175329020776442194187
  multGen := 61
  rootOfUnity := 4692813029219384139894873043933463717810008194158530536
  nqr := 23
  nqrToT := 2626736066325740702418554487368721595489070118548299138

/-- All prime fields the library initialises. -/
def allPrimeFields : List PrimeField :=
  [alt_bn128_Fr_data,
   alt_bn128_Fq_data,
   bls12_381_Fr_data,
   bls12_381_Fq_data,
   bn128_Fr_data,
   bn128_Fq_data,
   mnt4_Fr_data,
   mnt4_Fq_data,
   mnt6_Fr_data,
   mnt6_Fq_data,
   edwards_Fr_data,
   edwards_Fq_data]

end Libff
