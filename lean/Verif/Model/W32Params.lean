import Verif.Model.W32

/-!
# The static data of the prime fields with limbs of 32 bits

Values copied from the branches `sizeof(mp_limb_t) == 4` of the `init_*_fields()` functions. The number of limbs is
`(bitcount + GMP_NUMB_BITS - 1) / GMP_NUMB_BITS` of the `*_fields.hpp` files.
-/
namespace Libff.W32

/-- `alt_bn128_Fr`, libff/algebra/curves/alt_bn128/alt_bn128_fields.cpp:24, 32-37. -/
def alt_bn128_Fr_params : FpParams where
  n := 8
  modulus := limbsOf 8 21888242871839275222246405745257275088548364400416034343698204186575808495617
  inv := 0xefffffff
  Rsquared := limbsOf 8 944936681149208446651664254269745548490766851729442924617792859073125903783
  Rcubed := limbsOf 8 5866548545943845227489894872040244720403868105578784105281690076696998248512

/-- `alt_bn128_Fq`, libff/algebra/curves/alt_bn128/alt_bn128_fields.cpp:50, 58-63. -/
def alt_bn128_Fq_params : FpParams where
  n := 8
  modulus := limbsOf 8 21888242871839275222246405745257275088696311157297823662689037894645226208583
  inv := 0xe4866389
  Rsquared := limbsOf 8 3096616502983703923843567936837374451735540968419076528771170197431451843209
  Rcubed := limbsOf 8 14921786541159648185948152738563080959093619838510245177710943249661917737183

/-- `bls12_381_Fr`, libff/algebra/curves/bls12_381/bls12_381_fields.cpp:24, 32-37. -/
def bls12_381_Fr_params : FpParams where
  n := 8
  modulus := limbsOf 8 52435875175126190479447740508185965837690552500527637822603658699938581184513
  inv := 0xffffffff
  Rsquared := limbsOf 8 3294906474794265442129797520630710739278575682199800681788903916070560242797
  Rcubed := limbsOf 8 49829253988540319354550742249276084460127446355315915089527227471280320770991

/-- `bls12_381_Fq`, libff/algebra/curves/bls12_381/bls12_381_fields.cpp:49, 58-63. -/
def bls12_381_Fq_params : FpParams where
  n := 12
  modulus := limbsOf 12 4002409555221667393417789825735904156556882819939007885332058136124031650490837864442687629129015664037894272559787
  inv := 0xfffcfffd
  Rsquared := limbsOf 12 2708263910654730174793787626328176511836455197166317677006154293982164122222515399004018013397331347120527951271750
  Rcubed := limbsOf 12 1639067542774625894236716575548084905938753837211594095883637014582201460755008380976950835174037649440777609978336

/-- `bn128_Fr`, libff/algebra/curves/bn128/bn128_fields.cpp:25, 33-38. -/
def bn128_Fr_params : FpParams where
  n := 8
  modulus := limbsOf 8 21888242871839275222246405745257275088548364400416034343698204186575808495617
  inv := 0xefffffff
  Rsquared := limbsOf 8 944936681149208446651664254269745548490766851729442924617792859073125903783
  Rcubed := limbsOf 8 5866548545943845227489894872040244720403868105578784105281690076696998248512

/-- `bn128_Fq`, libff/algebra/curves/bn128/bn128_fields.cpp:50, 58-63. -/
def bn128_Fq_params : FpParams where
  n := 8
  modulus := limbsOf 8 21888242871839275222246405745257275088696311157297823662689037894645226208583
  inv := 0xe4866389
  Rsquared := limbsOf 8 3096616502983703923843567936837374451735540968419076528771170197431451843209
  Rcubed := limbsOf 8 14921786541159648185948152738563080959093619838510245177710943249661917737183

/-- `mnt4_Fr`, libff/algebra/curves/mnt/mnt4/mnt4_fields.cpp:27, 35-40. -/
def mnt4_Fr_params : FpParams where
  n := 10
  modulus := limbsOf 10 475922286169261325753349249653048451545124878552823515553267735739164647307408490559963137
  inv := 0xffffffff
  Rsquared := limbsOf 10 163983144722506446826715124368972380525894397127205577781234305496325861831001705438796139
  Rcubed := limbsOf 10 207236281459091063710247635236340312578688659363066707916716212805695955118593239854980171

/-- `mnt4_Fq`, libff/algebra/curves/mnt/mnt4/mnt4_fields.cpp:53, 61-66. -/
def mnt4_Fq_params : FpParams where
  n := 10
  modulus := limbsOf 10 475922286169261325753349249653048451545124879242694725395555128576210262817955800483758081
  inv := 0x7165ffff
  Rsquared := limbsOf 10 273000478523237720910981655601160860640083126627235719712980612296263966512828033847775776
  Rcubed := limbsOf 10 427298980065529822574935274648041073124704261331681436071990730954930769758106792920349077

/-- `mnt6_Fr`, libff/algebra/curves/mnt/mnt6/mnt6_fields.cpp:27, 35-40. -/
def mnt6_Fr_params : FpParams where
  n := 10
  modulus := limbsOf 10 475922286169261325753349249653048451545124879242694725395555128576210262817955800483758081
  inv := 0x7165ffff
  Rsquared := limbsOf 10 273000478523237720910981655601160860640083126627235719712980612296263966512828033847775776
  Rcubed := limbsOf 10 427298980065529822574935274648041073124704261331681436071990730954930769758106792920349077

/-- `mnt6_Fq`, libff/algebra/curves/mnt/mnt6/mnt6_fields.cpp:53, 61-66. -/
def mnt6_Fq_params : FpParams where
  n := 10
  modulus := limbsOf 10 475922286169261325753349249653048451545124878552823515553267735739164647307408490559963137
  inv := 0xffffffff
  Rsquared := limbsOf 10 163983144722506446826715124368972380525894397127205577781234305496325861831001705438796139
  Rcubed := limbsOf 10 207236281459091063710247635236340312578688659363066707916716212805695955118593239854980171

/-- `edwards_Fr`, libff/algebra/curves/edwards/edwards_fields.cpp:24, 32-37. -/
def edwards_Fr_params : FpParams where
  n := 6
  modulus := limbsOf 6 1552511030102430251236801561344621993261920897571225601
  inv := 0x7fffffff
  Rsquared := limbsOf 6 621738487827897760168419760282818735947979812540885779
  Rcubed := limbsOf 6 899968968216802386013510389846941393831065658679774050

/-- `edwards_Fq`, libff/algebra/curves/edwards/edwards_fields.cpp:50, 58-63. -/
def edwards_Fq_params : FpParams where
  n := 6
  modulus := limbsOf 6 6210044120409721004947206240885978274523751269793792001
  inv := 0x7fffffff
  Rsquared := limbsOf 6 5943559676554581037560514598978484097352477055348195432
  Rcubed := limbsOf 6 1081560488703514202058739223469726982199727506489234349

end Libff.W32
