import Verif.Model.GroupsAltBn128
import Verif.Model.GroupsBls12381
import Verif.Model.GroupsMnt4
import Verif.Model.GroupsMnt6

/-!
# `mul_by_cofactor`

`h_limbs` is `h_bitcount` rounded up to limbs; the literals are those of the `init_…_params` functions.
-/
namespace Libff
set_option synthInstance.maxSize 2000

/-- `alt_bn128_G1::mul_by_cofactor`, alt_bn128_g1.cpp:320-324: the cofactor is one. -/
def alt_bn128_G1_mul_by_cofactor (p : Coord3 alt_bn128_Fq) : Coord3 alt_bn128_Fq := p

/-- `alt_bn128_G2::h`, alt_bn128_g2.hpp:38-40, alt_bn128_init.cpp:126. -/
def alt_bn128_G2_h_bigint : List Limb := limbsOf 4 alt_bn128_G2_h
/-- `alt_bn128_G2::mul_by_cofactor`, alt_bn128_g2.cpp:337-340. -/
def alt_bn128_G2_mul_by_cofactor (p : Coord3 alt_bn128_Fq2) : Coord3 alt_bn128_Fq2 :=
  @scalarMul _ ⟨Jac.zero, Jac.add, Jac.sub, Jac.dbl⟩ p alt_bn128_G2_h_bigint

/-- `bls12_381_G1::h`, bls12_381_g1.hpp:32-34, bls12_381_init.cpp. -/
def bls12_381_G1_h_bigint : List Limb := limbsOf 2 bls12_381_G1_h
/-- `bls12_381_G1::mul_by_cofactor`, bls12_381_g1.cpp:309-312. -/
def bls12_381_G1_mul_by_cofactor (p : Coord3 bls12_381_Fq) : Coord3 bls12_381_Fq :=
  @scalarMul _ ⟨Jac.zero, Jac.add, Jac.sub, Jac.dbl⟩ p bls12_381_G1_h_bigint

/-- `bls12_381_G2::h`, bls12_381_g2.hpp:32-34, bls12_381_init.cpp. -/
def bls12_381_G2_h_bigint : List Limb := limbsOf 8 bls12_381_G2_h
/-- `bls12_381_G2::mul_by_cofactor`, bls12_381_g2.cpp:323-326. -/
def bls12_381_G2_mul_by_cofactor (p : Coord3 bls12_381_Fq2) : Coord3 bls12_381_Fq2 :=
  @scalarMul _ ⟨Jac.zero, Jac.add, Jac.sub, Jac.dbl⟩ p bls12_381_G2_h_bigint

/-- `mnt4_G1::mul_by_cofactor`, mnt4_g1.cpp:352-356: the cofactor is one. -/
def mnt4_G1_mul_by_cofactor (p : Coord3 mnt4_Fq) : Coord3 mnt4_Fq := p

/-- `mnt4_G2::h`, mnt4_g2.hpp:46-48, mnt4_init.cpp:136. -/
def mnt4_G2_h_bigint : List Limb := limbsOf 5 mnt4_G2_h
/-- `mnt4_G2::mul_by_cofactor`, mnt4_g2.cpp:375-378. -/
def mnt4_G2_mul_by_cofactor (p : Coord3 mnt4_Fq2) : Coord3 mnt4_Fq2 :=
  @scalarMul _ ⟨Proj.zero, Proj.plus mnt4_G2_mul_by_a, Proj.sub mnt4_G2_mul_by_a, Proj.dbl mnt4_G2_mul_by_a⟩ p mnt4_G2_h_bigint

/-- `mnt6_G1::mul_by_cofactor`, mnt6_g1.cpp:352-356: the cofactor is one. -/
def mnt6_G1_mul_by_cofactor (p : Coord3 mnt6_Fq) : Coord3 mnt6_Fq := p

/-- `mnt6_G2::h`, mnt6_g2.hpp:46-48, mnt6_init.cpp:141. -/
def mnt6_G2_h_bigint : List Limb := limbsOf 10 mnt6_G2_h
/-- `mnt6_G2::mul_by_cofactor`, mnt6_g2.cpp:381-384. -/
def mnt6_G2_mul_by_cofactor (p : Coord3 mnt6_Fq3) : Coord3 mnt6_Fq3 :=
  @scalarMul _ ⟨Proj.zero, Proj.plus mnt6_G2_mul_by_a, Proj.sub mnt6_G2_mul_by_a, Proj.dbl mnt6_G2_mul_by_a⟩ p mnt6_G2_h_bigint

end Libff
