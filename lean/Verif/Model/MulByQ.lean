import Verif.Model.Curve

/-!
# `mul_by_q`: the Frobenius endomorphism on the twists
-/
namespace Libff
variable {K : Type*}

/-- `alt_bn128_G2::mul_by_q`, alt_bn128_g2.cpp:330-335; `bls12_381_G2::mul_by_q`, bls12_381_g2.cpp:316-321;
`mnt4_G2::mul_by_q`, mnt4_g2.cpp:368-373; `mnt6_G2::mul_by_q`, mnt6_g2.cpp:374-379. `frob` is `Frobenius_map(1)` of the
coordinate field, `mulX`, `mulY` the products with `twist_mul_by_q_X`, `twist_mul_by_q_Y` (which are elements of the
coordinate field for alt_bn128 and bls12_381, of the prime field for mnt4 and mnt6). -/
def Coord3.mulByQ (frob mulX mulY : K → K) (p : Coord3 K) : Coord3 K :=
  ⟨mulX (frob p.X), mulY (frob p.Y), frob p.Z⟩

/-- `edwards_G2::mul_by_q`, edwards_g2.cpp:287-292. -/
def Edw.mulByQ (frob mulY mulZ : K → K) (p : Coord3 K) : Coord3 K :=
  ⟨frob p.X, mulY (frob p.Y), mulZ (frob p.Z)⟩

end Libff
