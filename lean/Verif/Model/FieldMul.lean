import Verif.Model.Fp
import Verif.Model.Group

/-!
# Multiplication of a group element by an element of a prime field
-/
namespace Libff

/-- `operator*(const Fp_model<m,modulus_p> &lhs, const G &rhs)` of every group class:
`scalar_mul<G, m>(rhs, lhs.as_bigint())`; alt_bn128_g1.hpp:88-92, alt_bn128_g2.hpp, bls12_381_g1.hpp,
bls12_381_g2.hpp, mnt4_g1.hpp, mnt4_g2.hpp, mnt6_g1.hpp, mnt6_g2.hpp, edwards_g1.hpp, edwards_g2.hpp (the same
four lines in each). `a` is the stored vector of `lhs`. -/
def fieldMul {G : Type} [GroupOps G] (P : FpParams) (a : List Limb) (g : G) : Outcome G :=
  (fpAsBigint P a).map (scalarMul g)

end Libff
