import Verif.Model.Pairing12
import Verif.Model.MulByQCurves
import Verif.Spec.Limbs

/-!
# The pairings of alt_bn128 and bls12_381, with their parameters
-/
namespace Libff
set_option synthInstance.maxSize 2000

/-- The parameters of alt_bn128: alt_bn128_init.cpp:182-185 (constants), alt_bn128_init.hpp:26-28 (widths: `alt_bn128_q_limbs`
= 4), and the Frobenius tables of alt_bn128_init.cpp. -/
def alt_bn128_ate : Ate12 alt_bn128_Fq alt_bn128_β alt_bn128_ξ where
  twoInv := ((2 : Nat) : alt_bn128_Fq)⁻¹
  twist := alt_bn128_twist
  twistB := alt_bn128_twist_b
  frob := Fp12.frobeniusMap (fun i => ((alt_bn128_Fq2_frob_c1.getD i 0 : Nat) : alt_bn128_Fq))
    (fun i => dec2 Nat.cast (alt_bn128_Fq6_frob_c1.getD i (0, 0))) (fun i => dec2 Nat.cast (alt_bn128_Fq6_frob_c2.getD i (0, 0)))
    (fun i => dec2 Nat.cast (alt_bn128_Fq12_frob_c1.getD i (0, 0)))
  mulByQ := alt_bn128_G2_mul_by_q
  loopCount := limbsOf 4 alt_bn128_ate_loop_count
  loopNeg := alt_bn128_ate_is_loop_count_neg
  z := limbsOf 4 alt_bn128_final_exponent_z
  zNeg := alt_bn128_final_exponent_is_z_neg

/-- The parameters of bls12_381: bls12_381_init.cpp:177-181, bls12_381_init.hpp:26-30 (`bls12_381_q_limbs` = 6). -/
def bls12_381_ate : Ate12 bls12_381_Fq bls12_381_β bls12_381_ξ where
  twoInv := ((2 : Nat) : bls12_381_Fq)⁻¹
  twist := bls12_381_twist
  twistB := bls12_381_twist_b
  frob := Fp12.frobeniusMap (fun i => ((bls12_381_Fq2_frob_c1.getD i 0 : Nat) : bls12_381_Fq))
    (fun i => dec2 Nat.cast (bls12_381_Fq6_frob_c1.getD i (0, 0))) (fun i => dec2 Nat.cast (bls12_381_Fq6_frob_c2.getD i (0, 0)))
    (fun i => dec2 Nat.cast (bls12_381_Fq12_frob_c1.getD i (0, 0)))
  mulByQ := bls12_381_G2_mul_by_q
  loopCount := limbsOf 6 bls12_381_ate_loop_count
  loopNeg := bls12_381_ate_is_loop_count_neg
  z := limbsOf 6 bls12_381_final_exponent_z
  zNeg := bls12_381_final_exponent_is_z_neg

/-- `alt_bn128_final_exponentiation`. -/
noncomputable def alt_bn128_final_exponentiation : alt_bn128_Fq12 → Outcome alt_bn128_Fq12 := alt_bn128_ate.bnFinalExponentiation
/-- `alt_bn128_miller_loop`. -/
noncomputable def alt_bn128_miller_loop : AteG1Precomp alt_bn128_Fq → AteG2Precomp alt_bn128_Fq2 → Outcome alt_bn128_Fq12 :=
  alt_bn128_ate.bnMillerLoop
/-- `alt_bn128_double_miller_loop`. -/
noncomputable def alt_bn128_double_miller_loop : AteG1Precomp alt_bn128_Fq → AteG2Precomp alt_bn128_Fq2 → AteG1Precomp alt_bn128_Fq →
    AteG2Precomp alt_bn128_Fq2 → Outcome alt_bn128_Fq12 := alt_bn128_ate.bnDoubleMillerLoop
/-- `alt_bn128_reduced_pairing`. -/
noncomputable def alt_bn128_reduced_pairing : Coord3 alt_bn128_Fq → Coord3 alt_bn128_Fq2 → Outcome alt_bn128_Fq12 :=
  alt_bn128_ate.bnReducedPairing

/-- `bls12_381_final_exponentiation`. -/
noncomputable def bls12_381_final_exponentiation : bls12_381_Fq12 → Outcome bls12_381_Fq12 := bls12_381_ate.blsFinalExponentiation
/-- `bls12_381_miller_loop`. -/
noncomputable def bls12_381_miller_loop : AteG1Precomp bls12_381_Fq → AteG2Precomp bls12_381_Fq2 → Outcome bls12_381_Fq12 :=
  bls12_381_ate.blsMillerLoop
/-- `bls12_381_double_miller_loop`. -/
noncomputable def bls12_381_double_miller_loop : AteG1Precomp bls12_381_Fq → AteG2Precomp bls12_381_Fq2 → AteG1Precomp bls12_381_Fq →
    AteG2Precomp bls12_381_Fq2 → Outcome bls12_381_Fq12 := bls12_381_ate.blsDoubleMillerLoop
/-- `bls12_381_reduced_pairing`. -/
noncomputable def bls12_381_reduced_pairing : Coord3 bls12_381_Fq → Coord3 bls12_381_Fq2 → Outcome bls12_381_Fq12 :=
  bls12_381_ate.blsReducedPairing

end Libff
