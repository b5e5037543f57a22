import Verif.Model.GroupsBls12381
import Verif.Lemmas.CurveOrder

/-!
# C52, C38: the generators of bls12_381
-/
namespace Libff
set_option synthInstance.maxSize 2000
open bls12_381_K

theorem bls12_381_twist_b_rel : R2 (Quad.scale (· * ·) (NM.of bls12_381_coeff_b_nat) (dec2 NM.of bls12_381_twist_nat)) bls12_381_twist_b :=
  have hb : R1 (NM.of bls12_381_coeff_b_nat) bls12_381_b := FpRel.cast (by decide +kernel)
  have ht : R2 (dec2 NM.of bls12_381_twist_nat) bls12_381_twist := dec2_rel _ (by decide +kernel)
  ⟨o1.mul hb ht.1, o1.mul hb ht.2⟩

/-- C52, C38. `bls12_381_G1::one()` is well formed, is a point of `y² = x³ + b`, and its order is the characteristic
`r` of the scalar field. -/
theorem C52_bls12_381_G1_generator : (2 : bls12_381_Fq) ≠ 0 ∧ (3 : bls12_381_Fq) ≠ 0 ∧ bls12_381_b ≠ 0 ∧
    Jac.isWellFormed bls12_381_b bls12_381_G1_one = true ∧
    ∃ P : (sw 0 bls12_381_b).Point, JacRep bls12_381_G1_one P ∧ addOrderOf P = bls12_381_Fr_params.p :=
  Jac.genCheck_sound o1 (b := NM.of bls12_381_coeff_b_nat) (g := ⟨NM.of bls12_381_G1_one_nat.1, NM.of bls12_381_G1_one_nat.2, 1⟩)
    (FpRel.cast (by decide +kernel))
    ⟨FpRel.cast (v := bls12_381_G1_one_nat.1) (by decide +kernel), FpRel.cast (v := bls12_381_G1_one_nat.2) (by decide +kernel), o1.one⟩
    (e := bls12_381_Fr_params.modulus) bls12_381_Fr_prime (by decide +kernel)

/-- C52, C38. `bls12_381_G2::one()` is well formed, is a point of the twist `y² = x³ + b'`, and has order `r`. -/
theorem C52_bls12_381_G2_generator : (2 : bls12_381_Fq2) ≠ 0 ∧ (3 : bls12_381_Fq2) ≠ 0 ∧ bls12_381_twist_b ≠ 0 ∧
    Jac.isWellFormed bls12_381_twist_b bls12_381_G2_one = true ∧
    ∃ P : (sw 0 bls12_381_twist_b).Point, JacRep bls12_381_G2_one P ∧ addOrderOf P = bls12_381_Fr_params.p :=
  Jac.genCheck_sound o2 (g := ⟨dec2 NM.of bls12_381_G2_one_nat.1, dec2 NM.of bls12_381_G2_one_nat.2, 1⟩) bls12_381_twist_b_rel
    ⟨dec2_rel _ (by decide +kernel), dec2_rel _ (by decide +kernel), o2.one⟩
    (e := bls12_381_Fr_params.modulus) bls12_381_Fr_prime (by decide +kernel)

/-- C38. The generators of bls12_381 pass `is_well_formed`. -/
theorem C38_bls12_381_generators : Jac.isWellFormed bls12_381_b bls12_381_G1_one = true ∧
    Jac.isWellFormed bls12_381_twist_b bls12_381_G2_one = true :=
  ⟨C52_bls12_381_G1_generator.2.2.2.1, C52_bls12_381_G2_generator.2.2.2.1⟩

end Libff
