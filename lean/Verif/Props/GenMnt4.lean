import Verif.Model.GroupsMnt4
import Verif.Lemmas.CurveOrder

/-!
# C52, C38: the generators of mnt4
-/
namespace Libff
set_option synthInstance.maxSize 2000
open mnt4_K

/-- C52, C38. `mnt4_G1::one()` is well formed, is a point of `y² = x³ + a x + b`, and its order is the
characteristic `r` of the scalar field. -/
theorem C52_mnt4_G1_generator : (2 : mnt4_Fq) ≠ 0 ∧ 4 * mnt4_a ^ 3 + 27 * mnt4_b ^ 2 ≠ 0 ∧
    Proj.isWellFormed mnt4_a mnt4_b mnt4_G1_one = true ∧
    ∃ P : (sw mnt4_a mnt4_b).Point, ProjRep mnt4_G1_one P ∧ addOrderOf P = mnt4_Fr_params.p :=
  have ra : R1 (NM.of mnt4_coeff_a_nat) mnt4_a := FpRel.cast (by decide +kernel)
  have rb : R1 (NM.of mnt4_coeff_b_nat) mnt4_b := FpRel.cast (by decide +kernel)
  Proj.genCheck_sound o1 (mA := (NM.of mnt4_coeff_a_nat * ·)) (mA' := mnt4_G1_mul_by_a) ra rb (fun h => o1.mul ra h)
    (fun _ => rfl) (g := ⟨NM.of mnt4_G1_one_nat.1, NM.of mnt4_G1_one_nat.2, 1⟩)
    ⟨FpRel.cast (v := mnt4_G1_one_nat.1) (by decide +kernel), FpRel.cast (v := mnt4_G1_one_nat.2) (by decide +kernel), o1.one⟩
    (e := mnt4_Fr_params.modulus) mnt4_Fr_prime (by decide +kernel)

/-- C52, C38. `mnt4_G2::one()` is well formed, is a point of the twist, and has order `r`. -/
theorem C52_mnt4_G2_generator : (2 : mnt4_Fq2) ≠ 0 ∧ 4 * mnt4_twist_a ^ 3 + 27 * mnt4_twist_b ^ 2 ≠ 0 ∧
    Proj.isWellFormed mnt4_twist_a mnt4_twist_b mnt4_G2_one = true ∧
    ∃ P : (sw mnt4_twist_a mnt4_twist_b).Point, ProjRep mnt4_G2_one P ∧ addOrderOf P = mnt4_Fr_params.p :=
  have ra : R1 (NM.of mnt4_coeff_a_nat) mnt4_a := FpRel.cast (by decide +kernel)
  have rb : R1 (NM.of mnt4_coeff_b_nat) mnt4_b := FpRel.cast (by decide +kernel)
  have rta : R2 (mnt4TwistA (NM.of mnt4_coeff_a_nat)) mnt4_twist_a := ⟨o1.mul ra rβ, o1.zero⟩
  have rtb : R2 (mnt4TwistB (NM.of mnt4_coeff_b_nat)) mnt4_twist_b := ⟨o1.zero, o1.mul rb rβ⟩
  Proj.genCheck_sound o2 (mA := mnt4MulByA (NM.of mnt4_coeff_a_nat)) (mA' := mnt4_G2_mul_by_a) rta rtb
    (fun h => ⟨o1.mul (o1.mul ra rβ) h.1, o1.mul (o1.mul ra rβ) h.2⟩)
    (fun x => ((C36_mul_by_a mnt4_β mnt4_a mnt4_b).1 x).1)
    (g := ⟨dec2 NM.of mnt4_G2_one_nat.1, dec2 NM.of mnt4_G2_one_nat.2, 1⟩)
    ⟨dec2_rel _ (by decide +kernel), dec2_rel _ (by decide +kernel), o2.one⟩
    (e := mnt4_Fr_params.modulus) mnt4_Fr_prime (by decide +kernel)

/-- C38. The generators of mnt4 pass `is_well_formed`. -/
theorem C38_mnt4_generators : Proj.isWellFormed mnt4_a mnt4_b mnt4_G1_one = true ∧
    Proj.isWellFormed mnt4_twist_a mnt4_twist_b mnt4_G2_one = true :=
  ⟨C52_mnt4_G1_generator.2.2.1, C52_mnt4_G2_generator.2.2.1⟩

end Libff
