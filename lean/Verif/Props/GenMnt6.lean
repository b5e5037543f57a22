import Verif.Model.GroupsMnt6
import Verif.Lemmas.CurveOrder

/-!
# C52, C38: the generators of mnt6
-/
namespace Libff
set_option synthInstance.maxSize 2000
open mnt6_K

/-- C52, C38. `mnt6_G1::one()` is well formed, is a point of `y² = x³ + a x + b`, and its order is the
characteristic `r` of the scalar field. -/
theorem C52_mnt6_G1_generator : (2 : mnt6_Fq) ≠ 0 ∧ 4 * mnt6_a ^ 3 + 27 * mnt6_b ^ 2 ≠ 0 ∧
    Proj.isWellFormed mnt6_a mnt6_b mnt6_G1_one = true ∧
    ∃ P : (sw mnt6_a mnt6_b).Point, ProjRep mnt6_G1_one P ∧ addOrderOf P = mnt6_Fr_params.p :=
  have ra : R1 (NM.of mnt6_coeff_a_nat) mnt6_a := FpRel.cast (by decide +kernel)
  have rb : R1 (NM.of mnt6_coeff_b_nat) mnt6_b := FpRel.cast (by decide +kernel)
  Proj.genCheck_sound o1 (mA := (NM.of mnt6_coeff_a_nat * ·)) (mA' := mnt6_G1_mul_by_a) ra rb (fun h => o1.mul ra h)
    (fun _ => rfl) (g := ⟨NM.of mnt6_G1_one_nat.1, NM.of mnt6_G1_one_nat.2, 1⟩)
    ⟨FpRel.cast (v := mnt6_G1_one_nat.1) (by decide +kernel), FpRel.cast (v := mnt6_G1_one_nat.2) (by decide +kernel), o1.one⟩
    (e := mnt6_Fr_params.modulus) mnt6_Fr_prime (by decide +kernel)

/-- C52, C38. `mnt6_G2::one()` is well formed, is a point of the twist, and has order `r`. -/
theorem C52_mnt6_G2_generator : (2 : mnt6_Fq3) ≠ 0 ∧ 4 * mnt6_twist_a ^ 3 + 27 * mnt6_twist_b ^ 2 ≠ 0 ∧
    Proj.isWellFormed mnt6_twist_a mnt6_twist_b mnt6_G2_one = true ∧
    ∃ P : (sw mnt6_twist_a mnt6_twist_b).Point, ProjRep mnt6_G2_one P ∧ addOrderOf P = mnt6_Fr_params.p :=
  have ra : R1 (NM.of mnt6_coeff_a_nat) mnt6_a := FpRel.cast (by decide +kernel)
  have rb : R1 (NM.of mnt6_coeff_b_nat) mnt6_b := FpRel.cast (by decide +kernel)
  have rta : R3 (mnt6TwistA (NM.of mnt6_coeff_a_nat)) mnt6_twist_a := ⟨o1.zero, o1.zero, ra⟩
  have rtb : R3 (mnt6TwistB (NM.of mnt6_coeff_b_nat)) mnt6_twist_b := ⟨o1.mul rb rβ, o1.zero, o1.zero⟩
  Proj.genCheck_sound o3 (mA := mnt6MulByA (NM.of mnt6_coeff_a_nat)) (mA' := mnt6_G2_mul_by_a) rta rtb
    (fun h => ⟨o1.mul (o1.mul ra rβ) h.2.1, o1.mul (o1.mul ra rβ) h.2.2, o1.mul ra h.1⟩)
    (fun x => ((C36_mul_by_a mnt6_β mnt6_a mnt6_b).2.1 x).1)
    (g := ⟨dec3 NM.of mnt6_G2_one_nat.1, dec3 NM.of mnt6_G2_one_nat.2, 1⟩)
    ⟨dec3_rel _ (by decide +kernel), dec3_rel _ (by decide +kernel), o3.one⟩
    (e := mnt6_Fr_params.modulus) mnt6_Fr_prime (by decide +kernel)

/-- C38. The generators of mnt6 pass `is_well_formed`. -/
theorem C38_mnt6_generators : Proj.isWellFormed mnt6_a mnt6_b mnt6_G1_one = true ∧
    Proj.isWellFormed mnt6_twist_a mnt6_twist_b mnt6_G2_one = true :=
  ⟨C52_mnt6_G1_generator.2.2.1, C52_mnt6_G2_generator.2.2.1⟩

end Libff
