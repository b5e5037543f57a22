import Verif.Model.GroupsEdwards
import Verif.Lemmas.CurveOrder

/-!
# C52, C38: the generators of edwards
-/
namespace Libff
set_option synthInstance.maxSize 2000
open edwards_K

/-- C52, C38. `edwards_G1::one()` is well formed, is a point of `x² + y² = 1 + d x² y²`, and its order is the
characteristic `r` of the scalar field. -/
theorem C52_edwards_G1_generator : (2 : edwards_Fq) ≠ 0 ∧ 1 - edwards_d ≠ 0 ∧
    Edw.isWellFormed (fun x => x) edwards_G1_mul_by_d edwards_G1_one = true ∧
    ∃ P : (edwW 1 edwards_d).Point, EdwRep edwards_G1_one P ∧ addOrderOf P = edwards_Fr_params.p :=
  have rd : R1 (NM.of edwards_coeff_d_nat) edwards_d := FpRel.cast (by decide +kernel)
  have hp : val (limbsOf 3 (edwards_Fr_params.p - 1)) + 1 = edwards_Fr_params.p := by decide +kernel
  hp ▸ Edw.genCheck_sound o1 (mA := fun x => x) (mA' := fun x => x) (mD := (NM.of edwards_coeff_d_nat * ·))
    (mD' := edwards_G1_mul_by_d) (x := NM.of edwards_G1_one_nat.1) (y := NM.of edwards_G1_one_nat.2) o1.one rd
    (FpRel.cast (by decide +kernel)) (FpRel.cast (by decide +kernel)) (fun h => h) (fun x => (one_mul x).symm)
    (fun h => o1.mul rd h) (fun _ => rfl) (e := limbsOf 3 (edwards_Fr_params.p - 1)) (hp.symm ▸ edwards_Fr_prime)
    (by decide +kernel)

/-- C52, C38. `edwards_G2::one()` is well formed, is a point of the twist, and has order `r`. -/
theorem C52_edwards_G2_generator : (2 : edwards_Fq3) ≠ 0 ∧ edwards_twist_a - edwards_twist_d ≠ 0 ∧
    Edw.isWellFormed edwards_G2_mul_by_a edwards_G2_mul_by_d edwards_G2_one = true ∧
    ∃ P : (edwW edwards_twist_a edwards_twist_d).Point, EdwRep edwards_G2_one P ∧ addOrderOf P = edwards_Fr_params.p :=
  have rd : R1 (NM.of edwards_coeff_d_nat) edwards_d := FpRel.cast (by decide +kernel)
  have rta : R3 edwardsTwistA edwards_twist_a := ⟨o1.mul o1.one o1.zero, o1.mul o1.one o1.one, o1.mul o1.one o1.zero⟩
  have rtd : R3 (edwardsTwistD (NM.of edwards_coeff_d_nat)) edwards_twist_d :=
    ⟨o1.mul rd o1.zero, o1.mul rd o1.one, o1.mul rd o1.zero⟩
  have hp : val (limbsOf 3 (edwards_Fr_params.p - 1)) + 1 = edwards_Fr_params.p := by decide +kernel
  hp ▸ Edw.genCheck_sound o3 (mA := edwardsMulByA) (mA' := edwards_G2_mul_by_a)
    (mD := edwardsMulByD (NM.of edwards_coeff_d_nat)) (mD' := edwards_G2_mul_by_d)
    (x := dec3 NM.of edwards_G2_one_nat.1) (y := dec3 NM.of edwards_G2_one_nat.2) rta rtd
    (dec3_rel _ (by decide +kernel)) (dec3_rel _ (by decide +kernel))
    (fun h => ⟨o1.mul (o1.mul o1.one rβ) h.2.2, h.1, h.2.1⟩) (fun x => (C37_mul_by _ edwards_d x).1)
    (fun h => ⟨o1.mul (o1.mul rd rβ) h.2.2, o1.mul rd h.1, o1.mul rd h.2.1⟩) (fun x => (C37_mul_by _ edwards_d x).2.1)
    (e := limbsOf 3 (edwards_Fr_params.p - 1)) (hp.symm ▸ edwards_Fr_prime)
    (by decide +kernel)

/-- C38. The generators of edwards pass `is_well_formed`. -/
theorem C38_edwards_generators : Edw.isWellFormed (fun x => x) edwards_G1_mul_by_d edwards_G1_one = true ∧
    Edw.isWellFormed edwards_G2_mul_by_a edwards_G2_mul_by_d edwards_G2_one = true :=
  ⟨C52_edwards_G1_generator.2.2.1, C52_edwards_G2_generator.2.2.1⟩

end Libff
