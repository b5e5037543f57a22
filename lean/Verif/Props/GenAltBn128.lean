import Verif.Model.GroupsAltBn128
import Verif.Lemmas.CurveOrder

/-!
# C52, C38: the generators of alt_bn128
-/
namespace Libff
set_option synthInstance.maxSize 2000
open alt_bn128_K

theorem alt_bn128_twist_b_rel : R2 (dec2 NM.of (19485874751759354771024239261021720505790618469301721065564631296452457478373, 266929791119991161246907387137283842545076965332900288569378510910307636690)) alt_bn128_twist_b := by
  have h : alt_bn128_twist_b = dec2 Nat.cast (19485874751759354771024239261021720505790618469301721065564631296452457478373, 266929791119991161246907387137283842545076965332900288569378510910307636690) := by
    have ht : alt_bn128_twist ≠ 0 := fun h => absurd ((o2.eq (dec2_rel _ (by decide +kernel)) o2.zero).2 h) (by decide +kernel)
    have hm : (dec2 Nat.cast (19485874751759354771024239261021720505790618469301721065564631296452457478373, 266929791119991161246907387137283842545076965332900288569378510910307636690) : alt_bn128_Fq2) * alt_bn128_twist = ⟨alt_bn128_b, 0⟩ :=
      (o2.eq (a := dec2 NM.of (19485874751759354771024239261021720505790618469301721065564631296452457478373, 266929791119991161246907387137283842545076965332900288569378510910307636690) * dec2 NM.of alt_bn128_twist_nat)
        (b := ⟨NM.of alt_bn128_coeff_b_nat, 0⟩)
        (o2.mul (dec2_rel _ (by decide +kernel)) (dec2_rel _ (by decide +kernel)))
        ⟨FpRel.cast (v := alt_bn128_coeff_b_nat) (by decide +kernel), o1.zero⟩).1 (by decide +kernel)
    have hs : alt_bn128_twist_b = ⟨alt_bn128_b, 0⟩ * alt_bn128_twist⁻¹ := by
      refine Quad.ext ?_ ?_
      · change alt_bn128_b * _ = alt_bn128_b * _ + alt_bn128_β * (0 * _)
        ring
      · change alt_bn128_b * _ = (alt_bn128_b + 0) * (_ + _) - alt_bn128_b * _ - 0 * _
        ring
    rw [hs, ← hm, mul_assoc, mul_inv_cancel₀ ht, mul_one]
  rw [h]
  exact dec2_rel _ (by decide +kernel)

/-- C52, C38. `alt_bn128_G1::one()` is well formed, is a point of `y² = x³ + b`, and its order is the characteristic
`r` of the scalar field. -/
theorem C52_alt_bn128_G1_generator : (2 : alt_bn128_Fq) ≠ 0 ∧ (3 : alt_bn128_Fq) ≠ 0 ∧ alt_bn128_b ≠ 0 ∧
    Jac.isWellFormed alt_bn128_b alt_bn128_G1_one = true ∧
    ∃ P : (sw 0 alt_bn128_b).Point, JacRep alt_bn128_G1_one P ∧ addOrderOf P = alt_bn128_Fr_params.p :=
  Jac.genCheck_sound o1 (b := NM.of alt_bn128_coeff_b_nat) (g := ⟨NM.of alt_bn128_G1_one_nat.1, NM.of alt_bn128_G1_one_nat.2, 1⟩)
    (FpRel.cast (by decide +kernel))
    ⟨FpRel.cast (v := alt_bn128_G1_one_nat.1) (by decide +kernel), FpRel.cast (v := alt_bn128_G1_one_nat.2) (by decide +kernel), o1.one⟩
    (e := alt_bn128_Fr_params.modulus) alt_bn128_Fr_prime (by decide +kernel)

/-- C52, C38. `alt_bn128_G2::one()` is well formed, is a point of the twist `y² = x³ + b'`, and has order `r`. -/
theorem C52_alt_bn128_G2_generator : (2 : alt_bn128_Fq2) ≠ 0 ∧ (3 : alt_bn128_Fq2) ≠ 0 ∧ alt_bn128_twist_b ≠ 0 ∧
    Jac.isWellFormed alt_bn128_twist_b alt_bn128_G2_one = true ∧
    ∃ P : (sw 0 alt_bn128_twist_b).Point, JacRep alt_bn128_G2_one P ∧ addOrderOf P = alt_bn128_Fr_params.p :=
  Jac.genCheck_sound o2 (g := ⟨dec2 NM.of alt_bn128_G2_one_nat.1, dec2 NM.of alt_bn128_G2_one_nat.2, 1⟩) alt_bn128_twist_b_rel
    ⟨dec2_rel _ (by decide +kernel), dec2_rel _ (by decide +kernel), o2.one⟩
    (e := alt_bn128_Fr_params.modulus) alt_bn128_Fr_prime (by decide +kernel)

/-- C38. The generators of alt_bn128 pass `is_well_formed`. -/
theorem C38_alt_bn128_generators : Jac.isWellFormed alt_bn128_b alt_bn128_G1_one = true ∧
    Jac.isWellFormed alt_bn128_twist_b alt_bn128_G2_one = true :=
  ⟨C52_alt_bn128_G1_generator.2.2.2.1, C52_alt_bn128_G2_generator.2.2.2.1⟩

end Libff
