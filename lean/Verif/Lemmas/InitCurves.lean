import Verif.Lemmas.Init
import Verif.Model.InitCurves

/-!
# The initialisation programs of the six curves are closed and agree with each other
-/
namespace Libff.Init
set_option maxRecDepth 100000

/-- The family a class belongs to; mnt4 and mnt6 share one. -/
def Cls.family : Cls → Nat
  | .alt_bn128_Fr | .alt_bn128_Fq | .alt_bn128_Fq2 | .alt_bn128_Fq6 | .alt_bn128_Fq12 | .alt_bn128_G1
  | .alt_bn128_G2 => 0
  | .bls12_381_Fr | .bls12_381_Fq | .bls12_381_Fq2 | .bls12_381_Fq6 | .bls12_381_Fq12 | .bls12_381_G1
  | .bls12_381_G2 => 1
  | .bn128_Fr | .bn128_Fq | .bn_Fp | .mie_Vuint | .bn_Fp2 | .bn128_G1 | .bn128_G2 | .bn_Fp12 | .bn128_GT => 2
  | .edwards_Fr | .edwards_Fq | .edwards_Fq3 | .edwards_Fq6 | .edwards_Fp2 | .edwards_G1 | .edwards_G2 => 3
  | .mnt46_FpA | .mnt46_FpB | .mnt4_Fq2 | .mnt4_Fq4 | .mnt4_G1 | .mnt4_G2 | .mnt6_Fq3 | .mnt6_Fq6 | .mnt6_Fp2
  | .mnt6_G1 | .mnt6_G2 => 4

def Global.family : Global → Nat
  | .alt_bn128_modulus_r | .alt_bn128_modulus_q | .alt_bn128_coeff_b | .alt_bn128_twist
  | .alt_bn128_twist_coeff_b | .alt_bn128_twist_mul_by_b_c0 | .alt_bn128_twist_mul_by_b_c1
  | .alt_bn128_twist_mul_by_q_X | .alt_bn128_twist_mul_by_q_Y | .alt_bn128_ate_loop_count
  | .alt_bn128_ate_is_loop_count_neg | .alt_bn128_final_exponent_z | .alt_bn128_final_exponent_is_z_neg => 0
  | .bls12_381_modulus_r | .bls12_381_modulus_q | .temp_Fq6 | .temp_Fq12 | .bls12_381_coeff_b | .bls12_381_twist
  | .bls12_381_twist_coeff_b | .bls12_381_twist_mul_by_b_c0 | .bls12_381_twist_mul_by_b_c1
  | .bls12_381_twist_mul_by_q_X | .bls12_381_twist_mul_by_q_Y | .bls12_381_ate_loop_count
  | .bls12_381_ate_is_loop_count_neg | .bls12_381_final_exponent | .bls12_381_final_exponent_z
  | .bls12_381_final_exponent_is_z_neg => 1
  | .bn_Param | .bn128_modulus_r | .bn128_modulus_q | .bn128_coeff_b | .bn128_Fq_s | .bn128_Fq_nqr_to_t
  | .bn128_Fq_t_minus_1_over_2 | .bn128_twist_coeff_b | .bn128_Fq2_s | .bn128_Fq2_nqr_to_t
  | .bn128_Fq2_t_minus_1_over_2 => 2
  | .edwards_modulus_r | .edwards_modulus_q | .edwards_coeff_a | .edwards_coeff_d | .edwards_twist
  | .edwards_twist_coeff_a | .edwards_twist_coeff_d | .edwards_twist_mul_by_a_c0 | .edwards_twist_mul_by_a_c1
  | .edwards_twist_mul_by_a_c2 | .edwards_twist_mul_by_d_c0 | .edwards_twist_mul_by_d_c1
  | .edwards_twist_mul_by_d_c2 | .edwards_twist_mul_by_q_Y | .edwards_twist_mul_by_q_Z | .edwards_ate_loop_count
  | .edwards_final_exponent_last_chunk_abs_of_w0 | .edwards_final_exponent_last_chunk_is_w0_neg
  | .edwards_final_exponent_last_chunk_w1 => 3
  | .mnt46_modulus_A | .mnt46_modulus_B | .mnt4_twist | .mnt4_twist_coeff_a | .mnt4_twist_coeff_b
  | .mnt4_twist_mul_by_a_c0 | .mnt4_twist_mul_by_a_c1 | .mnt4_twist_mul_by_b_c0 | .mnt4_twist_mul_by_b_c1
  | .mnt4_twist_mul_by_q_X | .mnt4_twist_mul_by_q_Y | .mnt4_ate_loop_count | .mnt4_ate_is_loop_count_neg
  | .mnt4_final_exponent | .mnt4_final_exponent_last_chunk_abs_of_w0 | .mnt4_final_exponent_last_chunk_is_w0_neg
  | .mnt4_final_exponent_last_chunk_w1 | .mnt6_twist | .mnt6_twist_coeff_a | .mnt6_twist_coeff_b
  | .mnt6_twist_mul_by_a_c0 | .mnt6_twist_mul_by_a_c1 | .mnt6_twist_mul_by_a_c2 | .mnt6_twist_mul_by_b_c0
  | .mnt6_twist_mul_by_b_c1 | .mnt6_twist_mul_by_b_c2 | .mnt6_twist_mul_by_q_X | .mnt6_twist_mul_by_q_Y
  | .mnt6_ate_loop_count | .mnt6_ate_is_loop_count_neg | .mnt6_final_exponent
  | .mnt6_final_exponent_last_chunk_abs_of_w0 | .mnt6_final_exponent_last_chunk_is_w0_neg
  | .mnt6_final_exponent_last_chunk_w1 => 4

def Var.family : Var → Nat
  | .glob g => g.family
  | .stat c _ | .frob1 c _ | .frob2 c _ => c.family

def Curve.family : Curve → Nat
  | .alt_bn128 => 0 | .bls12_381 => 1 | .bn128 => 2 | .edwards => 3 | .mnt4 => 4 | .mnt6 => 4

theorem init_family (c : Curve) : ∀ x ∈ assigned c.init, x.family = c.family := by
  have h : (assigned c.init).all (fun x => Nat.beq x.family c.family) = true := by cases c <;> decide +kernel
  intro x hx
  exact Nat.eq_of_beq_eq_true (List.all_eq_true.1 h x hx)

theorem init_closed (c : Curve) : closedProg c.init = true := by cases c <;> decide +kernel

theorem mnt_agree : agree (Curve.init .mnt4) (Curve.init .mnt6) = true := by decide +kernel

theorem family_cases (c d : Curve) (h : c.family = d.family) :
    c = d ∨ (c = .mnt4 ∧ d = .mnt6) ∨ (c = .mnt6 ∧ d = .mnt4) := by
  cases c <;> cases d <;> first | exact .inl rfl | exact .inr (.inl ⟨rfl, rfl⟩) | exact .inr (.inr ⟨rfl, rfl⟩) | exact absurd h (by decide)

theorem init_agree (c d : Curve) : Agree c.init d.init := by
  by_cases h : c.family = d.family
  · rcases family_cases c d h with rfl | ⟨rfl, rfl⟩ | ⟨rfl, rfl⟩
    · exact Agree.refl _
    · exact Agree.of_agree mnt_agree
    · exact (Agree.of_agree mnt_agree).symm
  · exact Agree.of_mark Var.family _ _ h (init_family c) (init_family d)

end Libff.Init
