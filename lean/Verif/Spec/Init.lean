import Verif.Model.Init
import Verif.Model.TowerParams
import Verif.Model.CurveParams
import Verif.Model.GroupsBn128
import Verif.Spec.Limbs

/-!
# Initialisation of the public parameters: what is expected
-/
namespace Libff.Init

/-! ## The static data members the classes of a curve declare -/

/-- `Fp_model`, fp.hpp:53-75, and the modulus. -/
def primeMembers (c : Cls) (m : Global) : List Var :=
  .glob m :: [Mem.num_bits, .euler, .s, .t, .t_minus_1_over_2, .nqr, .nqr_to_t, .multiplicative_generator, .root_of_unity, .inv,
    .Rsquared, .Rcubed].map (Var.stat c)

/-- An extension field class (fp2.hpp:47-56, fp3.hpp:47-57, fp4.hpp:47-54, fp6_2over3.hpp:50-57, fp6_3over2.hpp:49-57,
fp12_2over3over2.hpp:51-58) with `k` Frobenius coefficients in each of the given arrays. -/
def extMembers (c : Cls) (k : Nat) (two : Bool) : List Var :=
  [Mem.euler, .s, .t, .t_minus_1_over_2, .non_residue, .nqr, .nqr_to_t].map (Var.stat c) ++ (List.range k).map (Var.frob1 c) ++
    if two then (List.range k).map (Var.frob2 c) else []

/-- The members every group class has, with its names for the two points (*_g1.hpp:27-31, *_g2.hpp:27-31). -/
def groupMembers (c : Cls) (points : List Mem) : List Var :=
  ([Mem.wnaf_window_table, .fixed_base_exp_window_table] ++ points).map (Var.stat c)

/-- All static data members of the field and group classes of a curve (operation counters, which are set where they are defined,
excepted), and the `extern` variables of `*_init.hpp`.  Of `edwards_Fq6::my_Fp2` and `mnt6_Fq6::my_Fp2` only `non_residue` is used
(fp6_2over3.tcc:151-190). -/
def declared : Curve → List Var
  | .alt_bn128 =>
      primeMembers .alt_bn128_Fr .alt_bn128_modulus_r ++ primeMembers .alt_bn128_Fq .alt_bn128_modulus_q ++
      extMembers .alt_bn128_Fq2 2 false ++ extMembers .alt_bn128_Fq6 6 true ++ extMembers .alt_bn128_Fq12 12 false ++
      groupMembers .alt_bn128_G1 [.G1_zero, .G1_one, .initialized, .h] ++
      groupMembers .alt_bn128_G2 [.G2_zero, .G2_one, .initialized, .h] ++
      [Global.alt_bn128_coeff_b, .alt_bn128_twist, .alt_bn128_twist_coeff_b, .alt_bn128_twist_mul_by_b_c0,
       .alt_bn128_twist_mul_by_b_c1, .alt_bn128_twist_mul_by_q_X, .alt_bn128_twist_mul_by_q_Y, .alt_bn128_ate_loop_count,
       .alt_bn128_ate_is_loop_count_neg, .alt_bn128_final_exponent_z, .alt_bn128_final_exponent_is_z_neg].map Var.glob
  | .bls12_381 =>
      primeMembers .bls12_381_Fr .bls12_381_modulus_r ++ primeMembers .bls12_381_Fq .bls12_381_modulus_q ++
      extMembers .bls12_381_Fq2 2 false ++ extMembers .bls12_381_Fq6 6 true ++ extMembers .bls12_381_Fq12 12 false ++
      groupMembers .bls12_381_G1 [.G1_zero, .G1_one, .h] ++ groupMembers .bls12_381_G2 [.G2_zero, .G2_one, .h] ++
      [Global.bls12_381_coeff_b, .bls12_381_twist, .bls12_381_twist_coeff_b, .bls12_381_twist_mul_by_b_c0,
       .bls12_381_twist_mul_by_b_c1, .bls12_381_twist_mul_by_q_X, .bls12_381_twist_mul_by_q_Y, .bls12_381_ate_loop_count,
       .bls12_381_ate_is_loop_count_neg, .bls12_381_final_exponent, .bls12_381_final_exponent_z,
       .bls12_381_final_exponent_is_z_neg].map Var.glob
  | .bn128 =>
      primeMembers .bn128_Fr .bn128_modulus_r ++ primeMembers .bn128_Fq .bn128_modulus_q ++
      groupMembers .bn128_G1 [.G1_zero_X, .G1_zero_Y, .G1_zero_Z, .G1_one_X, .G1_one_Y, .G1_one_Z, .initialized, .h] ++
      groupMembers .bn128_G2 [.G2_zero_X, .G2_zero_Y, .G2_zero_Z, .G2_one_X, .G2_one_Y, .G2_one_Z, .initialized, .h] ++
      [.stat .bn128_GT .GT_one_elem] ++
      [Global.bn128_coeff_b, .bn128_Fq_s, .bn128_Fq_nqr_to_t, .bn128_Fq_t_minus_1_over_2, .bn128_twist_coeff_b, .bn128_Fq2_s,
       .bn128_Fq2_nqr_to_t, .bn128_Fq2_t_minus_1_over_2].map Var.glob
  | .edwards =>
      primeMembers .edwards_Fr .edwards_modulus_r ++ primeMembers .edwards_Fq .edwards_modulus_q ++
      extMembers .edwards_Fq3 3 true ++ extMembers .edwards_Fq6 6 false ++ [.stat .edwards_Fp2 .non_residue] ++
      groupMembers .edwards_G1 [.G1_zero, .G1_one, .initialized] ++ groupMembers .edwards_G2 [.G2_zero, .G2_one, .initialized] ++
      [Global.edwards_coeff_a, .edwards_coeff_d, .edwards_twist, .edwards_twist_coeff_a, .edwards_twist_coeff_d,
       .edwards_twist_mul_by_a_c0, .edwards_twist_mul_by_a_c1, .edwards_twist_mul_by_a_c2, .edwards_twist_mul_by_d_c0,
       .edwards_twist_mul_by_d_c1, .edwards_twist_mul_by_d_c2, .edwards_twist_mul_by_q_Y, .edwards_twist_mul_by_q_Z,
       .edwards_ate_loop_count, .edwards_final_exponent_last_chunk_abs_of_w0, .edwards_final_exponent_last_chunk_is_w0_neg,
       .edwards_final_exponent_last_chunk_w1].map Var.glob
  | .mnt4 =>
      primeMembers .mnt46_FpA .mnt46_modulus_A ++ primeMembers .mnt46_FpB .mnt46_modulus_B ++
      extMembers .mnt4_Fq2 2 false ++ extMembers .mnt4_Fq4 4 false ++
      groupMembers .mnt4_G1 [.G1_zero, .G1_one, .initialized, .coeff_a, .coeff_b, .h] ++
      groupMembers .mnt4_G2 [.G2_zero, .G2_one, .initialized, .twist, .coeff_a, .coeff_b, .h] ++
      [Global.mnt4_twist, .mnt4_twist_coeff_a, .mnt4_twist_coeff_b, .mnt4_twist_mul_by_a_c0, .mnt4_twist_mul_by_a_c1,
       .mnt4_twist_mul_by_b_c0, .mnt4_twist_mul_by_b_c1, .mnt4_twist_mul_by_q_X, .mnt4_twist_mul_by_q_Y, .mnt4_ate_loop_count,
       .mnt4_ate_is_loop_count_neg, .mnt4_final_exponent, .mnt4_final_exponent_last_chunk_abs_of_w0,
       .mnt4_final_exponent_last_chunk_is_w0_neg, .mnt4_final_exponent_last_chunk_w1].map Var.glob
  | .mnt6 =>
      primeMembers .mnt46_FpB .mnt46_modulus_B ++ primeMembers .mnt46_FpA .mnt46_modulus_A ++
      extMembers .mnt6_Fq3 3 true ++ extMembers .mnt6_Fq6 6 false ++ [.stat .mnt6_Fp2 .non_residue] ++
      groupMembers .mnt6_G1 [.G1_zero, .G1_one, .initialized, .coeff_a, .coeff_b, .h] ++
      groupMembers .mnt6_G2 [.G2_zero, .G2_one, .initialized, .twist, .coeff_a, .coeff_b, .h] ++
      [Global.mnt6_twist, .mnt6_twist_coeff_a, .mnt6_twist_coeff_b, .mnt6_twist_mul_by_a_c0, .mnt6_twist_mul_by_a_c1,
       .mnt6_twist_mul_by_a_c2, .mnt6_twist_mul_by_b_c0, .mnt6_twist_mul_by_b_c1, .mnt6_twist_mul_by_b_c2, .mnt6_twist_mul_by_q_X,
       .mnt6_twist_mul_by_q_Y, .mnt6_ate_loop_count, .mnt6_ate_is_loop_count_neg, .mnt6_final_exponent,
       .mnt6_final_exponent_last_chunk_abs_of_w0, .mnt6_final_exponent_last_chunk_is_w0_neg,
       .mnt6_final_exponent_last_chunk_w1].map Var.glob

/-! ## The numbers written in the initialisation functions -/

/-- A value as the list of the integers it is written with (coefficient by coefficient); results of arithmetic are `computed`. -/
inductive Written
  | nums (l : List Nat) | topLimb (k : Nat) | computed

/-- The number of base field coefficients of the classes. -/
def Cls.degree : Cls → Nat
  | .alt_bn128_Fq2 | .bls12_381_Fq2 | .bn_Fp2 | .mnt4_Fq2 | .edwards_Fp2 | .mnt6_Fp2 => 2
  | .edwards_Fq3 | .mnt6_Fq3 => 3
  | .mnt4_Fq4 => 4
  | .alt_bn128_Fq6 | .bls12_381_Fq6 | .edwards_Fq6 | .mnt6_Fq6 => 6
  | .alt_bn128_Fq12 | .bls12_381_Fq12 | .bn_Fp12 => 12
  | _ => 1

/-- The number of 8-byte limbs of the prime fields. -/
def Cls.limbs : Cls → Nat
  | .bls12_381_Fq => 6
  | .mnt46_FpA | .mnt46_FpB => 5
  | .edwards_Fr | .edwards_Fq => 3
  | _ => 4

/-- Constructors keep the written coefficients, `zero()` and `one()` have the obvious ones, `modulus_is_valid()` asks whether the top
limb of the modulus is not 0. -/
def written : Interp Written where
  num n := .nums [n]
  bool b := .nums [b.toNat]
  fn
    | .bigint | .bnParamInit | .ctor _ => .nums []
    | .zero c => .nums (List.replicate c.degree 0)
    | .one c => .nums (1 :: List.replicate (c.degree - 1) 0)
    | .mul _ | .inverse _ | .squared _ => .computed
    | .modulusIsValid c => .topLimb c.limbs
  feed
    | .topLimb k, .nums [m] => .nums [m / 2 ^ (64 * (k - 1)) % 2 ^ 64]
    | v, _ => v
  app
    | .nums l, .nums l' => .nums (l ++ l')
    | _, _ => .computed
  empty := .nums []
  push
    | .nums l, .nums l' => .nums (l ++ l')
    | _, _ => .computed
  truth
    | .nums [n] => n != 0
    | _ => false

/-- Coefficients of nested tuples. -/
def fl1 (n : Nat) : List Nat := [n]
def fl2 (v : Nat × Nat) : List Nat := [v.1, v.2]
def fl3 (v : Nat × Nat × Nat) : List Nat := [v.1, v.2.1, v.2.2]
def fl4 (v : (Nat × Nat) × (Nat × Nat)) : List Nat := fl2 v.1 ++ fl2 v.2
def fl6q (v : (Nat × Nat × Nat) × (Nat × Nat × Nat)) : List Nat := fl3 v.1 ++ fl3 v.2
def fl6c (v : (Nat × Nat) × (Nat × Nat) × (Nat × Nat)) : List Nat := fl2 v.1 ++ fl2 v.2.1 ++ fl2 v.2.2
def fl12 (v : ((Nat × Nat) × (Nat × Nat) × (Nat × Nat)) × ((Nat × Nat) × (Nat × Nat) × (Nat × Nat))) : List Nat :=
  fl6c v.1 ++ fl6c v.2

/-- The data of a prime field as used by the rest of the model. -/
def primeValues (c : Cls) (m : Global) (d : PrimeField) : List (Var × List Nat) :=
  [(.glob m, [val d.P.modulus]), (.stat c .Rsquared, [val d.P.Rsquared]), (.stat c .Rcubed, [val d.P.Rcubed]),
   (.stat c .inv, [d.P.inv.toNat]), (.stat c .num_bits, [d.numBits]), (.stat c .euler, [d.euler]), (.stat c .s, [d.s]),
   (.stat c .t, [d.t]), (.stat c .t_minus_1_over_2, [d.tMinus1Over2]), (.stat c .multiplicative_generator, [d.multGen]),
   (.stat c .root_of_unity, [d.rootOfUnity]), (.stat c .nqr, [d.nqr]), (.stat c .nqr_to_t, [d.nqrToT])]

/-- The data of an extension field as used by the rest of the model. -/
def extValues {E B F : Type} (c : Cls) (fl : E → List Nat) (d : ExtField E) (flB : B → List Nat) (nr : B)
    (flF : F → List Nat) (f1 f2 : List F) : List (Var × List Nat) :=
  [(.stat c .euler, [d.euler]), (.stat c .s, [d.s]), (.stat c .t, [d.t]), (.stat c .t_minus_1_over_2, [d.tMinus1Over2]),
   (.stat c .nqr, fl d.nqr), (.stat c .nqr_to_t, fl d.nqrToT), (.stat c .non_residue, flB nr)] ++
  f1.zipIdx.map (fun a => (.frob1 c a.2, flF a.1)) ++ f2.zipIdx.map (fun a => (.frob2 c a.2, flF a.1))

/-- The parameters of each curve as used by the rest of the model (Model/Params, Model/TowerParams, Model/CurveParams,
Model/GroupsBn128). -/
def values : Curve → List (Var × List Nat)
  | .alt_bn128 =>
      primeValues .alt_bn128_Fr .alt_bn128_modulus_r alt_bn128_Fr_data ++
      primeValues .alt_bn128_Fq .alt_bn128_modulus_q alt_bn128_Fq_data ++
      extValues .alt_bn128_Fq2 fl2 alt_bn128_Fq2_data fl1 alt_bn128_Fq2_nonResidue fl1 alt_bn128_Fq2_frob_c1 [] ++
      extValues .alt_bn128_Fq6 fl6c alt_bn128_Fq6_data fl2 alt_bn128_Fq6_nonResidue fl2 alt_bn128_Fq6_frob_c1
        alt_bn128_Fq6_frob_c2 ++
      extValues .alt_bn128_Fq12 fl12 alt_bn128_Fq12_data fl2 alt_bn128_Fq12_nonResidue fl2 alt_bn128_Fq12_frob_c1 [] ++
      [(.glob .alt_bn128_coeff_b, [alt_bn128_coeff_b_nat]), (.glob .alt_bn128_twist, fl2 alt_bn128_twist_nat),
       (.glob .alt_bn128_twist_mul_by_q_X, fl2 alt_bn128_twist_mul_by_q_X_nat),
       (.glob .alt_bn128_twist_mul_by_q_Y, fl2 alt_bn128_twist_mul_by_q_Y_nat),
       (.stat .alt_bn128_G1 .G1_zero, [0, 1, 0]), (.stat .alt_bn128_G1 .G1_one, fl2 alt_bn128_G1_one_nat ++ [1]),
       (.stat .alt_bn128_G2 .G2_zero, [0, 0, 1, 0, 0, 0]), (.stat .alt_bn128_G2 .G2_one, fl4 alt_bn128_G2_one_nat ++ [1, 0]),
       (.stat .alt_bn128_G1 .h, [alt_bn128_G1_h]), (.stat .alt_bn128_G2 .h, [alt_bn128_G2_h]),
       (.glob .alt_bn128_ate_loop_count, [alt_bn128_ate_loop_count]),
       (.glob .alt_bn128_ate_is_loop_count_neg, [alt_bn128_ate_is_loop_count_neg.toNat]),
       (.glob .alt_bn128_final_exponent_z, [alt_bn128_final_exponent_z]),
       (.glob .alt_bn128_final_exponent_is_z_neg, [alt_bn128_final_exponent_is_z_neg.toNat])]
  | .bls12_381 =>
      primeValues .bls12_381_Fr .bls12_381_modulus_r bls12_381_Fr_data ++
      primeValues .bls12_381_Fq .bls12_381_modulus_q bls12_381_Fq_data ++
      extValues .bls12_381_Fq2 fl2 bls12_381_Fq2_data fl1 bls12_381_Fq2_nonResidue fl1 bls12_381_Fq2_frob_c1 [] ++
      extValues .bls12_381_Fq6 fl6c bls12_381_Fq6_data fl2 bls12_381_Fq6_nonResidue fl2 bls12_381_Fq6_frob_c1
        bls12_381_Fq6_frob_c2 ++
      extValues .bls12_381_Fq12 fl12 bls12_381_Fq12_data fl2 bls12_381_Fq12_nonResidue fl2 bls12_381_Fq12_frob_c1 [] ++
      [(.glob .bls12_381_coeff_b, [bls12_381_coeff_b_nat]), (.glob .bls12_381_twist, fl2 bls12_381_twist_nat),
       (.glob .bls12_381_twist_mul_by_q_X, fl2 bls12_381_twist_mul_by_q_X_nat),
       (.glob .bls12_381_twist_mul_by_q_Y, fl2 bls12_381_twist_mul_by_q_Y_nat),
       (.stat .bls12_381_G1 .G1_zero, [0, 1, 0]), (.stat .bls12_381_G1 .G1_one, fl2 bls12_381_G1_one_nat ++ [1]),
       (.stat .bls12_381_G2 .G2_zero, [0, 0, 1, 0, 0, 0]), (.stat .bls12_381_G2 .G2_one, fl4 bls12_381_G2_one_nat ++ [1, 0]),
       (.stat .bls12_381_G1 .h, [bls12_381_G1_h]), (.stat .bls12_381_G2 .h, [bls12_381_G2_h]),
       (.glob .bls12_381_ate_loop_count, [bls12_381_ate_loop_count]),
       (.glob .bls12_381_ate_is_loop_count_neg, [bls12_381_ate_is_loop_count_neg.toNat]),
       (.glob .bls12_381_final_exponent, [bls12_381_final_exponent]),
       (.glob .bls12_381_final_exponent_z, [bls12_381_final_exponent_z]),
       (.glob .bls12_381_final_exponent_is_z_neg, [bls12_381_final_exponent_is_z_neg.toNat])]
  | .bn128 =>
      primeValues .bn128_Fr .bn128_modulus_r bn128_Fr_data ++ primeValues .bn128_Fq .bn128_modulus_q bn128_Fq_data ++
      [(.glob .bn128_coeff_b, [3]), (.glob .bn128_twist_coeff_b, fl2 bn128_twist_b_nat),
       (.stat .bn128_G1 .G1_one_X, [1]), (.stat .bn128_G1 .G1_one_Y, [2]), (.stat .bn128_G1 .G1_one_Z, [1]),
       (.stat .bn128_G2 .G2_one_X, fl2 bn128_G2_one_nat.1), (.stat .bn128_G2 .G2_one_Y, fl2 bn128_G2_one_nat.2),
       (.stat .bn128_G2 .G2_one_Z, [1, 0]), (.stat .bn128_G2 .h, [bn128_G2_h_nat]), (.glob .bn128_Fq_s, [bn128_Fq_s]),
       (.glob .bn128_Fq_t_minus_1_over_2, [bn128_Fq_t_minus_1_over_2]), (.glob .bn128_Fq2_s, [bn128_Fq2_s]),
       (.glob .bn128_Fq2_nqr_to_t, fl2 bn128_Fq2_nqr_to_t_nat),
       (.glob .bn128_Fq2_t_minus_1_over_2, [bn128_Fq2_t_minus_1_over_2])]
  | .edwards =>
      primeValues .edwards_Fr .edwards_modulus_r edwards_Fr_data ++
      primeValues .edwards_Fq .edwards_modulus_q edwards_Fq_data ++
      extValues .edwards_Fq3 fl3 edwards_Fq3_data fl1 edwards_Fq3_nonResidue fl1 edwards_Fq3_frob_c1 edwards_Fq3_frob_c2 ++
      extValues .edwards_Fq6 fl6q edwards_Fq6_data fl1 edwards_Fq6_nonResidue fl1 edwards_Fq6_frob_c1 [] ++
      [(.stat .edwards_Fp2 .non_residue, [edwards_Fq3_nonResidue]), (.glob .edwards_coeff_a, [1]),
       (.glob .edwards_coeff_d, [edwards_coeff_d_nat]), (.glob .edwards_twist, [0, 1, 0]),
       (.glob .edwards_twist_mul_by_q_Y, [edwards_twist_mul_by_q_Y_nat]),
       (.glob .edwards_twist_mul_by_q_Z, [edwards_twist_mul_by_q_Z_nat]),
       (.stat .edwards_G1 .G1_zero, [0, 1]), (.stat .edwards_G1 .G1_one, fl2 edwards_G1_one_nat),
       (.stat .edwards_G2 .G2_zero, [0, 0, 0, 1, 0, 0]), (.stat .edwards_G2 .G2_one, fl6q edwards_G2_one_nat),
       (.glob .edwards_ate_loop_count, [edwards_ate_loop_count]),
       (.glob .edwards_final_exponent_last_chunk_abs_of_w0, [edwards_final_exponent_last_chunk_abs_of_w0]),
       (.glob .edwards_final_exponent_last_chunk_is_w0_neg, [edwards_final_exponent_last_chunk_is_w0_neg.toNat]),
       (.glob .edwards_final_exponent_last_chunk_w1, [edwards_final_exponent_last_chunk_w1])]
  | .mnt4 =>
      primeValues .mnt46_FpA .mnt46_modulus_A mnt4_Fr_data ++ primeValues .mnt46_FpB .mnt46_modulus_B mnt4_Fq_data ++
      extValues .mnt4_Fq2 fl2 mnt4_Fq2_data fl1 mnt4_Fq2_nonResidue fl1 mnt4_Fq2_frob_c1 [] ++
      extValues .mnt4_Fq4 fl4 mnt4_Fq4_data fl1 mnt4_Fq4_nonResidue fl1 mnt4_Fq4_frob_c1 [] ++
      [(.stat .mnt4_G1 .coeff_a, [mnt4_coeff_a_nat]), (.stat .mnt4_G1 .coeff_b, [mnt4_coeff_b_nat]),
       (.glob .mnt4_twist, [0, 1]), (.stat .mnt4_G2 .twist, [0, 1]),
       (.glob .mnt4_twist_mul_by_q_X, [mnt4_twist_mul_by_q_X_nat]), (.glob .mnt4_twist_mul_by_q_Y, [mnt4_twist_mul_by_q_Y_nat]),
       (.stat .mnt4_G1 .G1_zero, [0, 1, 0]), (.stat .mnt4_G1 .G1_one, fl2 mnt4_G1_one_nat ++ [1]),
       (.stat .mnt4_G2 .G2_zero, [0, 0, 1, 0, 0, 0]), (.stat .mnt4_G2 .G2_one, fl4 mnt4_G2_one_nat ++ [1, 0]),
       (.stat .mnt4_G1 .h, [mnt4_G1_h]), (.stat .mnt4_G2 .h, [mnt4_G2_h]),
       (.glob .mnt4_ate_loop_count, [mnt4_ate_loop_count]),
       (.glob .mnt4_ate_is_loop_count_neg, [mnt4_ate_is_loop_count_neg.toNat]),
       (.glob .mnt4_final_exponent, [mnt4_final_exponent]),
       (.glob .mnt4_final_exponent_last_chunk_abs_of_w0, [mnt4_final_exponent_last_chunk_abs_of_w0]),
       (.glob .mnt4_final_exponent_last_chunk_is_w0_neg, [mnt4_final_exponent_last_chunk_is_w0_neg.toNat]),
       (.glob .mnt4_final_exponent_last_chunk_w1, [mnt4_final_exponent_last_chunk_w1])]
  | .mnt6 =>
      primeValues .mnt46_FpB .mnt46_modulus_B mnt6_Fr_data ++ primeValues .mnt46_FpA .mnt46_modulus_A mnt6_Fq_data ++
      extValues .mnt6_Fq3 fl3 mnt6_Fq3_data fl1 mnt6_Fq3_nonResidue fl1 mnt6_Fq3_frob_c1 mnt6_Fq3_frob_c2 ++
      extValues .mnt6_Fq6 fl6q mnt6_Fq6_data fl1 mnt6_Fq6_nonResidue fl1 mnt6_Fq6_frob_c1 [] ++
      [(.stat .mnt6_Fp2 .non_residue, [mnt6_Fq3_nonResidue]),
       (.stat .mnt6_G1 .coeff_a, [mnt6_coeff_a_nat]), (.stat .mnt6_G1 .coeff_b, [mnt6_coeff_b_nat]),
       (.glob .mnt6_twist, [0, 1, 0]), (.stat .mnt6_G2 .twist, [0, 1, 0]),
       (.glob .mnt6_twist_mul_by_q_X, [mnt6_twist_mul_by_q_X_nat]), (.glob .mnt6_twist_mul_by_q_Y, [mnt6_twist_mul_by_q_Y_nat]),
       (.stat .mnt6_G1 .G1_zero, [0, 1, 0]), (.stat .mnt6_G1 .G1_one, fl2 mnt6_G1_one_nat ++ [1]),
       (.stat .mnt6_G2 .G2_zero, [0, 0, 0, 1, 0, 0, 0, 0, 0]), (.stat .mnt6_G2 .G2_one, fl6q mnt6_G2_one_nat ++ [1, 0, 0]),
       (.stat .mnt6_G1 .h, [mnt6_G1_h]), (.stat .mnt6_G2 .h, [mnt6_G2_h]),
       (.glob .mnt6_ate_loop_count, [mnt6_ate_loop_count]),
       (.glob .mnt6_ate_is_loop_count_neg, [mnt6_ate_is_loop_count_neg.toNat]),
       (.glob .mnt6_final_exponent, [mnt6_final_exponent]),
       (.glob .mnt6_final_exponent_last_chunk_abs_of_w0, [mnt6_final_exponent_last_chunk_abs_of_w0]),
       (.glob .mnt6_final_exponent_last_chunk_is_w0_neg, [mnt6_final_exponent_last_chunk_is_w0_neg.toNat]),
       (.glob .mnt6_final_exponent_last_chunk_w1, [mnt6_final_exponent_last_chunk_w1])]

end Libff.Init
