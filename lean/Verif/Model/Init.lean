import Verif.Model.Outcome

/-!
# Initialisation of the public parameters: the language

`init_public_params()` of a curve is a straight-line program over static variables: assignments, `resize(0)` and `push_back` of the
window tables, and assertions.  What the right-hand sides compute is left to an arbitrary interpretation; what matters here is which
variables they read.
-/
namespace Libff.Init

/-- The six curves. -/
inductive Curve | alt_bn128 | bls12_381 | bn128 | edwards | mnt4 | mnt6
  deriving DecidableEq

/-- The variables at namespace scope set by the initialisation functions (`*_fields.cpp`, `*_init.cpp`; `mnt46_common.cpp:15-16`:
`mnt4_modulus_r`, `mnt6_modulus_q` are macros for `mnt46_modulus_A`, `mnt4_modulus_q`, `mnt6_modulus_r` for `mnt46_modulus_B`,
mnt4_fields.hpp:22-23, mnt6_fields.hpp:22-23).  `bn_Param` stands for the whole state of the ate-pairing library set by
`bn::Param::init()`; `temp_Fq6`, `temp_Fq12` are the two local constants of `init_bls12_381_fields`. -/
inductive Global
  | alt_bn128_modulus_r | alt_bn128_modulus_q | alt_bn128_coeff_b | alt_bn128_twist | alt_bn128_twist_coeff_b
  | alt_bn128_twist_mul_by_b_c0 | alt_bn128_twist_mul_by_b_c1 | alt_bn128_twist_mul_by_q_X
  | alt_bn128_twist_mul_by_q_Y | alt_bn128_ate_loop_count | alt_bn128_ate_is_loop_count_neg
  | alt_bn128_final_exponent_z | alt_bn128_final_exponent_is_z_neg | bls12_381_modulus_r | bls12_381_modulus_q
  | temp_Fq6 | temp_Fq12 | bls12_381_coeff_b | bls12_381_twist | bls12_381_twist_coeff_b
  | bls12_381_twist_mul_by_b_c0 | bls12_381_twist_mul_by_b_c1 | bls12_381_twist_mul_by_q_X
  | bls12_381_twist_mul_by_q_Y | bls12_381_ate_loop_count | bls12_381_ate_is_loop_count_neg
  | bls12_381_final_exponent | bls12_381_final_exponent_z | bls12_381_final_exponent_is_z_neg | bn_Param
  | bn128_modulus_r | bn128_modulus_q | bn128_coeff_b | bn128_Fq_s | bn128_Fq_nqr_to_t | bn128_Fq_t_minus_1_over_2
  | bn128_twist_coeff_b | bn128_Fq2_s | bn128_Fq2_nqr_to_t | bn128_Fq2_t_minus_1_over_2 | edwards_modulus_r
  | edwards_modulus_q | edwards_coeff_a | edwards_coeff_d | edwards_twist | edwards_twist_coeff_a
  | edwards_twist_coeff_d | edwards_twist_mul_by_a_c0 | edwards_twist_mul_by_a_c1 | edwards_twist_mul_by_a_c2
  | edwards_twist_mul_by_d_c0 | edwards_twist_mul_by_d_c1 | edwards_twist_mul_by_d_c2 | edwards_twist_mul_by_q_Y
  | edwards_twist_mul_by_q_Z | edwards_ate_loop_count | edwards_final_exponent_last_chunk_abs_of_w0
  | edwards_final_exponent_last_chunk_is_w0_neg | edwards_final_exponent_last_chunk_w1 | mnt46_modulus_A
  | mnt46_modulus_B | mnt4_twist | mnt4_twist_coeff_a | mnt4_twist_coeff_b | mnt4_twist_mul_by_a_c0
  | mnt4_twist_mul_by_a_c1 | mnt4_twist_mul_by_b_c0 | mnt4_twist_mul_by_b_c1 | mnt4_twist_mul_by_q_X
  | mnt4_twist_mul_by_q_Y | mnt4_ate_loop_count | mnt4_ate_is_loop_count_neg | mnt4_final_exponent
  | mnt4_final_exponent_last_chunk_abs_of_w0 | mnt4_final_exponent_last_chunk_is_w0_neg
  | mnt4_final_exponent_last_chunk_w1 | mnt6_twist | mnt6_twist_coeff_a | mnt6_twist_coeff_b | mnt6_twist_mul_by_a_c0
  | mnt6_twist_mul_by_a_c1 | mnt6_twist_mul_by_a_c2 | mnt6_twist_mul_by_b_c0 | mnt6_twist_mul_by_b_c1
  | mnt6_twist_mul_by_b_c2 | mnt6_twist_mul_by_q_X | mnt6_twist_mul_by_q_Y | mnt6_ate_loop_count
  | mnt6_ate_is_loop_count_neg | mnt6_final_exponent | mnt6_final_exponent_last_chunk_abs_of_w0
  | mnt6_final_exponent_last_chunk_is_w0_neg | mnt6_final_exponent_last_chunk_w1
  deriving DecidableEq

/-- The classes whose static members are set.  `mnt46_FpA` is `Fp_model<…, mnt46_modulus_A>`, which is both `mnt4_Fr` and
`mnt6_Fq`; `mnt46_FpB` is both `mnt4_Fq` and `mnt6_Fr` (mnt4_fields.hpp:34-35, mnt6_fields.hpp:34-35).  `edwards_Fp2`, `mnt6_Fp2` are
`edwards_Fq6::my_Fp2`, `mnt6_Fq6::my_Fp2`.  `bn_*`, `mie_Vuint` are classes of the ate-pairing library. -/
inductive Cls
  | alt_bn128_Fr | alt_bn128_Fq | alt_bn128_Fq2 | alt_bn128_Fq6 | alt_bn128_Fq12 | alt_bn128_G1 | alt_bn128_G2
  | bls12_381_Fr | bls12_381_Fq | bls12_381_Fq2 | bls12_381_Fq6 | bls12_381_Fq12 | bls12_381_G1 | bls12_381_G2
  | bn128_Fr | bn128_Fq | bn_Fp | mie_Vuint | bn_Fp2 | bn128_G1 | bn128_G2 | bn_Fp12 | bn128_GT | edwards_Fr
  | edwards_Fq | edwards_Fq3 | edwards_Fq6 | edwards_Fp2 | edwards_G1 | edwards_G2 | mnt46_FpA | mnt46_FpB | mnt4_Fq2
  | mnt4_Fq4 | mnt4_G1 | mnt4_G2 | mnt6_Fq3 | mnt6_Fq6 | mnt6_Fp2 | mnt6_G1 | mnt6_G2
  deriving DecidableEq

/-- The names of static data members (fp.hpp:44-75, fp2.hpp:40-56, fp12_2over3over2.hpp:44-60, *_g1.hpp, *_g2.hpp, bn128_gt.hpp:25);
`bn128_G1::G1_zero.X` and alike are members of members, set one by one. -/
inductive Mem
  | Rsquared | Rcubed | inv | num_bits | euler | s | t | t_minus_1_over_2 | multiplicative_generator | root_of_unity
  | nqr | nqr_to_t | non_residue | G1_zero | G1_one | initialized | h | wnaf_window_table
  | fixed_base_exp_window_table | G2_zero | G2_one | G1_zero_X | G1_zero_Y | G1_zero_Z | G1_one_X | G1_one_Y
  | G1_one_Z | G2_zero_X | G2_zero_Y | G2_zero_Z | G2_one_X | G2_one_Y | G2_one_Z | GT_one_elem | coeff_a | coeff_b
  | twist
  deriving DecidableEq

/-- A static variable: a global, a static member, or an entry of the array `Frobenius_coeffs_c1` / `Frobenius_coeffs_c2`. -/
inductive Var
  | glob (g : Global) | stat (c : Cls) (m : Mem) | frob1 (c : Cls) (i : Nat) | frob2 (c : Cls) (i : Nat)
  deriving DecidableEq

/-- The static variables read by constructors and operations of a class.  `Fp_model`: the modulus, `Rsquared`, `Rcubed`, `inv`
(fp.tcc:25-180, 200-248, 500-560).  Extensions: those of the coefficient field, and `non_residue` (fp2.tcc, fp3.tcc, fp4.tcc,
fp6_2over3.tcc, fp6_3over2.tcc, fp12_2over3over2.tcc).  Points: those of the coordinate field (the two-argument constructor of
`edwards_G1` multiplies, edwards_g1.hpp:42).  Classes of the ate-pairing library: its state. -/
def Cls.reads : Cls → List Var
  | .alt_bn128_Fr => prime .alt_bn128_Fr .alt_bn128_modulus_r
  | .alt_bn128_Fq | .alt_bn128_G1 => prime .alt_bn128_Fq .alt_bn128_modulus_q
  | .alt_bn128_Fq2 | .alt_bn128_G2 => alt2
  | .alt_bn128_Fq6 => alt2 ++ [.stat .alt_bn128_Fq6 .non_residue]
  | .alt_bn128_Fq12 => alt2 ++ [.stat .alt_bn128_Fq6 .non_residue, .stat .alt_bn128_Fq12 .non_residue]
  | .bls12_381_Fr => prime .bls12_381_Fr .bls12_381_modulus_r
  | .bls12_381_Fq | .bls12_381_G1 => prime .bls12_381_Fq .bls12_381_modulus_q
  | .bls12_381_Fq2 | .bls12_381_G2 => bls2
  | .bls12_381_Fq6 => bls2 ++ [.stat .bls12_381_Fq6 .non_residue]
  | .bls12_381_Fq12 => bls2 ++ [.stat .bls12_381_Fq6 .non_residue, .stat .bls12_381_Fq12 .non_residue]
  | .bn128_Fr => prime .bn128_Fr .bn128_modulus_r
  | .bn128_Fq => prime .bn128_Fq .bn128_modulus_q
  | .bn_Fp | .mie_Vuint | .bn_Fp2 | .bn128_G1 | .bn128_G2 | .bn_Fp12 | .bn128_GT => [.glob .bn_Param]
  | .edwards_Fr => prime .edwards_Fr .edwards_modulus_r
  | .edwards_Fq | .edwards_G1 => prime .edwards_Fq .edwards_modulus_q
  | .edwards_Fq3 | .edwards_G2 => prime .edwards_Fq .edwards_modulus_q ++ [.stat .edwards_Fq3 .non_residue]
  | .edwards_Fq6 =>
      prime .edwards_Fq .edwards_modulus_q ++ [.stat .edwards_Fq3 .non_residue, .stat .edwards_Fq6 .non_residue]
  | .edwards_Fp2 => prime .edwards_Fq .edwards_modulus_q ++ [.stat .edwards_Fp2 .non_residue]
  | .mnt46_FpA | .mnt6_G1 => prime .mnt46_FpA .mnt46_modulus_A
  | .mnt46_FpB | .mnt4_G1 => prime .mnt46_FpB .mnt46_modulus_B
  | .mnt4_Fq2 | .mnt4_G2 => prime .mnt46_FpB .mnt46_modulus_B ++ [.stat .mnt4_Fq2 .non_residue]
  | .mnt4_Fq4 => prime .mnt46_FpB .mnt46_modulus_B ++ [.stat .mnt4_Fq2 .non_residue, .stat .mnt4_Fq4 .non_residue]
  | .mnt6_Fq3 | .mnt6_G2 => prime .mnt46_FpA .mnt46_modulus_A ++ [.stat .mnt6_Fq3 .non_residue]
  | .mnt6_Fq6 => prime .mnt46_FpA .mnt46_modulus_A ++ [.stat .mnt6_Fq3 .non_residue, .stat .mnt6_Fq6 .non_residue]
  | .mnt6_Fp2 => prime .mnt46_FpA .mnt46_modulus_A ++ [.stat .mnt6_Fp2 .non_residue]
where
  prime (c : Cls) (m : Global) : List Var := [.glob m, .stat c .Rsquared, .stat c .Rcubed, .stat c .inv]
  alt2 : List Var := prime .alt_bn128_Fq .alt_bn128_modulus_q ++ [.stat .alt_bn128_Fq2 .non_residue]
  bls2 : List Var := prime .bls12_381_Fq .bls12_381_modulus_q ++ [.stat .bls12_381_Fq2 .non_residue]

/-- The global holding the modulus of a prime field. -/
def Cls.modulus : Cls → List Var
  | .alt_bn128_Fr => [.glob .alt_bn128_modulus_r]
  | .alt_bn128_Fq => [.glob .alt_bn128_modulus_q]
  | .bls12_381_Fr => [.glob .bls12_381_modulus_r]
  | .bls12_381_Fq => [.glob .bls12_381_modulus_q]
  | .bn128_Fr => [.glob .bn128_modulus_r]
  | .bn128_Fq => [.glob .bn128_modulus_q]
  | .edwards_Fr => [.glob .edwards_modulus_r]
  | .edwards_Fq => [.glob .edwards_modulus_q]
  | .mnt46_FpA => [.glob .mnt46_modulus_A]
  | .mnt46_FpB => [.glob .mnt46_modulus_B]
  | _ => []

/-- The functions occurring on right-hand sides. -/
inductive Fn
  | bigint | bnParamInit | ctor (c : Cls) | zero (c : Cls) | one (c : Cls) | mul (c : Cls) | inverse (c : Cls)
  | squared (c : Cls) | modulusIsValid (c : Cls)
  deriving DecidableEq

/-- The static variables a function reads besides its arguments: `bigint(const char*)` (bigint.tcc:20-40) none,
`modulus_is_valid()` (fp.hpp:133) the modulus, the others those of their class. -/
def Fn.reads : Fn → List Var
  | .bigint | .bnParamInit => []
  | .ctor c | .zero c | .one c | .mul c | .inverse c | .squared c => c.reads
  | .modulusIsValid c => c.modulus

/-- Right-hand sides: numerals (decimal strings are given by their value), `true`/`false`, variables, function application. -/
inductive Exp
  | num (n : Nat) | bool (b : Bool) | fn (f : Fn) | var (x : Var) | app (e e' : Exp)

namespace Exp
/-- `bigint<…>("n")`. -/
abbrev big (n : Nat) : Exp := .app (.fn .bigint) (.num n)
/-- `c("n")`. -/
abbrev lit (c : Cls) (n : Nat) : Exp := .app (.fn (.ctor c)) (.num n)
/-- A constructor call with two arguments. -/
abbrev make2 (c : Cls) (a b : Exp) : Exp := .app (.app (.fn (.ctor c)) a) b
/-- A constructor call with three arguments. -/
abbrev make3 (c : Cls) (a b d : Exp) : Exp := .app (.app (.app (.fn (.ctor c)) a) b) d
/-- `a * b`, computed in class `c`. -/
abbrev times (c : Cls) (a b : Exp) : Exp := .app (.app (.fn (.mul c)) a) b
/-- A call without further arguments. -/
abbrev call (f : Fn) (a : Exp) : Exp := .app (.fn f) a
end Exp

/-- Statements. -/
inductive Cmd
  | assign (x : Var) (e : Exp) | clear (x : Var) | push (x : Var) (e : Exp) | check (e : Exp)

/-- The variable a statement sets. -/
def Cmd.target : Cmd → List Var
  | .assign x _ | .clear x | .push x _ => [x]
  | .check _ => []

/-- The variables a program sets. -/
def assigned (p : List Cmd) : List Var := p.flatMap Cmd.target

/-- What the functions compute: `fn f` fed with the values of the static variables `f` reads, then applied to its arguments one by
one; the empty vector, `push_back`, and when an asserted value counts as true.  Nothing is assumed about it. -/
structure Interp (V : Type) where
  num : Nat → V
  bool : Bool → V
  fn : Fn → V
  feed : V → V → V
  app : V → V → V
  empty : V
  push : V → V → V
  truth : V → Bool

/-- The contents of the static variables. -/
abbrev State (V : Type) := Var → V

section
variable {V : Type} (I : Interp V)

/-- The value of a right-hand side. -/
def Exp.eval (σ : State V) : Exp → V
  | .num n => I.num n
  | .bool b => I.bool b
  | .fn f => f.reads.foldl (fun v x => I.feed v (σ x)) (I.fn f)
  | .var x => σ x
  | .app e e' => I.app (e.eval σ) (e'.eval σ)

/-- Assignment to a variable. -/
def State.set (σ : State V) (x : Var) (v : V) : State V := fun y => if y = x then v else σ y

/-- Execution; a failed assertion aborts. -/
def exec : List Cmd → State V → Outcome (State V)
  | [], σ => .ok σ
  | .assign x e :: p, σ => exec p (σ.set x (e.eval I σ))
  | .clear x :: p, σ => exec p (σ.set x I.empty)
  | .push x e :: p, σ => exec p (σ.set x (I.push (σ x) (e.eval I σ)))
  | .check e :: p, σ => if I.truth (e.eval I σ) then exec p σ else .abort

end

end Libff.Init
