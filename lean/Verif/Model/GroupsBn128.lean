import Verif.Model.Bn128
import Verif.Lemmas.FieldsAltBn128

/-!
# The groups of bn128: coefficients, generators, constants for square roots

`bn::Fp` and `bn::Fp2` are the fields with `p` and `p²` elements; here they are the fields of alt_bn128, which has the same modulus
and the same non-residue `-1`.
-/
namespace Libff
set_option synthInstance.maxSize 2000

/-- `bn128_coeff_b`, bn128_init.cpp:30. -/
def bn128_b : alt_bn128_Fq := (3 : Nat)
/-- `bn128_twist_coeff_b`, bn128_init.cpp:35-36. -/
def bn128_twist_b_nat : Nat × Nat :=
  (19485874751759354771024239261021720505790618469301721065564631296452457478373,
   266929791119991161246907387137283842545076965332900288569378510910307636690)
def bn128_twist_b : alt_bn128_Fq2 := dec2 Nat.cast bn128_twist_b_nat
/-- `bn128_G1::G1_one`, bn128_init.cpp:47-49. -/
def bn128_G1_one : Coord3 alt_bn128_Fq := ⟨(1 : Nat), (2 : Nat), 1⟩
/-- `bn128_G2::G2_one`, bn128_init.cpp:113-117. -/
def bn128_G2_one_nat : (Nat × Nat) × (Nat × Nat) :=
  ((15267802884793550383558706039165621050290089775961208824303765753922461897946,
    9034493566019742339402378670461897774509967669562610788113215988055021632533),
   (644888581738283025171396578091639672120333224302184904896215738366765861164,
    20532875081203448695448744255224543661959516361327385779878476709582931298750))
def bn128_G2_one : Coord3 alt_bn128_Fq2 := ⟨dec2 Nat.cast bn128_G2_one_nat.1, dec2 Nat.cast bn128_G2_one_nat.2, 1⟩
/-- `bn128_G2::h`, bn128_init.cpp:122. -/
def bn128_G2_h_nat : Nat := 21888242871839275222246405745257275088844257914179612981679871602714643921549
def bn128_G2_h : List Limb := limbsOf 4 bn128_G2_h_nat

/-- `bn128_Fq_s`, bn128_init.cpp:31. -/
def bn128_Fq_s : Nat := 1
/-- `bn128_Fq_nqr_to_t`, bn128_init.cpp:32. -/
def bn128_Fq_nqr_to_t : alt_bn128_Fq := (21888242871839275222246405745257275088696311157297823662689037894645226208582 : Nat)
/-- `bn128_Fq_t_minus_1_over_2`, bn128_init.cpp:33. -/
def bn128_Fq_t_minus_1_over_2 : Nat := 5472060717959818805561601436314318772174077789324455915672259473661306552145
/-- `bn128_Fq2_s`, bn128_init.cpp:37. -/
def bn128_Fq2_s : Nat := 4
/-- `bn128_Fq2_nqr_to_t`, bn128_init.cpp:38-39. -/
def bn128_Fq2_nqr_to_t_nat : Nat × Nat :=
  (5033503716262624267312492558379982687175200734934877598599011485707452665730,
   314498342015008975724433667930697407966947188435857772134235984660852259084)
def bn128_Fq2_nqr_to_t : alt_bn128_Fq2 := dec2 Nat.cast bn128_Fq2_nqr_to_t_nat
/-- `bn128_Fq2_t_minus_1_over_2`, bn128_init.cpp:40. -/
def bn128_Fq2_t_minus_1_over_2 : Nat :=
  14971724250519463826312126413021210649976634891596900701138993820439690427699319920245032869357433499099632259837909383182382988566862092145199781964621

namespace Bn128
set_option synthInstance.maxSize 2000

/-- `bn128_G1::sqrt`, bn128_g1.cpp:27-75. -/
def sqrtG1 (debug : Bool) (fuel : Nat) : alt_bn128_Fq → Outcome (Option alt_bn128_Fq) :=
  sqrt debug bn128_Fq_s bn128_Fq_t_minus_1_over_2 bn128_Fq_nqr_to_t fuel

/-- `bn128_G2::sqrt`, bn128_g2.cpp:27-75. -/
def sqrtG2 (debug : Bool) (fuel : Nat) : alt_bn128_Fq2 → Outcome (Option alt_bn128_Fq2) :=
  sqrt debug bn128_Fq2_s bn128_Fq2_t_minus_1_over_2 bn128_Fq2_nqr_to_t fuel

/-- `bn128_G2::mul_by_cofactor`, bn128_g2.cpp:340-343 (`operator*(bigint, bn128_G2)` is `scalar_mul`, bn128_g2.hpp:89-93). -/
def mulByCofactorG2 (E : EcOps alt_bn128_Fq2) (p : Coord3 alt_bn128_Fq2) : Coord3 alt_bn128_Fq2 :=
  @scalarMul _ ⟨zero, plus E, sub E, dbl E⟩ p bn128_G2_h

end Bn128
end Libff
