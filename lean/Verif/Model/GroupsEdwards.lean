import Verif.Model.CurveParams
import Verif.Model.Curve
import Verif.Lemmas.FieldsEdwards

/-!
# The groups of edwards: coefficients and generators
-/
namespace Libff
set_option synthInstance.maxSize 2000

/-- `edwards_coeff_d`, edwards_init.cpp. -/
def edwards_d : edwards_Fq := (edwards_coeff_d_nat : Nat)
/-- Multiplication by `d` in G1: `edwards_coeff_d * x`. -/
def edwards_G1_mul_by_d (x : edwards_Fq) : edwards_Fq := edwards_d * x
/-- `edwards_twist_coeff_a`, edwards_init.cpp. -/
def edwards_twist_a : edwards_Fq3 := edwardsTwistA
/-- `edwards_twist_coeff_d`, edwards_init.cpp. -/
def edwards_twist_d : edwards_Fq3 := edwardsTwistD edwards_d
/-- `edwards_G2::mul_by_a`. -/
def edwards_G2_mul_by_a (x : edwards_Fq3) : edwards_Fq3 := edwardsMulByA x
/-- `edwards_G2::mul_by_d`. -/
def edwards_G2_mul_by_d (x : edwards_Fq3) : edwards_Fq3 := edwardsMulByD edwards_d x
/-- `edwards_G1::G1_one`, edwards_init.cpp. -/
def edwards_G1_one : Coord3 edwards_Fq := Edw.ofAffine ((edwards_G1_one_nat.1 : Nat) : edwards_Fq) ((edwards_G1_one_nat.2 : Nat) : edwards_Fq)
/-- `edwards_G2::G2_one`, edwards_init.cpp. -/
def edwards_G2_one : Coord3 edwards_Fq3 := Edw.ofAffine (dec3 Nat.cast edwards_G2_one_nat.1) (dec3 Nat.cast edwards_G2_one_nat.2)

end Libff
