import Verif.Model.CurveParams
import Verif.Model.Curve
import Verif.Lemmas.FieldsAltBn128

/-!
# The groups of alt_bn128: coefficients and generators
-/
namespace Libff
set_option synthInstance.maxSize 2000

/-- `alt_bn128_coeff_b`, alt_bn128_init.cpp. -/
def alt_bn128_b : alt_bn128_Fq := (alt_bn128_coeff_b_nat : Nat)
/-- `alt_bn128_twist`, alt_bn128_init.cpp. -/
def alt_bn128_twist : alt_bn128_Fq2 := dec2 Nat.cast alt_bn128_twist_nat
/-- `alt_bn128_twist_coeff_b = alt_bn128_coeff_b * alt_bn128_twist.inverse()`, alt_bn128_init.cpp:35 (`inverse()` succeeds and is the
inverse of the field, C15). -/
def alt_bn128_twist_b : alt_bn128_Fq2 := Quad.scale (· * ·) alt_bn128_b alt_bn128_twist⁻¹
/-- `alt_bn128_G1::G1_one`, alt_bn128_init.cpp. -/
def alt_bn128_G1_one : Coord3 alt_bn128_Fq := ⟨(alt_bn128_G1_one_nat.1 : Nat), (alt_bn128_G1_one_nat.2 : Nat), 1⟩
/-- `alt_bn128_G2::G2_one`, alt_bn128_init.cpp. -/
def alt_bn128_G2_one : Coord3 alt_bn128_Fq2 := ⟨dec2 Nat.cast alt_bn128_G2_one_nat.1, dec2 Nat.cast alt_bn128_G2_one_nat.2, 1⟩

end Libff
