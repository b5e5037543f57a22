import Verif.Model.CurveParams
import Verif.Model.Curve
import Verif.Lemmas.FieldsMnt4

/-!
# The groups of mnt4: coefficients and generators
-/
namespace Libff
set_option synthInstance.maxSize 2000

/-- `mnt4_G1::coeff_a`, mnt4_init.cpp. -/
def mnt4_a : mnt4_Fq := (mnt4_coeff_a_nat : Nat)
/-- `mnt4_G1::coeff_b`, mnt4_init.cpp. -/
def mnt4_b : mnt4_Fq := (mnt4_coeff_b_nat : Nat)
/-- `mnt4_G2::coeff_a`, mnt4_init.cpp. -/
def mnt4_twist_a : mnt4_Fq2 := mnt4TwistA mnt4_a
/-- `mnt4_G2::coeff_b`, mnt4_init.cpp. -/
def mnt4_twist_b : mnt4_Fq2 := mnt4TwistB mnt4_b
/-- Multiplication by `a` in G1: `mnt4_G1::coeff_a * x`. -/
def mnt4_G1_mul_by_a (x : mnt4_Fq) : mnt4_Fq := mnt4_a * x
/-- `mnt4_G2::mul_by_a`. -/
def mnt4_G2_mul_by_a (x : mnt4_Fq2) : mnt4_Fq2 := mnt4MulByA mnt4_a x
/-- `mnt4_G1::G1_one`, mnt4_init.cpp. -/
def mnt4_G1_one : Coord3 mnt4_Fq := ⟨(mnt4_G1_one_nat.1 : Nat), (mnt4_G1_one_nat.2 : Nat), 1⟩
/-- `mnt4_G2::G2_one`, mnt4_init.cpp. -/
def mnt4_G2_one : Coord3 mnt4_Fq2 := ⟨dec2 Nat.cast mnt4_G2_one_nat.1, dec2 Nat.cast mnt4_G2_one_nat.2, 1⟩

end Libff
