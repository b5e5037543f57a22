import Verif.Model.CurveParams
import Verif.Model.Curve
import Verif.Lemmas.FieldsMnt6

/-!
# The groups of mnt6: coefficients and generators
-/
namespace Libff
set_option synthInstance.maxSize 2000

/-- `mnt6_G1::coeff_a`, mnt6_init.cpp. -/
def mnt6_a : mnt6_Fq := (mnt6_coeff_a_nat : Nat)
/-- `mnt6_G1::coeff_b`, mnt6_init.cpp. -/
def mnt6_b : mnt6_Fq := (mnt6_coeff_b_nat : Nat)
/-- `mnt6_G2::coeff_a`, mnt6_init.cpp. -/
def mnt6_twist_a : mnt6_Fq3 := mnt6TwistA mnt6_a
/-- `mnt6_G2::coeff_b`, mnt6_init.cpp. -/
def mnt6_twist_b : mnt6_Fq3 := mnt6TwistB mnt6_b
/-- Multiplication by `a` in G1: `mnt6_G1::coeff_a * x`. -/
def mnt6_G1_mul_by_a (x : mnt6_Fq) : mnt6_Fq := mnt6_a * x
/-- `mnt6_G2::mul_by_a`. -/
def mnt6_G2_mul_by_a (x : mnt6_Fq3) : mnt6_Fq3 := mnt6MulByA mnt6_a x
/-- `mnt6_G1::G1_one`, mnt6_init.cpp. -/
def mnt6_G1_one : Coord3 mnt6_Fq := ⟨(mnt6_G1_one_nat.1 : Nat), (mnt6_G1_one_nat.2 : Nat), 1⟩
/-- `mnt6_G2::G2_one`, mnt6_init.cpp. -/
def mnt6_G2_one : Coord3 mnt6_Fq3 := ⟨dec3 Nat.cast mnt6_G2_one_nat.1, dec3 Nat.cast mnt6_G2_one_nat.2, 1⟩

end Libff
