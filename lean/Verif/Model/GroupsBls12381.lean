import Verif.Model.CurveParams
import Verif.Model.Curve
import Verif.Lemmas.FieldsBls12381

/-!
# The groups of bls12_381: coefficients and generators
-/
namespace Libff
set_option synthInstance.maxSize 2000

/-- `bls12_381_coeff_b`, bls12_381_init.cpp. -/
def bls12_381_b : bls12_381_Fq := (bls12_381_coeff_b_nat : Nat)
/-- `bls12_381_twist`, bls12_381_init.cpp. -/
def bls12_381_twist : bls12_381_Fq2 := dec2 Nat.cast bls12_381_twist_nat
/-- `bls12_381_twist_coeff_b = bls12_381_coeff_b * bls12_381_twist`, bls12_381_init.cpp:29. -/
def bls12_381_twist_b : bls12_381_Fq2 := Quad.scale (· * ·) bls12_381_b bls12_381_twist
/-- `bls12_381_G1::G1_one`, bls12_381_init.cpp. -/
def bls12_381_G1_one : Coord3 bls12_381_Fq := ⟨(bls12_381_G1_one_nat.1 : Nat), (bls12_381_G1_one_nat.2 : Nat), 1⟩
/-- `bls12_381_G2::G2_one`, bls12_381_init.cpp. -/
def bls12_381_G2_one : Coord3 bls12_381_Fq2 := ⟨dec2 Nat.cast bls12_381_G2_one_nat.1, dec2 Nat.cast bls12_381_G2_one_nat.2, 1⟩

end Libff
