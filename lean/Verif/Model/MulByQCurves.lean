import Verif.Model.MulByQ
import Verif.Model.GroupsAltBn128
import Verif.Model.GroupsBls12381
import Verif.Model.GroupsMnt4
import Verif.Model.GroupsMnt6
import Verif.Model.GroupsEdwards
import Verif.Model.TowerParams

/-!
# `mul_by_q` of the five curves
-/
namespace Libff
set_option synthInstance.maxSize 2000

/-- `alt_bn128_Fq2::Frobenius_map(1)` with the stored table. -/
def alt_bn128_G2_frob : alt_bn128_Fq2 → alt_bn128_Fq2 :=
  Fp2.frobeniusMap (fun i => ((alt_bn128_Fq2_frob_c1.getD i 0 : Nat) : alt_bn128_Fq)) 1
/-- `alt_bn128_twist_mul_by_q_X`, alt_bn128_init.cpp. -/
def alt_bn128_q_X : alt_bn128_Fq2 := dec2 Nat.cast alt_bn128_twist_mul_by_q_X_nat
/-- `alt_bn128_twist_mul_by_q_Y`, alt_bn128_init.cpp. -/
def alt_bn128_q_Y : alt_bn128_Fq2 := dec2 Nat.cast alt_bn128_twist_mul_by_q_Y_nat
/-- `alt_bn128_G2::mul_by_q`. -/
def alt_bn128_G2_mul_by_q : Coord3 alt_bn128_Fq2 → Coord3 alt_bn128_Fq2 :=
  Coord3.mulByQ alt_bn128_G2_frob (alt_bn128_q_X * ·) (alt_bn128_q_Y * ·)

/-- `bls12_381_Fq2::Frobenius_map(1)` with the stored table. -/
def bls12_381_G2_frob : bls12_381_Fq2 → bls12_381_Fq2 :=
  Fp2.frobeniusMap (fun i => ((bls12_381_Fq2_frob_c1.getD i 0 : Nat) : bls12_381_Fq)) 1
/-- `bls12_381_twist_mul_by_q_X`, bls12_381_init.cpp. -/
def bls12_381_q_X : bls12_381_Fq2 := dec2 Nat.cast bls12_381_twist_mul_by_q_X_nat
/-- `bls12_381_twist_mul_by_q_Y`, bls12_381_init.cpp. -/
def bls12_381_q_Y : bls12_381_Fq2 := dec2 Nat.cast bls12_381_twist_mul_by_q_Y_nat
/-- `bls12_381_G2::mul_by_q`. -/
def bls12_381_G2_mul_by_q : Coord3 bls12_381_Fq2 → Coord3 bls12_381_Fq2 :=
  Coord3.mulByQ bls12_381_G2_frob (bls12_381_q_X * ·) (bls12_381_q_Y * ·)

/-- `mnt4_Fq2::Frobenius_map(1)` with the stored table. -/
def mnt4_G2_frob : mnt4_Fq2 → mnt4_Fq2 :=
  Fp2.frobeniusMap (fun i => ((mnt4_Fq2_frob_c1.getD i 0 : Nat) : mnt4_Fq)) 1
/-- `mnt4_twist_mul_by_q_X`, mnt4_init.cpp. -/
def mnt4_q_X : mnt4_Fq := (mnt4_twist_mul_by_q_X_nat : Nat)
/-- `mnt4_twist_mul_by_q_Y`, mnt4_init.cpp. -/
def mnt4_q_Y : mnt4_Fq := (mnt4_twist_mul_by_q_Y_nat : Nat)
/-- `mnt4_G2::mul_by_q`. -/
def mnt4_G2_mul_by_q : Coord3 mnt4_Fq2 → Coord3 mnt4_Fq2 :=
  Coord3.mulByQ mnt4_G2_frob (Quad.scale (· * ·) mnt4_q_X) (Quad.scale (· * ·) mnt4_q_Y)

/-- `mnt6_Fq3::Frobenius_map(1)` with the stored table. -/
def mnt6_G2_frob : mnt6_Fq3 → mnt6_Fq3 :=
  Fp3.frobeniusMap (fun i => ((mnt6_Fq3_frob_c1.getD i 0 : Nat) : mnt6_Fq))
    (fun i => ((mnt6_Fq3_frob_c2.getD i 0 : Nat) : mnt6_Fq)) 1
/-- `mnt6_twist_mul_by_q_X`, mnt6_init.cpp. -/
def mnt6_q_X : mnt6_Fq := (mnt6_twist_mul_by_q_X_nat : Nat)
/-- `mnt6_twist_mul_by_q_Y`, mnt6_init.cpp. -/
def mnt6_q_Y : mnt6_Fq := (mnt6_twist_mul_by_q_Y_nat : Nat)
/-- `mnt6_G2::mul_by_q`. -/
def mnt6_G2_mul_by_q : Coord3 mnt6_Fq3 → Coord3 mnt6_Fq3 :=
  Coord3.mulByQ mnt6_G2_frob (Cubic.scale (· * ·) mnt6_q_X) (Cubic.scale (· * ·) mnt6_q_Y)

/-- `edwards_Fq3::Frobenius_map(1)` with the stored table. -/
def edwards_G2_frob : edwards_Fq3 → edwards_Fq3 :=
  Fp3.frobeniusMap (fun i => ((edwards_Fq3_frob_c1.getD i 0 : Nat) : edwards_Fq))
    (fun i => ((edwards_Fq3_frob_c2.getD i 0 : Nat) : edwards_Fq)) 1
/-- `edwards_twist_mul_by_q_Y`, edwards_init.cpp. -/
def edwards_q_Y : edwards_Fq := (edwards_twist_mul_by_q_Y_nat : Nat)
/-- `edwards_twist_mul_by_q_Z`, edwards_init.cpp. -/
def edwards_q_Z : edwards_Fq := (edwards_twist_mul_by_q_Z_nat : Nat)
/-- `edwards_G2::mul_by_q`. -/
def edwards_G2_mul_by_q : Coord3 edwards_Fq3 → Coord3 edwards_Fq3 :=
  Edw.mulByQ edwards_G2_frob (Cubic.scale (· * ·) edwards_q_Y) (Cubic.scale (· * ·) edwards_q_Z)

end Libff
