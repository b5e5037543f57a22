import Verif.Spec.PairingEq
import Verif.Model.PairingCurves12
import Verif.Model.PairingCurvesW

/-!
# The pairing methods of the classes of public parameters

alt_bn128_pp.cpp, bls12_381_pp.cpp, mnt4_pp.cpp, mnt6_pp.cpp, edwards_pp.cpp. All methods forward to the functions of the same name,
except for the two affine products of mnt4 and mnt6 at the end of this file.
-/
namespace Libff
set_option synthInstance.maxSize 2000

/-- `alt_bn128_pp`, alt_bn128_pp.cpp:17-56. -/
@[reducible] noncomputable def alt_bn128_pp : PairingFns (Coord3 alt_bn128_Fq) (Coord3 alt_bn128_Fq2) (AteG1Precomp alt_bn128_Fq)
    (AteG2Precomp alt_bn128_Fq2) alt_bn128_Fq12 where
  precomputeG1 := Ate12.precomputeG1
  precomputeG2 := alt_bn128_ate.bnPrecomputeG2
  millerLoop := alt_bn128_miller_loop
  doubleMillerLoop := alt_bn128_double_miller_loop
  finalExponentiation := alt_bn128_final_exponentiation
  unitaryInverse := Quad.unitaryInverse
  reducedPairing := alt_bn128_reduced_pairing

/-- `bls12_381_pp`, bls12_381_pp.cpp:10-49. -/
@[reducible] noncomputable def bls12_381_pp : PairingFns (Coord3 bls12_381_Fq) (Coord3 bls12_381_Fq2) (AteG1Precomp bls12_381_Fq)
    (AteG2Precomp bls12_381_Fq2) bls12_381_Fq12 where
  precomputeG1 := Ate12.precomputeG1
  precomputeG2 := bls12_381_ate.blsPrecomputeG2
  millerLoop := bls12_381_miller_loop
  doubleMillerLoop := bls12_381_double_miller_loop
  finalExponentiation := bls12_381_final_exponentiation
  unitaryInverse := Quad.unitaryInverse
  reducedPairing := bls12_381_reduced_pairing

/-- `mnt4_pp`, mnt4_pp.cpp:23-42,79-97. -/
@[reducible] noncomputable def mnt4_pp : PairingFns (Coord3 mnt4_Fq) (Coord3 mnt4_Fq2) (MntG1Precomp mnt4_Fq mnt4_Fq2) (MntG2Precomp mnt4_Fq2)
    mnt4_Fq4 where
  precomputeG1 := mnt4_ate.precomputeG1
  precomputeG2 := mnt4_ate.precomputeG2
  millerLoop := mnt4_miller_loop
  doubleMillerLoop := mnt4_double_miller_loop
  finalExponentiation := mnt4_final_exponentiation
  unitaryInverse := Quad.unitaryInverse
  reducedPairing := mnt4_reduced_pairing

/-- `mnt6_pp`, mnt6_pp.cpp:23-43,61-67,88-98. -/
@[reducible] noncomputable def mnt6_pp : PairingFns (Coord3 mnt6_Fq) (Coord3 mnt6_Fq3) (MntG1Precomp mnt6_Fq mnt6_Fq3) (MntG2Precomp mnt6_Fq3)
    mnt6_Fq6 where
  precomputeG1 := mnt6_ate.precomputeG1
  precomputeG2 := mnt6_ate.precomputeG2
  millerLoop := mnt6_miller_loop
  doubleMillerLoop := mnt6_double_miller_loop
  finalExponentiation := mnt6_final_exponentiation
  unitaryInverse := Quad.unitaryInverse
  reducedPairing := mnt6_reduced_pairing

/-- `edwards_pp`, edwards_pp.cpp:17-56. -/
@[reducible] noncomputable def edwards_pp : PairingFns (Coord3 edwards_Fq) (Coord3 edwards_Fq3) (EdwG1Precomp edwards_Fq)
    (List (ConicCoeffs edwards_Fq3)) edwards_Fq6 where
  precomputeG1 := AteEdw.precomputeG1
  precomputeG2 := edwards_ate.precomputeG2
  millerLoop := edwards_miller_loop
  doubleMillerLoop := edwards_double_miller_loop
  finalExponentiation := edwards_final_exponentiation
  unitaryInverse := Quad.unitaryInverse
  reducedPairing := edwards_reduced_pairing

section
variable {P Q T : Type} [CommRing T] {nr : T → T}

/-- `affine_ate_e_over_e_miller_loop`, mnt4_pp.cpp:60-66, mnt6_pp.cpp:69-75. The order in which C++ evaluates the two calls is
unspecified; the order affects only which of two failures is reported. -/
def affineEOverE (ml : P → Q → Outcome (Quad T nr)) (p₁ : P) (q₁ : Q) (p₂ : P) (q₂ : Q) : Outcome (Quad T nr) :=
  (ml p₁ q₁).bind fun f₁ => (ml p₂ q₂).bind fun f₂ => .ok (f₁ * f₂.unitaryInverse)

/-- `affine_ate_e_times_e_over_e_miller_loop`, mnt4_pp.cpp:68-77, mnt6_pp.cpp:77-86. -/
def affineETimesEOverE (ml : P → Q → Outcome (Quad T nr)) (p₁ : P) (q₁ : Q) (p₂ : P) (q₂ : Q) (p₃ : P) (q₃ : Q) :
    Outcome (Quad T nr) :=
  (ml p₁ q₁).bind fun f₁ => (ml p₂ q₂).bind fun f₂ => (ml p₃ q₃).bind fun f₃ => .ok ((f₁ * f₂) * f₃.unitaryInverse)

end

/-- `mnt4_pp::affine_ate_e_over_e_miller_loop`, with the precomputations of its arguments. -/
noncomputable def mnt4_affine_e_over_e (p₁ : Coord3 mnt4_Fq) (q₁ : Coord3 mnt4_Fq2) (p₂ : Coord3 mnt4_Fq) (q₂ : Coord3 mnt4_Fq2) :
    Outcome mnt4_Fq4 :=
  (mnt4_ate.affinePrecomputeG1 p₁).bind fun a₁ => (mnt4_ate.affinePrecomputeG2 q₁).bind fun b₁ =>
  (mnt4_ate.affinePrecomputeG1 p₂).bind fun a₂ => (mnt4_ate.affinePrecomputeG2 q₂).bind fun b₂ =>
  affineEOverE mnt4_ate.affineMillerLoop a₁ b₁ a₂ b₂

/-- `mnt4_pp::affine_ate_e_times_e_over_e_miller_loop`, with the precomputations of its arguments. -/
noncomputable def mnt4_affine_e_times_e_over_e (p₁ : Coord3 mnt4_Fq) (q₁ : Coord3 mnt4_Fq2) (p₂ : Coord3 mnt4_Fq) (q₂ : Coord3 mnt4_Fq2)
    (p₃ : Coord3 mnt4_Fq) (q₃ : Coord3 mnt4_Fq2) : Outcome mnt4_Fq4 :=
  (mnt4_ate.affinePrecomputeG1 p₁).bind fun a₁ => (mnt4_ate.affinePrecomputeG2 q₁).bind fun b₁ =>
  (mnt4_ate.affinePrecomputeG1 p₂).bind fun a₂ => (mnt4_ate.affinePrecomputeG2 q₂).bind fun b₂ =>
  (mnt4_ate.affinePrecomputeG1 p₃).bind fun a₃ => (mnt4_ate.affinePrecomputeG2 q₃).bind fun b₃ =>
  affineETimesEOverE mnt4_ate.affineMillerLoop a₁ b₁ a₂ b₂ a₃ b₃

/-- `mnt6_pp::affine_ate_e_over_e_miller_loop`, with the precomputations of its arguments. -/
noncomputable def mnt6_affine_e_over_e (p₁ : Coord3 mnt6_Fq) (q₁ : Coord3 mnt6_Fq3) (p₂ : Coord3 mnt6_Fq) (q₂ : Coord3 mnt6_Fq3) :
    Outcome mnt6_Fq6 :=
  (mnt6_ate.affinePrecomputeG1 p₁).bind fun a₁ => (mnt6_ate.affinePrecomputeG2 q₁).bind fun b₁ =>
  (mnt6_ate.affinePrecomputeG1 p₂).bind fun a₂ => (mnt6_ate.affinePrecomputeG2 q₂).bind fun b₂ =>
  affineEOverE mnt6_ate.affineMillerLoop a₁ b₁ a₂ b₂

/-- `mnt6_pp::affine_ate_e_times_e_over_e_miller_loop`, with the precomputations of its arguments. -/
noncomputable def mnt6_affine_e_times_e_over_e (p₁ : Coord3 mnt6_Fq) (q₁ : Coord3 mnt6_Fq3) (p₂ : Coord3 mnt6_Fq) (q₂ : Coord3 mnt6_Fq3)
    (p₃ : Coord3 mnt6_Fq) (q₃ : Coord3 mnt6_Fq3) : Outcome mnt6_Fq6 :=
  (mnt6_ate.affinePrecomputeG1 p₁).bind fun a₁ => (mnt6_ate.affinePrecomputeG2 q₁).bind fun b₁ =>
  (mnt6_ate.affinePrecomputeG1 p₂).bind fun a₂ => (mnt6_ate.affinePrecomputeG2 q₂).bind fun b₂ =>
  (mnt6_ate.affinePrecomputeG1 p₃).bind fun a₃ => (mnt6_ate.affinePrecomputeG2 q₃).bind fun b₃ =>
  affineETimesEOverE mnt6_ate.affineMillerLoop a₁ b₁ a₂ b₂ a₃ b₃

end Libff
