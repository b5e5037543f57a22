import Verif.Model.PairingMnt

/-!
# The pairings of edwards

Line numbers are those of libff/algebra/curves/edwards/edwards_pairing.cpp. `K` is `edwards_Fq`, `T` is `edwards_Fq3`, `Quad T nr`
is `edwards_Fq6`. The `full_addition_step_…` functions (lines 288-316, 510-541) are called nowhere.
-/
namespace Libff

/-- `edwards_Fq_conic_coefficients`, `edwards_Fq3_conic_coefficients`, edwards_pairing.hpp:27-35,65-73. -/
@[ext] structure ConicCoeffs (T : Type*) where
  c_ZZ : T
  c_XY : T
  c_XZ : T
  deriving DecidableEq

/-- `edwards_ate_G1_precomp`, edwards_pairing.hpp:79-87. -/
@[ext] structure EdwG1Precomp (K : Type*) where
  P_XY : K
  P_XZ : K
  P_ZZplusYZ : K
  deriving DecidableEq

/-- `edwards_tate_G2_precomp`, edwards_pairing.hpp:41-47. -/
@[ext] structure EdwTateG2Precomp (T : Type*) where
  y0 : T
  eta : T
  deriving DecidableEq

/-- The global parameters that the Miller functions of edwards use. -/
structure AteEdw (K T : Type*) (nr : T → T) where
  /-- `edwards_Fq3(x, 0, 0)` -/
  embed : K → T
  /-- `Fq * Fq3` -/
  scale : K → T → T
  /-- `edwards_G2::mul_by_a` -/
  mulA : T → T
  /-- `edwards_ate_loop_count` -/
  loopCount : List Limb
  /-- `edwards_modulus_r` -/
  modulusR : List Limb

namespace AteEdw
variable {K T : Type*} [Add K] [Sub K] [Mul K] [Neg K] [Zero K] [One K] [DecidableEq K] [Squared K] [InverseO K]
  [Add T] [Sub T] [Mul T] [Neg T] [Zero T] [One T] [DecidableEq T] [Squared T] [InverseO T] {nr : T → T} (A : AteEdw K T nr)

/-! ## Miller steps -/

/-- `doubling_step_for_miller_loop`, lines 255-286. -/
def tateDouble (current : ExtCoord K) : ExtCoord K × ConicCoeffs K :=
  let X := current.X; let Y := current.Y; let Z := current.Z; let t := current.T
  let a := squared X
  let b := squared Y
  let c := squared Z
  let d := squared (X + Y)
  let e := squared (Y + Z)
  let f := d - (a + b)
  let g := e - (b + c)
  let h := a
  let i := h + b
  let j := c - i
  let k := j + c
  let c_ZZ := Y * (t - X)
  let c_XZ := X * t - b
  (⟨f * k, i * (b - h), i * k, f * (b - h)⟩, ⟨c_ZZ + c_ZZ, j + j + g, c_XZ + c_XZ⟩)

/-- `mixed_addition_step_for_miller_loop`, lines 318-346. -/
def tateMixedAdd (base current : ExtCoord K) : ExtCoord K × ConicCoeffs K :=
  let X1 := current.X; let Y1 := current.Y; let Z1 := current.Z; let T1 := current.T
  let X2 := base.X; let Y2 := base.Y; let T2 := base.T
  let a := X1 * X2
  let b := Y1 * Y2
  let c := Z1 * T2
  let d := T1
  let e := d + c
  let f := (X1 - Y1) * (X2 + Y2) + b - a
  let g := b + a
  let h := d - c
  let i := T1 * T2
  (⟨e * f, g * h, f * g, e * h⟩, ⟨(T1 - X1) * (T2 + X2) - i + a, X1 - X2 * Z1 + f, (Y1 - T1) * (Y2 + T2) - b + i - h⟩)

/-- `doubling_step_for_flipped_miller_loop`, lines 473-508. -/
def double (current : ExtCoord T) : ExtCoord T × ConicCoeffs T :=
  let X := current.X; let Y := current.Y; let Z := current.Z; let t := current.T
  let a := squared X
  let b := squared Y
  let c := squared Z
  let d := squared (X + Y)
  let e := squared (Y + Z)
  let f := d - (a + b)
  let g := e - (b + c)
  let h := A.mulA a
  let i := h + b
  let j := c - i
  let k := j + c
  let c_ZZ := Y * (t - X)
  let c_XY := c - A.mulA a - b
  let c_XZ := A.mulA (X * t) - b
  (⟨f * k, i * (b - h), i * k, f * (b - h)⟩, ⟨c_ZZ + c_ZZ, c_XY + c_XY + g, c_XZ + c_XZ⟩)

/-- `mixed_addition_step_for_flipped_miller_loop`, lines 543-573. -/
def mixedAdd (base current : ExtCoord T) : ExtCoord T × ConicCoeffs T :=
  let X1 := current.X; let Y1 := current.Y; let Z1 := current.Z; let T1 := current.T
  let X2 := base.X; let Y2 := base.Y; let T2 := base.T
  let a := X1 * X2
  let b := Y1 * Y2
  let c := Z1 * T2
  let e := T1 + c
  let f := (X1 - Y1) * (X2 + Y2) + b - a
  let g := b + A.mulA a
  let h := T1 - c
  let i := T1 * T2
  (⟨e * f, g * h, f * g, e * h⟩,
    ⟨A.mulA ((T1 - X1) * (T2 + X2) - i + a), X1 - X2 * Z1 + f, (Y1 - T1) * (Y2 + T2) - b + i - h⟩)

/-! ## The ate pairing -/

/-- `edwards_ate_precompute_G1`, lines 575-586. -/
def precomputeG1 (P : Coord3 K) : Outcome (EdwG1Precomp K) :=
  (Edw.toAffine P).map fun Pcopy => ⟨Pcopy.X * Pcopy.Y, Pcopy.X, 1 + Pcopy.Y⟩

/-- One iteration of the loop of `edwards_ate_precompute_G2`, lines 615-623; the state is `R` and `result`. -/
def precompStep {T : Type*} (dbl : ExtCoord T → ExtCoord T × ConicCoeffs T) (add : ExtCoord T → ExtCoord T → ExtCoord T × ConicCoeffs T)
    (Q_ext : ExtCoord T) (bit : Bool) (s : ExtCoord T × List (ConicCoeffs T)) : Outcome (ExtCoord T × List (ConicCoeffs T)) :=
  let d := dbl s.1
  let cs := s.2 ++ [d.2]
  if bit then
    let a := add Q_ext d.1
    .ok (a.1, cs ++ [a.2])
  else .ok (d.1, cs)

/-- `edwards_ate_precompute_G2`, lines 588-628. -/
def precomputeG2 (Q : Coord3 T) : Outcome (List (ConicCoeffs T)) :=
  (Edw.toAffine Q).bind fun Qcopy =>
  let Q_ext : ExtCoord T := ⟨Qcopy.X, Qcopy.Y, Qcopy.Z, Qcopy.X * Qcopy.Y⟩
  (ateLoop (testBit A.loopCount) (precompStep A.double A.mixedAdd Q_ext) (bigintMaxBits A.loopCount) false (Q_ext, [])).map
    fun s => s.2

/-- `g_RR_at_P`, lines 653-654. -/
def gRR (prec_P : EdwG1Precomp K) (cc : ConicCoeffs T) : Quad T nr :=
  ⟨A.scale prec_P.P_XY cc.c_XY + A.scale prec_P.P_XZ cc.c_XZ, A.scale prec_P.P_ZZplusYZ cc.c_ZZ⟩

/-- `g_RQ_at_P`, lines 659-660. -/
def gRQ (prec_P : EdwG1Precomp K) (cc : ConicCoeffs T) : Quad T nr :=
  ⟨A.scale prec_P.P_ZZplusYZ cc.c_ZZ, A.scale prec_P.P_XY cc.c_XY + A.scale prec_P.P_XZ cc.c_XZ⟩

/-- One iteration of `edwards_ate_miller_loop`, lines 651-662; the state is `f`, `idx`. -/
def millerStep (prec_P : EdwG1Precomp K) (prec_Q : List (ConicCoeffs T)) (bit : Bool) (s : Quad T nr × Nat) :
    Outcome (Quad T nr × Nat) :=
  (vecAt prec_Q s.2).bind fun cc =>
  let f := squared s.1 * A.gRR prec_P cc
  if bit then (vecAt prec_Q (s.2 + 1)).map fun cc => (f * A.gRQ prec_P cc, s.2 + 2)
  else .ok (f, s.2 + 1)

/-- `edwards_ate_miller_loop`, lines 630-669. -/
def millerLoop (prec_P : EdwG1Precomp K) (prec_Q : List (ConicCoeffs T)) : Outcome (Quad T nr) :=
  (ateLoop (testBit A.loopCount) (A.millerStep prec_P prec_Q) (bigintMaxBits A.loopCount) false (1, 0)).map fun s => s.1

/-- One iteration of `edwards_ate_double_miller_loop`, lines 695-717. -/
def doubleMillerStep (prec_P1 : EdwG1Precomp K) (prec_Q1 : List (ConicCoeffs T)) (prec_P2 : EdwG1Precomp K)
    (prec_Q2 : List (ConicCoeffs T)) (bit : Bool) (s : Quad T nr × Nat) : Outcome (Quad T nr × Nat) :=
  (vecAt prec_Q1 s.2).bind fun cc1 =>
  (vecAt prec_Q2 s.2).bind fun cc2 =>
  let f := squared s.1 * A.gRR prec_P1 cc1 * A.gRR prec_P2 cc2
  if bit then
    (vecAt prec_Q1 (s.2 + 1)).bind fun cc1 =>
    (vecAt prec_Q2 (s.2 + 1)).map fun cc2 =>
    (f * A.gRQ prec_P1 cc1 * A.gRQ prec_P2 cc2, s.2 + 2)
  else .ok (f, s.2 + 1)

/-- `edwards_ate_double_miller_loop`, lines 671-722. -/
def doubleMillerLoop (prec_P1 : EdwG1Precomp K) (prec_Q1 : List (ConicCoeffs T)) (prec_P2 : EdwG1Precomp K)
    (prec_Q2 : List (ConicCoeffs T)) : Outcome (Quad T nr) :=
  (ateLoop (testBit A.loopCount) (A.doubleMillerStep prec_P1 prec_Q1 prec_P2 prec_Q2) (bigintMaxBits A.loopCount) false
    (1, 0)).map fun s => s.1

/-- `edwards_ate_pairing`, lines 724-732. -/
def pairing (P : Coord3 K) (Q : Coord3 T) : Outcome (Quad T nr) :=
  (precomputeG1 P).bind fun prec_P => (A.precomputeG2 Q).bind fun prec_Q => A.millerLoop prec_P prec_Q

/-- `edwards_ate_reduced_pairing` = `edwards_reduced_pairing`, lines 734-741,773-777. -/
def reducedPairing (fe : Quad T nr → Outcome (Quad T nr)) (P : Coord3 K) (Q : Coord3 T) : Outcome (Quad T nr) :=
  (A.pairing P Q).bind fe

/-! ## The Tate pairing -/

/-- `edwards_tate_precompute_G2`, lines 221-232. -/
def tatePrecomputeG2 (nr : T → T) (Q : Coord3 T) : Outcome (EdwTateG2Precomp T) :=
  (Edw.toAffine Q).bind fun Qcopy =>
  (inverseO Qcopy.Z).bind fun Z_inv =>
  (inverseO (nr Qcopy.X)).map fun nX_inv => ⟨Qcopy.Y * Z_inv, (Qcopy.Z + Qcopy.Y) * nX_inv⟩

/-- `edwards_tate_precompute_G1`, lines 348-391; this loop starts one index higher than the others. -/
def tatePrecomputeG1 (P : Coord3 K) : Outcome (List (ConicCoeffs K)) :=
  (Edw.toAffine P).bind fun Pcopy =>
  let P_ext : ExtCoord K := ⟨Pcopy.X, Pcopy.Y, Pcopy.Z, Pcopy.X * Pcopy.Y⟩
  (ateLoop (testBit A.modulusR) (precompStep tateDouble tateMixedAdd P_ext) (bigintMaxBits A.modulusR + 1) false
    (P_ext, [])).map fun s => s.2

/-- `g_RR_at_Q`, `g_RP_at_Q`, lines 415-416,422-423. -/
def tateG (prec_Q : EdwTateG2Precomp T) (cc : ConicCoeffs K) : Quad T nr :=
  ⟨A.embed cc.c_XZ + A.scale cc.c_XY prec_Q.y0, A.scale cc.c_ZZ prec_Q.eta⟩

/-- One iteration of `edwards_tate_miller_loop`, lines 414-425. -/
def tateMillerStep (prec_P : List (ConicCoeffs K)) (prec_Q : EdwTateG2Precomp T) (bit : Bool) (s : Quad T nr × Nat) :
    Outcome (Quad T nr × Nat) :=
  (vecAt prec_P s.2).bind fun cc =>
  let f := squared s.1 * A.tateG prec_Q cc
  if bit then (vecAt prec_P (s.2 + 1)).map fun cc => (f * A.tateG prec_Q cc, s.2 + 2)
  else .ok (f, s.2 + 1)

/-- `edwards_tate_miller_loop`, lines 393-431. -/
def tateMillerLoop (prec_P : List (ConicCoeffs K)) (prec_Q : EdwTateG2Precomp T) : Outcome (Quad T nr) :=
  (ateLoop (testBit A.modulusR) (A.tateMillerStep prec_P prec_Q) (bigintMaxBits A.modulusR) false (1, 0)).map fun s => s.1

/-- `edwards_tate_reduced_pairing`, lines 433-450. -/
def tateReducedPairing (fe : Quad T nr → Outcome (Quad T nr)) (P : Coord3 K) (Q : Coord3 T) : Outcome (Quad T nr) :=
  ((A.tatePrecomputeG1 P).bind fun prec_P => (tatePrecomputeG2 nr Q).bind fun prec_Q => A.tateMillerLoop prec_P prec_Q).bind fe

end AteEdw
end Libff
