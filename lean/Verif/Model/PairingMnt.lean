import Verif.Model.Pairing

/-!
# The pairings of mnt4 and mnt6

The two files mnt4_pairing.cpp and mnt6_pairing.cpp (paths are relative to libff/algebra/curves/mnt) are the same text up to the
names of the fields, except for the first chunk of the final exponentiation and the name of the sparse multiplication; line
numbers without a file name are those of mnt4/mnt4_pairing.cpp. `K` is the prime field, `T` the field of the twist (`Fq2`,
resp. `Fq3`), `Quad T nr` the field of the pairing's values (`Fq4`, resp. `Fq6`).
-/
namespace Libff

/-! ## Final exponentiation (mnt4, mnt6, edwards) -/

/-- The data of the final exponentiations of mnt4, mnt6 and edwards. -/
structure FinalExpW (L : Type*) where
  /-- `Frobenius_map` -/
  frob : Nat → L → L
  /-- `cyclotomic_exp` -/
  cexp : L → List Limb → Outcome L
  /-- `final_exponent_last_chunk_abs_of_w0` -/
  w0 : List Limb
  /-- `final_exponent_last_chunk_is_w0_neg` -/
  w0Neg : Bool
  /-- `final_exponent_last_chunk_w1` -/
  w1 : List Limb

namespace FinalExpW
variable {L : Type*} [Mul L] [InverseO L] (F : FinalExpW L)

/-- `final_exponentiation_last_chunk`, mnt4_pairing.cpp:182-198, mnt6_pairing.cpp:184-200, edwards_pairing.cpp:173-189. -/
def lastChunk (elt elt_inv : L) : Outcome L :=
  let elt_q := F.frob 1 elt
  (F.cexp elt_q F.w1).bind fun w1_part =>
  (if F.w0Neg then F.cexp elt_inv F.w0 else F.cexp elt F.w0).map fun w0_part =>
  w1_part * w0_part

/-- `mnt4_final_exponentiation_first_chunk`, mnt4_pairing.cpp:200-213. -/
def firstChunk4 (elt elt_inv : L) : L :=
  let elt_q2 := F.frob 2 elt
  elt_q2 * elt_inv

/-- `final_exponentiation_first_chunk`, mnt6_pairing.cpp:202-218, edwards_pairing.cpp:191-207. -/
def firstChunk6 (elt elt_inv : L) : L :=
  let elt_q3 := F.frob 3 elt
  let elt_q3_over_elt := elt_q3 * elt_inv
  let alpha := F.frob 1 elt_q3_over_elt
  alpha * elt_q3_over_elt

/-- `final_exponentiation`, mnt4_pairing.cpp:215-225, mnt6_pairing.cpp:220-230, edwards_pairing.cpp:209-219; `firstChunk` is the
curve's own. -/
def finalExponentiation (firstChunk : L → L → L) (elt : L) : Outcome L :=
  (inverseO elt).bind fun elt_inv =>
  let elt_to_first_chunk := firstChunk elt elt_inv
  let elt_inv_to_first_chunk := firstChunk elt_inv elt
  F.lastChunk elt_to_first_chunk elt_inv_to_first_chunk

end FinalExpW

/-! ## The ate pairing -/

/-- The global parameters of mnt4, resp. mnt6, that the Miller functions use. -/
structure AteMnt (K T : Type*) (nr : T → T) where
  /-- `Fq2(x, 0)`, resp. `Fq3(x, 0, 0)` -/
  embed : K → T
  /-- `Fq * Fq2`, resp. `Fq * Fq3` -/
  scale : K → T → T
  /-- `Fq("8")`, line 426 -/
  eight : K
  /-- `twist` -/
  twist : T
  /-- `twist_coeff_a` -/
  twistA : T
  /-- `ate_loop_count` -/
  loopCount : List Limb
  /-- `ate_is_loop_count_neg` -/
  loopNeg : Bool
  /-- `mul_by_023`, resp. `mul_by_2345`, lines 353,369 -/
  mulSparse : Quad T nr → Quad T nr → Outcome (Quad T nr)

/-- `ate_G1_precomp`, mnt4_pairing.hpp:58-67, mnt6_pairing.hpp:60-69. -/
@[ext] structure MntG1Precomp (K T : Type*) where
  PX : K
  PY : K
  PX_twist : T
  PY_twist : T
  deriving DecidableEq

/-- `ate_dbl_coeffs`, mnt4_pairing.hpp:69-78, mnt6_pairing.hpp:71-80. -/
@[ext] structure MntDblCoeffs (T : Type*) where
  c_H : T
  c_4C : T
  c_J : T
  c_L : T
  deriving DecidableEq

/-- `ate_add_coeffs`, mnt4_pairing.hpp:80-87, mnt6_pairing.hpp:82-89. -/
@[ext] structure MntAddCoeffs (T : Type*) where
  c_L1 : T
  c_RZ : T
  deriving DecidableEq

/-- `ate_G2_precomp`, mnt4_pairing.hpp:89-101, mnt6_pairing.hpp:91-103. -/
@[ext] structure MntG2Precomp (T : Type*) where
  QX : T
  QY : T
  QY2 : T
  QX_over_twist : T
  QY_over_twist : T
  dbl_coeffs : List (MntDblCoeffs T)
  add_coeffs : List (MntAddCoeffs T)
  deriving DecidableEq

/-- `extended_mnt4_G2_projective`, lines 391-410. -/
@[ext] structure ExtCoord (T : Type*) where
  X : T
  Y : T
  Z : T
  T : T
  deriving DecidableEq

/-- `affine_ate_G1_precomputation`, mnt4_pairing.hpp:31-35, mnt6_pairing.hpp:31-35. -/
@[ext] structure MntAffineG1 (K T : Type*) where
  PX : K
  PY : K
  PY_twist_squared : T
  deriving DecidableEq

/-- `affine_ate_coeffs`, mnt4_pairing.hpp:37-44, mnt6_pairing.hpp:37-44. -/
@[ext] structure MntAffineCoeffs (T : Type*) where
  old_RX : T
  old_RY : T
  gamma : T
  gamma_twist : T
  gamma_X : T
  deriving DecidableEq

/-- `affine_ate_G2_precomputation`, mnt4_pairing.hpp:46-50, mnt6_pairing.hpp:46-50. -/
@[ext] structure MntAffineG2 (T : Type*) where
  QX : T
  QY : T
  coeffs : List (MntAffineCoeffs T)
  deriving DecidableEq

namespace AteMnt
variable {K T : Type*} [Add K] [Sub K] [Mul K] [Neg K] [Zero K] [One K] [DecidableEq K] [Squared K] [InverseO K]
  [Add T] [Sub T] [Mul T] [Neg T] [Zero T] [One T] [DecidableEq T] [Squared T] [InverseO T] {nr : T → T} (A : AteMnt K T nr)

/-! ### Miller steps -/

/-- `doubling_step_for_flipped_miller_loop`, lines 412-438 (mnt6_pairing.cpp:418-444). -/
def double (current : ExtCoord T) : ExtCoord T × MntDblCoeffs T :=
  let X := current.X; let Y := current.Y; let Z := current.Z; let t := current.T
  let a := squared t
  let b := squared X
  let c := squared Y
  let d := squared c
  let e := squared (X + c) - b - d
  let f := (b + b + b) + A.twistA * a
  let g := squared f
  let X3 := -(e + e + e + e) + g
  let Y3 := A.scale (-A.eight) d + f * (e + e - X3)
  let Z3 := squared (Y + Z) - c - squared Z
  let T3 := squared Z3
  (⟨X3, Y3, Z3, T3⟩, ⟨squared (Z3 + t) - T3 - a, c + c + c + c, squared (f + t) - g - a, squared (f + X) - g - b⟩)

/-- `mixed_addition_step_for_flipped_miller_loop`, lines 440-466 (mnt6_pairing.cpp:446-472). -/
def mixedAdd (x2 y2 y2_squared : T) (current : ExtCoord T) : ExtCoord T × MntAddCoeffs T :=
  let X1 := current.X; let Y1 := current.Y; let Z1 := current.Z; let T1 := current.T
  let b := x2 * T1
  let d := (squared (y2 + Z1) - y2_squared - T1) * T1
  let h := b - X1
  let i := squared h
  let e := i + i + i + i
  let j := h * e
  let v := X1 * e
  let l1 := d - (Y1 + Y1)
  let X3 := squared l1 - j - (v + v)
  let Y3 := l1 * (v - X3) - (Y1 + Y1) * j
  let Z3 := squared (Z1 + h) - T1 - i
  let T3 := squared Z3
  (⟨X3, Y3, Z3, T3⟩, ⟨l1, Z3⟩)

/-! ### Precomputation -/

/-- `ate_precompute_G1`, lines 468-483 (mnt6_pairing.cpp:474-489). -/
def precomputeG1 (P : Coord3 K) : Outcome (MntG1Precomp K T) :=
  (Proj.toAffine P).map fun Pcopy => ⟨Pcopy.X, Pcopy.Y, A.scale Pcopy.X A.twist, A.scale Pcopy.Y A.twist⟩

/-- The state of the loop of `ate_precompute_G2`: `R`, `result.dbl_coeffs`, `result.add_coeffs`. -/
structure PrecompState (T : Type*) where
  R : ExtCoord T
  dbl : List (MntDblCoeffs T)
  add : List (MntAddCoeffs T)

/-- One iteration of the loop of `ate_precompute_G2`, lines 518-526. -/
def precompStep (QX QY QY2 : T) (bit : Bool) (s : PrecompState T) : Outcome (PrecompState T) :=
  let d := A.double s.R
  let dbl := s.dbl ++ [d.2]
  if bit then
    let a := mixedAdd QX QY QY2 d.1
    .ok ⟨a.1, dbl, s.add ++ [a.2]⟩
  else .ok ⟨d.1, dbl, s.add⟩

/-- `ate_precompute_G2`, lines 485-544 (mnt6_pairing.cpp:491-553). -/
def precomputeG2 (Q : Coord3 T) : Outcome (MntG2Precomp T) :=
  (Proj.toAffine Q).bind fun Qcopy =>
  (inverseO A.twist).bind fun twist_inv =>
  let QY2 := squared Qcopy.Y
  (ateLoop (testBit A.loopCount) (A.precompStep Qcopy.X Qcopy.Y QY2) (bigintMaxBits A.loopCount) false
    ⟨⟨Qcopy.X, Qcopy.Y, 1, 1⟩, [], []⟩).bind fun s =>
  (if A.loopNeg then
    (inverseO s.R.Z).map fun RZ_inv =>
      let RZ2_inv := squared RZ_inv
      let RZ3_inv := RZ2_inv * RZ_inv
      let minus_R_affine_X := s.R.X * RZ2_inv
      let minus_R_affine_Y := -s.R.Y * RZ3_inv
      let minus_R_affine_Y2 := squared minus_R_affine_Y
      s.add ++ [(mixedAdd minus_R_affine_X minus_R_affine_Y minus_R_affine_Y2 s.R).2]
  else .ok s.add).map fun add =>
  ⟨Qcopy.X, Qcopy.Y, QY2, Qcopy.X * twist_inv, Qcopy.Y * twist_inv, s.dbl, add⟩

/-! ### Miller loops -/

/-- `L1_coeff`, line 551 (mnt6_pairing.cpp:560). -/
def l1Coeff (prec_P : MntG1Precomp K T) (prec_Q : MntG2Precomp T) : T := A.embed prec_P.PX - prec_Q.QX_over_twist

/-- `g_RR_at_P`, lines 576-577. -/
def gRR (prec_P : MntG1Precomp K T) (dc : MntDblCoeffs T) : Quad T nr :=
  ⟨-dc.c_4C - dc.c_J * prec_P.PX_twist + dc.c_L, dc.c_H * prec_P.PY_twist⟩

/-- `g_RQ_at_P`, `g_RnegR_at_P`, lines 583-584,592-593. -/
def gRQ (L1_coeff : T) (prec_P : MntG1Precomp K T) (prec_Q : MntG2Precomp T) (ac : MntAddCoeffs T) : Quad T nr :=
  ⟨ac.c_RZ * prec_P.PY_twist, -(prec_Q.QY_over_twist * ac.c_RZ + L1_coeff * ac.c_L1)⟩

/-- One iteration of `ate_miller_loop`, lines 574-586; the state is `f`, `dbl_idx`, `add_idx`. -/
def millerStep (prec_P : MntG1Precomp K T) (prec_Q : MntG2Precomp T) (bit : Bool) (s : Quad T nr × Nat × Nat) :
    Outcome (Quad T nr × Nat × Nat) :=
  (vecAt prec_Q.dbl_coeffs s.2.1).bind fun dc =>
  let f := squared s.1 * gRR prec_P dc
  if bit then
    (vecAt prec_Q.add_coeffs s.2.2).map fun ac => (f * gRQ (A.l1Coeff prec_P prec_Q) prec_P prec_Q ac, s.2.1 + 1, s.2.2 + 1)
  else .ok (f, s.2.1 + 1, s.2.2)

/-- `ate_miller_loop`, lines 546-600 (mnt6_pairing.cpp:555-611). -/
def millerLoop (prec_P : MntG1Precomp K T) (prec_Q : MntG2Precomp T) : Outcome (Quad T nr) :=
  (ateLoop (testBit A.loopCount) (A.millerStep prec_P prec_Q) (bigintMaxBits A.loopCount) false (1, 0, 0)).bind fun s =>
  if A.loopNeg then
    (vecAt prec_Q.add_coeffs s.2.2).bind fun ac => inverseO (s.1 * gRQ (A.l1Coeff prec_P prec_Q) prec_P prec_Q ac)
  else .ok s.1

/-- One iteration of `ate_double_miller_loop`, lines 633-658. -/
def doubleMillerStep (prec_P1 : MntG1Precomp K T) (prec_Q1 : MntG2Precomp T) (prec_P2 : MntG1Precomp K T) (prec_Q2 : MntG2Precomp T)
    (bit : Bool) (s : Quad T nr × Nat × Nat) : Outcome (Quad T nr × Nat × Nat) :=
  (vecAt prec_Q1.dbl_coeffs s.2.1).bind fun dc1 =>
  (vecAt prec_Q2.dbl_coeffs s.2.1).bind fun dc2 =>
  let f := squared s.1 * gRR prec_P1 dc1 * gRR prec_P2 dc2
  if bit then
    (vecAt prec_Q1.add_coeffs s.2.2).bind fun ac1 =>
    (vecAt prec_Q2.add_coeffs s.2.2).map fun ac2 =>
    (f * gRQ (A.l1Coeff prec_P1 prec_Q1) prec_P1 prec_Q1 ac1 * gRQ (A.l1Coeff prec_P2 prec_Q2) prec_P2 prec_Q2 ac2,
      s.2.1 + 1, s.2.2 + 1)
  else .ok (f, s.2.1 + 1, s.2.2)

/-- `ate_double_miller_loop`, lines 602-676 (mnt6_pairing.cpp:613-688). -/
def doubleMillerLoop (prec_P1 : MntG1Precomp K T) (prec_Q1 : MntG2Precomp T) (prec_P2 : MntG1Precomp K T)
    (prec_Q2 : MntG2Precomp T) : Outcome (Quad T nr) :=
  (ateLoop (testBit A.loopCount) (A.doubleMillerStep prec_P1 prec_Q1 prec_P2 prec_Q2) (bigintMaxBits A.loopCount) false
    (1, 0, 0)).bind fun s =>
  if A.loopNeg then
    (vecAt prec_Q1.add_coeffs s.2.2).bind fun ac1 =>
    (vecAt prec_Q2.add_coeffs s.2.2).bind fun ac2 =>
    inverseO (s.1 * gRQ (A.l1Coeff prec_P1 prec_Q1) prec_P1 prec_Q1 ac1 * gRQ (A.l1Coeff prec_P2 prec_Q2) prec_P2 prec_Q2 ac2)
  else .ok s.1

/-- `ate_pairing`, lines 678-686 (mnt6_pairing.cpp:690-698). -/
def pairing (P : Coord3 K) (Q : Coord3 T) : Outcome (Quad T nr) :=
  (A.precomputeG1 P).bind fun prec_P => (A.precomputeG2 Q).bind fun prec_Q => A.millerLoop prec_P prec_Q

/-- `ate_reduced_pairing` = `reduced_pairing`, lines 688-695,727-731 (mnt6_pairing.cpp:700-707,739-743); `fe` is the curve's
final exponentiation. -/
def reducedPairing (fe : Quad T nr → Outcome (Quad T nr)) (P : Coord3 K) (Q : Coord3 T) : Outcome (Quad T nr) :=
  (A.pairing P Q).bind fe

/-! ### The affine ate pairing -/

/-- `affine_ate_precompute_G1`, lines 229-243 (mnt6_pairing.cpp:234-248). -/
def affinePrecomputeG1 (P : Coord3 K) : Outcome (MntAffineG1 K T) :=
  (Proj.toAffine P).map fun Pcopy => ⟨Pcopy.X, Pcopy.Y, A.scale Pcopy.Y (squared A.twist)⟩

/-- One iteration of the loop of `affine_ate_precompute_G2`, lines 272-303; `d` is `NAF[i]`, the state is `RX`, `RY`,
`result.coeffs`. -/
def affinePrecompStep (QX QY : T) (d : Int) (s : T × T × List (MntAffineCoeffs T)) : Outcome (T × T × List (MntAffineCoeffs T)) :=
  let old_RX := s.1; let old_RY := s.2.1
  let old_RX_2 := squared old_RX
  (inverseO (old_RY + old_RY)).bind fun inv =>
  let gamma := (old_RX_2 + old_RX_2 + old_RX_2 + A.twistA) * inv
  let cs := s.2.2 ++ [⟨old_RX, old_RY, gamma, gamma * A.twist, gamma * old_RX⟩]
  let RX := squared gamma - (old_RX + old_RX)
  let RY := gamma * (old_RX - RX) - old_RY
  if d ≠ 0 then
    (inverseO (RX - QX)).map fun inv =>
      let gamma := if d > 0 then (RY - QY) * inv else (RY + QY) * inv
      let cs := cs ++ [⟨RX, RY, gamma, gamma * A.twist, gamma * QX⟩]
      let RX' := squared gamma - (RX + QX)
      let RY' := gamma * (RX - RX') - RY
      (RX', RY', cs)
  else .ok (RX, RY, cs)

/-- The loops of the affine functions over the digits from the most significant one, lines 264-268 and 339-344: everything up to
and including the first non-zero digit is skipped. -/
def nafLoop {σ : Type*} (step : Int → σ → Outcome σ) : List Int → Bool → σ → Outcome σ
  | [], _, s => .ok s
  | d :: ds, found, s =>
    if found = false then nafLoop step ds (d ≠ 0) s
    else (step d s).bind (nafLoop step ds found)

/-- `affine_ate_precompute_G2`, lines 245-323 (mnt6_pairing.cpp:250-328); the sign of the loop count is not looked at. -/
def affinePrecomputeG2 (Q : Coord3 T) : Outcome (MntAffineG2 T) :=
  (Proj.toAffine Q).bind fun Qcopy =>
  (findWnaf 1 A.loopCount).bind fun naf =>
  (nafLoop (A.affinePrecompStep Qcopy.X Qcopy.Y) naf.reverse false (Qcopy.X, Qcopy.Y, [])).map fun s =>
  ⟨Qcopy.X, Qcopy.Y, s.2.2⟩

/-- One iteration of `affine_ate_miller_loop`, lines 349-370; the state is `f`, `idx`. -/
def affineMillerStep (prec_P : MntAffineG1 K T) (prec_Q : MntAffineG2 T) (d : Int) (s : Quad T nr × Nat) : Outcome (Quad T nr × Nat) :=
  (vecAt prec_Q.coeffs s.2).bind fun c =>
  (A.mulSparse (squared s.1) ⟨prec_P.PY_twist_squared, A.scale (-prec_P.PX) c.gamma_twist + c.gamma_X - c.old_RY⟩).bind fun f =>
  if d ≠ 0 then
    (vecAt prec_Q.coeffs (s.2 + 1)).bind fun c =>
    let g : Quad T nr :=
      if d > 0 then ⟨prec_P.PY_twist_squared, A.scale (-prec_P.PX) c.gamma_twist + c.gamma_X - prec_Q.QY⟩
      else ⟨prec_P.PY_twist_squared, A.scale (-prec_P.PX) c.gamma_twist + c.gamma_X + prec_Q.QY⟩
    (A.mulSparse f g).map fun f => (f, s.2 + 2)
  else .ok (f, s.2 + 1)

/-- `affine_ate_miller_loop`, lines 325-387 (mnt6_pairing.cpp:330-393). -/
def affineMillerLoop (prec_P : MntAffineG1 K T) (prec_Q : MntAffineG2 T) : Outcome (Quad T nr) :=
  (findWnaf 1 A.loopCount).bind fun naf =>
  (nafLoop (A.affineMillerStep prec_P prec_Q) naf.reverse false (1, 0)).map fun s => s.1

/-- `affine_reduced_pairing`, lines 733-741 (mnt6_pairing.cpp:745-753). -/
def affineReducedPairing (fe : Quad T nr → Outcome (Quad T nr)) (P : Coord3 K) (Q : Coord3 T) : Outcome (Quad T nr) :=
  (A.affinePrecomputeG1 P).bind fun prec_P => (A.affinePrecomputeG2 Q).bind fun prec_Q =>
  (A.affineMillerLoop prec_P prec_Q).bind fe

end AteMnt
end Libff
