import Verif.Model.Pairing
import Verif.Model.MulByQ

/-!
# The pairings of alt_bn128 and bls12_381

The two files alt_bn128_pairing.cpp and bls12_381_pairing.cpp (paths are relative to libff/algebra/curves) have the same
structure; the functions whose text differs by more than the curve's name are modelled twice (`bn…`, `bls…`). The data that
`*_init.cpp` computes are the fields of `Ate12`.
-/
namespace Libff

/-- The global parameters of a curve with embedding degree 12 that the pairing functions use. -/
structure Ate12 (K : Type*) [Add K] [Sub K] [Mul K] (β : K) (ξ : Fp2 K β) where
  /-- `Fq("2").inverse()`, alt_bn128_pairing.cpp:311, bls12_381_pairing.cpp:274 (`inverse()` is the inverse of the field, C15). -/
  twoInv : K
  /-- `twist` -/
  twist : Fp2 K β
  /-- `twist_coeff_b` -/
  twistB : Fp2 K β
  /-- `Frobenius_map` of the `Fq12` -/
  frob : Nat → Fp12 K β ξ ξ → Fp12 K β ξ ξ
  /-- `G2::mul_by_q` -/
  mulByQ : Coord3 (Fp2 K β) → Coord3 (Fp2 K β)
  /-- `ate_loop_count` -/
  loopCount : List Limb
  /-- `ate_is_loop_count_neg` -/
  loopNeg : Bool
  /-- `final_exponent_z` -/
  z : List Limb
  /-- `final_exponent_is_z_neg` -/
  zNeg : Bool

/-- `ate_ell_coeffs`, alt_bn128_pairing.hpp:31-39, bls12_381_pairing.hpp:31-39. -/
@[ext] structure EllCoeffs (K : Type*) where
  ell_0 : K
  ell_VW : K
  ell_VV : K
  deriving DecidableEq

/-- `ate_G1_precomp`, alt_bn128_pairing.hpp:22-29, bls12_381_pairing.hpp:22-29. -/
@[ext] structure AteG1Precomp (K : Type*) where
  PX : K
  PY : K
  deriving DecidableEq

/-- `ate_G2_precomp`, alt_bn128_pairing.hpp:41-49, bls12_381_pairing.hpp:41-49. -/
@[ext] structure AteG2Precomp (K : Type*) where
  QX : K
  QY : K
  coeffs : List (EllCoeffs K)
  deriving DecidableEq

namespace Ate12
variable {K : Type*} [Add K] [Sub K] [Mul K] [Neg K] [Zero K] [One K] [DecidableEq K] [Squared K] [InverseO K]
  {β : K} {ξ : Fp2 K β} (A : Ate12 K β ξ)

/-! ## Final exponentiation -/

/-- `final_exponentiation_first_chunk`, alt_bn128_pairing.cpp:112-137, bls12_381_pairing.cpp:113-138. -/
def firstChunk (elt : Fp12 K β ξ ξ) : Outcome (Fp12 K β ξ ξ) :=
  let a : Fp12 K β ξ ξ := ⟨elt.c0, -elt.c1⟩
  (inverseO elt).map fun b =>
    let c := a * b
    let d := A.frob 2 c
    d * c

/-- `alt_bn128_exp_by_neg_z`, alt_bn128_pairing.cpp:139-152. -/
def expByNegZ (elt : Fp12 K β ξ ξ) : Fp12 K β ξ ξ :=
  let result := cyclotomicExpBits Fp12.cyclotomicSquared elt A.z
  if A.zNeg = false then result.unitaryInverse else result

/-- `alt_bn128_final_exponentiation_last_chunk`, alt_bn128_pairing.cpp:154-226. -/
def bnLastChunk (elt : Fp12 K β ξ ξ) : Fp12 K β ξ ξ :=
  let a := A.expByNegZ elt
  let b := Fp12.cyclotomicSquared a
  let c := Fp12.cyclotomicSquared b
  let d := c * b
  let e := A.expByNegZ d
  let f := Fp12.cyclotomicSquared e
  let g := A.expByNegZ f
  let h := d.unitaryInverse
  let i := g.unitaryInverse
  let j := i * e
  let k := j * h
  let l := k * b
  let m := k * e
  let n := m * elt
  let o := A.frob 1 l
  let p := o * n
  let q := A.frob 2 k
  let r := q * p
  let s := elt.unitaryInverse
  let t := s * l
  let u := A.frob 3 t
  let v := u * r
  v

/-- `alt_bn128_final_exponentiation`, alt_bn128_pairing.cpp:228-236. -/
def bnFinalExponentiation (elt : Fp12 K β ξ ξ) : Outcome (Fp12 K β ξ ξ) := (A.firstChunk elt).map A.bnLastChunk

/-- `bls12_381_exp_by_z`, bls12_381_pairing.cpp:140-153. -/
def expByZ (elt : Fp12 K β ξ ξ) : Fp12 K β ξ ξ :=
  let result := cyclotomicExpBits Fp12.cyclotomicSquared elt A.z
  if A.zNeg then result.unitaryInverse else result

/-- `bls12_381_final_exponentiation_last_chunk`, bls12_381_pairing.cpp:155-186. -/
def blsLastChunk (elt : Fp12 K β ξ ξ) : Fp12 K β ξ ξ :=
  let a := (Fp12.cyclotomicSquared elt).unitaryInverse
  let b := A.expByZ elt
  let c := Fp12.cyclotomicSquared b
  let d := a * b
  let e := A.expByZ d
  let f := A.expByZ e
  let g := A.expByZ f
  let h := g * c
  let i := A.expByZ h
  let j := d.unitaryInverse
  let k := j * i
  let l := elt * k
  let m := elt.unitaryInverse
  let n := e * elt
  let o := A.frob 3 n
  let p := h * m
  let q := A.frob 1 p
  let r := b * f
  let s := A.frob 2 r
  let t := s * o
  let u := t * q
  u * l

/-- `bls12_381_final_exponentiation`, bls12_381_pairing.cpp:188-199. -/
def blsFinalExponentiation (elt : Fp12 K β ξ ξ) : Outcome (Fp12 K β ξ ξ) := (A.firstChunk elt).map A.blsLastChunk

/-! ## Miller steps -/

/-- What `doubling_step_for_flipped_miller_loop` (alt_bn128_pairing.cpp:240-264) and `doubling_step_for_miller_loop`
(bls12_381_pairing.cpp:203-227) have in common: the new point, and the values `I`, `H`, `3 J` from which the coefficients are
formed. -/
def doublingCore (current : Coord3 (Fp2 K β)) : Coord3 (Fp2 K β) × Fp2 K β × Fp2 K β × Fp2 K β :=
  let X := current.X; let Y := current.Y; let Z := current.Z
  let a := Quad.scale (· * ·) A.twoInv (X * Y)
  let b := squared Y
  let c := squared Z
  let d := c + c + c
  let e := A.twistB * d
  let f := e + e + e
  let g := Quad.scale (· * ·) A.twoInv (b + f)
  let h := squared (Y + Z) - (b + c)
  let i := e - b
  let j := squared X
  let e_squared := squared e
  (⟨a * (b - f), squared g - (e_squared + e_squared + e_squared), b * h⟩, i, h, j + j + j)

/-- `doubling_step_for_flipped_miller_loop`, alt_bn128_pairing.cpp:240-264. -/
def bnDouble (current : Coord3 (Fp2 K β)) : Coord3 (Fp2 K β) × EllCoeffs (Fp2 K β) :=
  let (p, i, h, j3) := A.doublingCore current
  (p, ⟨A.twist * i, -h, j3⟩)

/-- `doubling_step_for_miller_loop`, bls12_381_pairing.cpp:203-227. -/
def blsDouble (current : Coord3 (Fp2 K β)) : Coord3 (Fp2 K β) × EllCoeffs (Fp2 K β) :=
  let (p, i, h, j3) := A.doublingCore current
  (p, ⟨i, -A.twist * h, j3⟩)

/-- What `mixed_addition_step_for_flipped_miller_loop` (alt_bn128_pairing.cpp:266-287) and
`mixed_addition_step_for_miller_loop` (bls12_381_pairing.cpp:229-250) have in common: the new point, and `E * x2 - D * y2`,
`E`, `D`. -/
def additionCore (base current : Coord3 (Fp2 K β)) : Coord3 (Fp2 K β) × Fp2 K β × Fp2 K β × Fp2 K β :=
  let X1 := current.X; let Y1 := current.Y; let Z1 := current.Z
  let x2 := base.X; let y2 := base.Y
  let d := X1 - x2 * Z1
  let e := Y1 - y2 * Z1
  let f := squared d
  let g := squared e
  let h := d * f
  let i := X1 * f
  let j := h + Z1 * g - (i + i)
  (⟨d * j, e * (i - j) - h * Y1, Z1 * h⟩, e * x2 - d * y2, e, d)

/-- `mixed_addition_step_for_flipped_miller_loop`, alt_bn128_pairing.cpp:266-287. -/
def bnAdd (base current : Coord3 (Fp2 K β)) : Coord3 (Fp2 K β) × EllCoeffs (Fp2 K β) :=
  let (p, w, e, d) := additionCore base current
  (p, ⟨A.twist * w, d, -e⟩)

/-- `mixed_addition_step_for_miller_loop`, bls12_381_pairing.cpp:229-250. -/
def blsAdd (base current : Coord3 (Fp2 K β)) : Coord3 (Fp2 K β) × EllCoeffs (Fp2 K β) :=
  let (p, w, e, d) := additionCore base current
  (p, ⟨w, A.twist * d, -e⟩)

/-! ## Precomputation -/

/-- `ate_precompute_G1`, alt_bn128_pairing.cpp:289-302, bls12_381_pairing.cpp:252-265. -/
def precomputeG1 (P : Coord3 K) : Outcome (AteG1Precomp K) :=
  (Jac.toAffine P).map fun Pcopy => ⟨Pcopy.X, Pcopy.Y⟩

/-- One iteration of the loop of `ate_precompute_G2`, alt_bn128_pairing.cpp:336-343, bls12_381_pairing.cpp:299-306; the state is
`R` and `result.coeffs`. -/
def precompStep (dbl : Coord3 (Fp2 K β) → Coord3 (Fp2 K β) × EllCoeffs (Fp2 K β))
    (add : Coord3 (Fp2 K β) → Coord3 (Fp2 K β) → Coord3 (Fp2 K β) × EllCoeffs (Fp2 K β))
    (Qcopy : Coord3 (Fp2 K β)) (bit : Bool) (s : Coord3 (Fp2 K β) × List (EllCoeffs (Fp2 K β))) :
    Outcome (Coord3 (Fp2 K β) × List (EllCoeffs (Fp2 K β))) :=
  let d := dbl s.1
  let cs := s.2 ++ [d.2]
  if bit then
    let a := add Qcopy d.1
    .ok (a.1, cs ++ [a.2])
  else .ok (d.1, cs)

/-- `alt_bn128_ate_precompute_G2`, alt_bn128_pairing.cpp:304-365. -/
def bnPrecomputeG2 (Q : Coord3 (Fp2 K β)) : Outcome (AteG2Precomp (Fp2 K β)) :=
  (Jac.toAffine Q).bind fun Qcopy =>
  (ateLoop (testBit A.loopCount) (precompStep A.bnDouble A.bnAdd Qcopy) (bigintMaxBits A.loopCount + 1) false
    (⟨Qcopy.X, Qcopy.Y, 1⟩, [])).bind fun s =>
  let Q1 := A.mulByQ Qcopy
  if Q1.Z ≠ 1 then .abort
  else
    let Q2 := A.mulByQ Q1
    if Q2.Z ≠ 1 then .abort
    else
      let R : Coord3 (Fp2 K β) := if A.loopNeg then ⟨s.1.X, -s.1.Y, s.1.Z⟩ else s.1
      let Q2 : Coord3 (Fp2 K β) := ⟨Q2.X, -Q2.Y, Q2.Z⟩
      let a1 := A.bnAdd Q1 R
      let a2 := A.bnAdd Q2 a1.1
      .ok ⟨Qcopy.X, Qcopy.Y, s.2 ++ [a1.2] ++ [a2.2]⟩

/-- `bls12_381_ate_precompute_G2`, bls12_381_pairing.cpp:267-311. -/
def blsPrecomputeG2 (Q : Coord3 (Fp2 K β)) : Outcome (AteG2Precomp (Fp2 K β)) :=
  (Jac.toAffine Q).bind fun Qcopy =>
  (ateLoop (testBit A.loopCount) (precompStep A.blsDouble A.blsAdd Qcopy) (bigintMaxBits A.loopCount + 1) false
    (⟨Qcopy.X, Qcopy.Y, 1⟩, [])).map fun s => ⟨Qcopy.X, Qcopy.Y, s.2⟩

/-! ## Miller loops -/

/-- `c = coeffs[idx++]; f = f.mul_by_024(c.ell_0, PY * c.ell_VW, PX * c.ell_VV)`, e.g. alt_bn128_pairing.cpp:400-401; with
`mul_by_045` in bls12_381_pairing.cpp:346-347. -/
def evalCoeff (mulBy : Fp12 K β ξ ξ → Fp2 K β → Fp2 K β → Fp2 K β → Fp12 K β ξ ξ) (prec_P : AteG1Precomp K)
    (c : EllCoeffs (Fp2 K β)) (f : Fp12 K β ξ ξ) : Fp12 K β ξ ξ :=
  mulBy f c.ell_0 (Quad.scale (· * ·) prec_P.PY c.ell_VW) (Quad.scale (· * ·) prec_P.PX c.ell_VV)

/-- One iteration of `ate_miller_loop`, alt_bn128_pairing.cpp:394-402, bls12_381_pairing.cpp:340-348; the state is `f` and
`idx`. -/
def millerStep (mulBy : Fp12 K β ξ ξ → Fp2 K β → Fp2 K β → Fp2 K β → Fp12 K β ξ ξ) (prec_P : AteG1Precomp K)
    (prec_Q : AteG2Precomp (Fp2 K β)) (bit : Bool) (s : Fp12 K β ξ ξ × Nat) : Outcome (Fp12 K β ξ ξ × Nat) :=
  (vecAt prec_Q.coeffs s.2).bind fun c =>
  let f := squared s.1
  let f := evalCoeff mulBy prec_P c f
  if bit then
    (vecAt prec_Q.coeffs (s.2 + 1)).map fun c => (evalCoeff mulBy prec_P c f, s.2 + 2)
  else .ok (f, s.2 + 1)

/-- `alt_bn128_ate_miller_loop`, alt_bn128_pairing.cpp:367-419. -/
def bnMillerLoop (prec_P : AteG1Precomp K) (prec_Q : AteG2Precomp (Fp2 K β)) : Outcome (Fp12 K β ξ ξ) :=
  (ateLoop (testBit A.loopCount) (millerStep Fp12.mulBy024 prec_P prec_Q) (bigintMaxBits A.loopCount + 1) false
    (1, 0)).bind fun s =>
  (if A.loopNeg then inverseO s.1 else .ok s.1).bind fun f =>
  (vecAt prec_Q.coeffs s.2).bind fun c =>
  let f := evalCoeff Fp12.mulBy024 prec_P c f
  (vecAt prec_Q.coeffs (s.2 + 1)).map fun c =>
  evalCoeff Fp12.mulBy024 prec_P c f

/-- `bls12_381_ate_miller_loop`, bls12_381_pairing.cpp:313-359. -/
def blsMillerLoop (prec_P : AteG1Precomp K) (prec_Q : AteG2Precomp (Fp2 K β)) : Outcome (Fp12 K β ξ ξ) :=
  (ateLoop (testBit A.loopCount) (millerStep Fp12.mulBy045 prec_P prec_Q) (bigintMaxBits A.loopCount + 1) false
    (1, 0)).bind fun s =>
  if A.loopNeg then inverseO s.1 else .ok s.1

/-- One iteration of `ate_double_miller_loop`, alt_bn128_pairing.cpp:448-465, bls12_381_pairing.cpp:388-405. -/
def doubleMillerStep (mulBy : Fp12 K β ξ ξ → Fp2 K β → Fp2 K β → Fp2 K β → Fp12 K β ξ ξ) (prec_P1 : AteG1Precomp K)
    (prec_Q1 : AteG2Precomp (Fp2 K β)) (prec_P2 : AteG1Precomp K) (prec_Q2 : AteG2Precomp (Fp2 K β)) (bit : Bool)
    (s : Fp12 K β ξ ξ × Nat) : Outcome (Fp12 K β ξ ξ × Nat) :=
  (vecAt prec_Q1.coeffs s.2).bind fun c1 =>
  (vecAt prec_Q2.coeffs s.2).bind fun c2 =>
  let f := squared s.1
  let f := evalCoeff mulBy prec_P1 c1 f
  let f := evalCoeff mulBy prec_P2 c2 f
  if bit then
    (vecAt prec_Q1.coeffs (s.2 + 1)).bind fun c1 =>
    (vecAt prec_Q2.coeffs (s.2 + 1)).map fun c2 =>
    (evalCoeff mulBy prec_P2 c2 (evalCoeff mulBy prec_P1 c1 f), s.2 + 2)
  else .ok (f, s.2 + 1)

/-- `alt_bn128_ate_double_miller_loop`, alt_bn128_pairing.cpp:421-488. -/
def bnDoubleMillerLoop (prec_P1 : AteG1Precomp K) (prec_Q1 : AteG2Precomp (Fp2 K β)) (prec_P2 : AteG1Precomp K)
    (prec_Q2 : AteG2Precomp (Fp2 K β)) : Outcome (Fp12 K β ξ ξ) :=
  (ateLoop (testBit A.loopCount) (doubleMillerStep Fp12.mulBy024 prec_P1 prec_Q1 prec_P2 prec_Q2)
    (bigintMaxBits A.loopCount + 1) false (1, 0)).bind fun s =>
  (if A.loopNeg then inverseO s.1 else .ok s.1).bind fun f =>
  (vecAt prec_Q1.coeffs s.2).bind fun c1 =>
  (vecAt prec_Q2.coeffs s.2).bind fun c2 =>
  let f := evalCoeff Fp12.mulBy024 prec_P1 c1 f
  let f := evalCoeff Fp12.mulBy024 prec_P2 c2 f
  (vecAt prec_Q1.coeffs (s.2 + 1)).bind fun c1 =>
  (vecAt prec_Q2.coeffs (s.2 + 1)).map fun c2 =>
  let f := evalCoeff Fp12.mulBy024 prec_P1 c1 f
  evalCoeff Fp12.mulBy024 prec_P2 c2 f

/-- `bls12_381_ate_double_miller_loop`, bls12_381_pairing.cpp:361-416. -/
def blsDoubleMillerLoop (prec_P1 : AteG1Precomp K) (prec_Q1 : AteG2Precomp (Fp2 K β)) (prec_P2 : AteG1Precomp K)
    (prec_Q2 : AteG2Precomp (Fp2 K β)) : Outcome (Fp12 K β ξ ξ) :=
  (ateLoop (testBit A.loopCount) (doubleMillerStep Fp12.mulBy045 prec_P1 prec_Q1 prec_P2 prec_Q2)
    (bigintMaxBits A.loopCount + 1) false (1, 0)).bind fun s =>
  if A.loopNeg then inverseO s.1 else .ok s.1

/-! ## Pairings -/

/-- `alt_bn128_ate_pairing`, alt_bn128_pairing.cpp:490-498. -/
def bnPairing (P : Coord3 K) (Q : Coord3 (Fp2 K β)) : Outcome (Fp12 K β ξ ξ) :=
  (precomputeG1 P).bind fun prec_P => (A.bnPrecomputeG2 Q).bind fun prec_Q => A.bnMillerLoop prec_P prec_Q

/-- `alt_bn128_ate_reduced_pairing` = `alt_bn128_reduced_pairing`, alt_bn128_pairing.cpp:500-507,541-545. -/
def bnReducedPairing (P : Coord3 K) (Q : Coord3 (Fp2 K β)) : Outcome (Fp12 K β ξ ξ) :=
  (A.bnPairing P Q).bind A.bnFinalExponentiation

/-- `bls12_381_ate_pairing`, bls12_381_pairing.cpp:418-426. -/
def blsPairing (P : Coord3 K) (Q : Coord3 (Fp2 K β)) : Outcome (Fp12 K β ξ ξ) :=
  (precomputeG1 P).bind fun prec_P => (A.blsPrecomputeG2 Q).bind fun prec_Q => A.blsMillerLoop prec_P prec_Q

/-- `bls12_381_ate_reduced_pairing` = `bls12_381_reduced_pairing`, bls12_381_pairing.cpp:428-435,469-473. -/
def blsReducedPairing (P : Coord3 K) (Q : Coord3 (Fp2 K β)) : Outcome (Fp12 K β ξ ξ) :=
  (A.blsPairing P Q).bind A.blsFinalExponentiation

end Ate12
end Libff
