import Verif.Model.Outcome
import Verif.Model.Algorithms
import Verif.Model.Group

/-!
# Extension fields (libff/algebra/fields/prime_extension)

All six classes are built from two shapes: `Fp2`, `Fp4`, `Fp6_2over3` and `Fp12_2over3over2` are pairs
`(c0, c1)` with the same formulas, which differ only in the coefficient type and in the function
`mul_by_non_residue`; `Fp3` and `Fp6_3over2` are triples with the same formulas.  `Quad K nr` and
`Cubic K nr` model those two shapes over a coefficient type `K` with `mul_by_non_residue = nr`.  The
formulas are transcribed operation by operation.
-/
namespace Libff

/-- Types with a member function `squared()`. -/
class Squared (K : Type*) where
  squared : K → K

export Squared (squared)

/-- Types with a member function `inverse()`, which may abort. -/
class InverseO (K : Type*) where
  inverseO : K → Outcome K

export InverseO (inverseO)

/-! ## Quadratic shape -/

/-- Objects of `Fp2_model` (fp2.hpp:43-47), `Fp4_model` (fp4.hpp:50-54), `Fp6_2over3_model`
(fp6_2over3.hpp), `Fp12_2over3over2_model` (fp12_2over3over2.hpp). -/
@[ext] structure Quad (K : Type*) (nr : K → K) where
  c0 : K
  c1 : K
  deriving DecidableEq

namespace Quad
variable {K : Type*} {nr : K → K}

/-- `zero()`: fp2.tcc:19-23, fp4.tcc:28-33, fp6_2over3.tcc:23-28, fp12_2over3over2.tcc:23-27. -/
instance [Zero K] : Zero (Quad K nr) := ⟨⟨0, 0⟩⟩
/-- `one()`: fp2.tcc:25-29, fp4.tcc:35-40, fp6_2over3.tcc:30-35, fp12_2over3over2.tcc:29-33. -/
instance [Zero K] [One K] : One (Quad K nr) := ⟨⟨1, 0⟩⟩
/-- `operator+`: fp2.tcc:59-67, fp4.tcc:70-78, fp6_2over3.tcc:65-73, fp12_2over3over2.tcc:63-71. -/
instance [Add K] : Add (Quad K nr) := ⟨fun x y => ⟨x.c0 + y.c0, x.c1 + y.c1⟩⟩
/-- `operator-`: fp2.tcc:69-77, fp4.tcc:80-88, fp6_2over3.tcc:75-83, fp12_2over3over2.tcc:73-81. -/
instance [Sub K] : Sub (Quad K nr) := ⟨fun x y => ⟨x.c0 - y.c0, x.c1 - y.c1⟩⟩
/-- unary `operator-`: fp2.tcc:106-111, fp4.tcc:147-152, fp6_2over3.tcc:133-138,
fp12_2over3over2.tcc:130-135. -/
instance [Neg K] : Neg (Quad K nr) := ⟨fun x => ⟨-x.c0, -x.c1⟩⟩

/-- `operator*` (Karatsuba): fp2.tcc:89-104, fp4.tcc:110-126, fp6_2over3.tcc:95-111,
fp12_2over3over2.tcc:113-128. -/
instance [Add K] [Sub K] [Mul K] : Mul (Quad K nr) := ⟨fun x y =>
  let A := y.c0; let B := y.c1; let a := x.c0; let b := x.c1
  let aA := a * A
  let bB := b * B
  ⟨aA + nr bB, (a + b) * (A + B) - aA - bB⟩⟩

/-- Multiplication by an element of a subfield, coefficient by coefficient: fp2.tcc:79-87,
fp4.tcc:90-108, fp6_2over3.tcc:85-93, fp12_2over3over2.tcc:83-111. -/
def scale {L : Type*} (mul : L → K → K) (l : L) (x : Quad K nr) : Quad K nr := ⟨mul l x.c0, mul l x.c1⟩

/-- `squared()` = `squared_complex()`: fp2.tcc:162-166,191-203, fp4.tcc:210-223,
fp6_2over3.tcc:196-208, fp12_2over3over2.tcc:193-197,222-235. -/
instance [Add K] [Sub K] [Mul K] : Squared (Quad K nr) := ⟨fun x =>
  let a := x.c0; let b := x.c1
  let ab := a * b
  ⟨(a + b) * (a + nr b) - ab - nr ab, ab + ab⟩⟩

/-- `squared_karatsuba()`: fp2.tcc:176-189, fp12_2over3over2.tcc:206-220. -/
def squaredKaratsuba [Add K] [Sub K] [Squared K] (x : Quad K nr) : Quad K nr :=
  let a := x.c0; let b := x.c1
  let asq := squared a
  let bsq := squared b
  ⟨asq + nr bsq, squared (a + b) - asq - bsq⟩

/-- `inverse()`: fp2.tcc:205-222, fp4.tcc:232-245, fp6_2over3.tcc:217-232, fp12_2over3over2.tcc:237-254. -/
instance [Sub K] [Neg K] [Mul K] [Squared K] [InverseO K] : InverseO (Quad K nr) := ⟨fun x =>
  let a := x.c0; let b := x.c1
  let t0 := squared a
  let t1 := squared b
  let t2 := t0 - nr t1
  (inverseO t2).map fun t3 =>
    let c0 := a * t3
    let c1 := -(b * t3)
    ⟨c0, c1⟩⟩

/-- `unitary_inverse()`: fp4.tcc:261-266, fp6_2over3.tcc:248-253, fp12_2over3over2.tcc:270-275. -/
def unitaryInverse [Neg K] (x : Quad K nr) : Quad K nr := ⟨x.c0, -x.c1⟩

/-- `Frobenius_map(power)`: fp2.tcc:231-236, fp4.tcc:254-259, fp6_2over3.tcc:241-246,
fp12_2over3over2.tcc:263-268.  `m` is the extension degree over the prime field, `coeff` the table
`Frobenius_coeffs_c1`, `mul` the product of a coefficient with an element of `K` and `fK` the
`Frobenius_map` of `K`.  (`Fp2` does not apply a map to its coefficients: there `fK` is the identity.) -/
def frobMap (fK : Nat → K → K) {L : Type*} (mul : L → K → K) (m : Nat) (coeff : Nat → L) (power : Nat)
    (x : Quad K nr) : Quad K nr :=
  ⟨fK power x.c0, mul (coeff (power % m)) (fK power x.c1)⟩

/-- `cyclotomic_squared()` of `Fp4_model`: fp4.tcc:268-280. -/
def cyclotomicSquared4 [Add K] [Sub K] [One K] [Squared K] (x : Quad K nr) : Quad K nr :=
  let A := squared x.c1
  let B := x.c1 + x.c0
  let C := squared B - A
  let D := nr A
  let E := C - D
  let F := D + D + 1
  let G := E - 1
  ⟨F, G⟩

end Quad

/-! ## Cubic shape -/

/-- Objects of `Fp3_model` (fp3.hpp) and `Fp6_3over2_model` (fp6_3over2.hpp). -/
@[ext] structure Cubic (K : Type*) (nr : K → K) where
  c0 : K
  c1 : K
  c2 : K
  deriving DecidableEq

namespace Cubic
variable {K : Type*} {nr : K → K}

/-- `zero()`: fp3.tcc:19-23, fp6_3over2.tcc:24-28. -/
instance [Zero K] : Zero (Cubic K nr) := ⟨⟨0, 0, 0⟩⟩
/-- `one()`: fp3.tcc:25-29, fp6_3over2.tcc:30-34. -/
instance [Zero K] [One K] : One (Cubic K nr) := ⟨⟨1, 0, 0⟩⟩
/-- `operator+`: fp3.tcc:60-69, fp6_3over2.tcc:65-74. -/
instance [Add K] : Add (Cubic K nr) := ⟨fun x y => ⟨x.c0 + y.c0, x.c1 + y.c1, x.c2 + y.c2⟩⟩
/-- `operator-`: fp3.tcc:71-80, fp6_3over2.tcc:76-85. -/
instance [Sub K] : Sub (Cubic K nr) := ⟨fun x y => ⟨x.c0 - y.c0, x.c1 - y.c1, x.c2 - y.c2⟩⟩
/-- unary `operator-`: fp3.tcc:112-118, fp6_3over2.tcc:128-134. -/
instance [Neg K] : Neg (Cubic K nr) := ⟨fun x => ⟨-x.c0, -x.c1, -x.c2⟩⟩

/-- `operator*` (Karatsuba): fp3.tcc:93-110, fp6_3over2.tcc:109-126. -/
instance [Add K] [Sub K] [Mul K] : Mul (Cubic K nr) := ⟨fun x y =>
  let A := y.c0; let B := y.c1; let C := y.c2; let a := x.c0; let b := x.c1; let c := x.c2
  let aA := a * A
  let bB := b * B
  let cC := c * C
  ⟨aA + nr ((b + c) * (B + C) - bB - cC),
   (a + b) * (A + B) - aA - bB + nr cC,
   (a + c) * (A + C) - aA + bB - cC⟩⟩

/-- Multiplication by an element of a subfield: fp3.tcc:82-91, fp6_3over2.tcc:87-107. -/
def scale {L : Type*} (mul : L → K → K) (l : L) (x : Cubic K nr) : Cubic K nr :=
  ⟨mul l x.c0, mul l x.c1, mul l x.c2⟩

/-- `squared()` (CH-SQR2): fp3.tcc:169-189, fp6_3over2.tcc:185-205. -/
instance [Add K] [Sub K] [Mul K] [Squared K] : Squared (Cubic K nr) := ⟨fun x =>
  let a := x.c0; let b := x.c1; let c := x.c2
  let s0 := squared a
  let ab := a * b
  let s1 := ab + ab
  let s2 := squared (a - b + c)
  let bc := b * c
  let s3 := bc + bc
  let s4 := squared c
  ⟨s0 + nr s3, s1 + nr s4, s1 + s2 + s3 - s0 - s4⟩⟩

/-- `inverse()`: fp3.tcc:198-219, fp6_3over2.tcc:214-234. -/
instance [Add K] [Sub K] [Mul K] [Squared K] [InverseO K] : InverseO (Cubic K nr) := ⟨fun x =>
  let a := x.c0; let b := x.c1; let c := x.c2
  let t0 := squared a
  let t1 := squared b
  let t2 := squared c
  let t3 := a * b
  let t4 := a * c
  let t5 := b * c
  let c0 := t0 - nr t5
  let c1 := nr t2 - t3
  let c2 := t1 - t4
  (inverseO (a * c0 + nr (c * c1 + b * c2))).map fun t6 =>
    ⟨t6 * c0, t6 * c1, t6 * c2⟩⟩

/-- `Frobenius_map(power)`: fp3.tcc:228-234, fp6_3over2.tcc:243-249. -/
def frobMap (fK : Nat → K → K) {L : Type*} (mul : L → K → K) (m : Nat) (coeff1 coeff2 : Nat → L)
    (power : Nat) (x : Cubic K nr) : Cubic K nr :=
  ⟨fK power x.c0, mul (coeff1 (power % m)) (fK power x.c1),
    mul (coeff2 (power % m)) (fK power x.c2)⟩

end Cubic

/-! ## The concrete towers -/

/-- `non_residue * elt`. -/
def mulConst {K : Type*} [Mul K] (β : K) (x : K) : K := β * x

/-- `Fp2_model` over the prime field `K` with `non_residue = β`. -/
abbrev Fp2 (K : Type*) [Mul K] (β : K) := Quad K (mulConst β)
/-- `Fp3_model` over the prime field `K` with `non_residue = β`. -/
abbrev Fp3 (K : Type*) [Mul K] (β : K) := Cubic K (mulConst β)

/-- `Fp4_model::mul_by_non_residue`, fp4.tcc:22-26; `γ` is `Fp4_model::non_residue`. -/
def fp4nr {K : Type*} [Mul K] {β : K} (γ : K) (e : Fp2 K β) : Fp2 K β := ⟨γ * e.c1, e.c0⟩
/-- `Fp4_model` with `Fp2_model::non_residue = β` and `Fp4_model::non_residue = γ`. -/
abbrev Fp4 (K : Type*) [Mul K] (β γ : K) := Quad (Fp2 K β) (fp4nr γ)

/-- `Fp6_2over3_model::mul_by_non_residue`, fp6_2over3.tcc:17-21. -/
def fp6nr {K : Type*} [Mul K] {β : K} (γ : K) (e : Fp3 K β) : Fp3 K β := ⟨γ * e.c2, e.c0, e.c1⟩
/-- `Fp6_2over3_model`. -/
abbrev Fp6_2over3 (K : Type*) [Mul K] (β γ : K) := Quad (Fp3 K β) (fp6nr γ)

/-- `Fp6_3over2_model` with `non_residue = ξ` (fp6_3over2.tcc:18-22 is `non_residue * elt`). -/
abbrev Fp6_3over2 (K : Type*) [Add K] [Sub K] [Mul K] (β : K) (ξ : Fp2 K β) := Cubic (Fp2 K β) (mulConst ξ)

/-- `Fp12_2over3over2_model::mul_by_non_residue`, fp12_2over3over2.tcc:17-21; `γ` is
`Fp12_2over3over2_model::non_residue`, an `Fp2` element. -/
def fp12nr {K : Type*} [Add K] [Sub K] [Mul K] {β : K} {ξ : Fp2 K β} (γ : Fp2 K β)
    (e : Fp6_3over2 K β ξ) : Fp6_3over2 K β ξ := ⟨γ * e.c2, e.c0, e.c1⟩
/-- `Fp12_2over3over2_model`. -/
abbrev Fp12 (K : Type*) [Add K] [Sub K] [Mul K] (β : K) (ξ γ : Fp2 K β) :=
  Quad (Fp6_3over2 K β ξ) (fp12nr γ)

section Frobenius
variable {K : Type*} [Add K] [Sub K] [Mul K]

/-- `Fp2_model::Frobenius_map`, fp2.tcc:231-236, with the table `Frobenius_coeffs_c1 = c`. -/
def Fp2.frobeniusMap {β : K} (c : Nat → K) (power : Nat) (x : Fp2 K β) : Fp2 K β :=
  Quad.frobMap (fun _ a => a) (· * ·) 2 c power x

/-- `Fp3_model::Frobenius_map`, fp3.tcc:228-234. -/
def Fp3.frobeniusMap {β : K} (c1 c2 : Nat → K) (power : Nat) (x : Fp3 K β) : Fp3 K β :=
  Cubic.frobMap (fun _ a => a) (· * ·) 3 c1 c2 power x

/-- `Fp4_model::Frobenius_map`, fp4.tcc:254-259; `c2` is the table of `Fp2`, `c4` that of `Fp4`
(prime-field elements, multiplied into both coefficients). -/
def Fp4.frobeniusMap {β γ : K} (c2 c4 : Nat → K) (power : Nat) (x : Fp4 K β γ) : Fp4 K β γ :=
  Quad.frobMap (Fp2.frobeniusMap c2) (Quad.scale (· * ·)) 4 c4 power x

/-- `Fp6_2over3_model::Frobenius_map`, fp6_2over3.tcc:241-246. -/
def Fp6_2over3.frobeniusMap {β γ : K} (c31 c32 c6 : Nat → K) (power : Nat) (x : Fp6_2over3 K β γ) :
    Fp6_2over3 K β γ :=
  Quad.frobMap (Fp3.frobeniusMap c31 c32) (Cubic.scale (· * ·)) 6 c6 power x

/-- `Fp6_3over2_model::Frobenius_map`, fp6_3over2.tcc:243-249. -/
def Fp6_3over2.frobeniusMap {β : K} {ξ : Fp2 K β} (c2 : Nat → K) (c61 c62 : Nat → Fp2 K β)
    (power : Nat) (x : Fp6_3over2 K β ξ) : Fp6_3over2 K β ξ :=
  Cubic.frobMap (Fp2.frobeniusMap c2) (· * ·) 6 c61 c62 power x

/-- `Fp12_2over3over2_model::Frobenius_map`, fp12_2over3over2.tcc:263-268. -/
def Fp12.frobeniusMap {β : K} {ξ γ : Fp2 K β} (c2 : Nat → K) (c61 c62 c12 : Nat → Fp2 K β)
    (power : Nat) (x : Fp12 K β ξ γ) : Fp12 K β ξ γ :=
  Quad.frobMap (Fp6_3over2.frobeniusMap c2 c61 c62) (Cubic.scale (· * ·)) 12 c12 power x

end Frobenius

section Sparse
variable {K : Type*} [Add K] [Sub K] [Mul K] [Zero K] [DecidableEq K]

/-- `Fp4_model::mul_by_023`, fp4.tcc:128-145. -/
def Fp4.mulBy023 {β γ : K} (x other : Fp4 K β γ) : Outcome (Fp4 K β γ) :=
  if other.c0.c1 ≠ 0 then .abort
  else
    let B := other.c1; let A := other.c0; let b := x.c1; let a := x.c0
    let aA : Fp2 K β := ⟨a.c0 * A.c0, a.c1 * A.c0⟩
    let bB := b * B
    let beta_bB := fp4nr γ bB
    .ok ⟨aA + beta_bB, (a + b) * (A + B) - aA - bB⟩

/-- `Fp6_2over3_model::mul_by_2345`, fp6_2over3.tcc:113-131. -/
def Fp6_2over3.mulBy2345 {β γ : K} (x other : Fp6_2over3 K β γ) : Outcome (Fp6_2over3 K β γ) :=
  if other.c0.c0 ≠ 0 then .abort
  else if other.c0.c1 ≠ 0 then .abort
  else
    let B := other.c1; let A := other.c0; let b := x.c1; let a := x.c0
    let aA : Fp3 K β := ⟨a.c1 * A.c2 * γ, a.c2 * A.c2 * γ, a.c0 * A.c2⟩
    let bB := b * B
    let beta_bB := fp6nr γ bB
    .ok ⟨aA + beta_bB, (a + b) * (A + B) - aA - bB⟩

end Sparse

section Fp12ops
variable {K : Type*} [Add K] [Sub K] [Mul K]

/-- `Fp12_2over3over2_model::mul_by_045`, fp12_2over3over2.tcc:344-382. -/
def Fp12.mulBy045 {β : K} {ξ γ : Fp2 K β} (x : Fp12 K β ξ γ) (ell_0 ell_VW ell_VV : Fp2 K β) :
    Fp12 K β ξ γ :=
  let z0 := x.c0.c0
  let z1 := x.c0.c1
  let z2 := x.c0.c2
  let z3 := x.c1.c0
  let z4 := x.c1.c1
  let z5 := x.c1.c2
  let x0 := ell_VW
  let x4 := ell_0
  let x5 := ell_VV
  let tmp1 := ξ * x4
  let tmp2 := ξ * x5
  let t0 := x0 * z0 + tmp1 * z4 + tmp2 * z3
  let t1 := x0 * z1 + tmp1 * z5 + tmp2 * z4
  let t2 := x0 * z2 + x4 * z3 + tmp2 * z5
  let t3 := x0 * z3 + tmp1 * z2 + tmp2 * z1
  let t4 := x0 * z4 + x4 * z0 + tmp2 * z2
  let t5 := x0 * z5 + x4 * z1 + x5 * z0
  ⟨⟨t0, t1, t2⟩, ⟨t3, t4, t5⟩⟩

/-- `Fp12_2over3over2_model::mul_by_024`, fp12_2over3over2.tcc:384-465. -/
def Fp12.mulBy024 {β : K} {ξ γ : Fp2 K β} (x : Fp12 K β ξ γ) (ell_0 ell_VW ell_VV : Fp2 K β) :
    Fp12 K β ξ γ :=
  let z0 := x.c0.c0
  let z1 := x.c0.c1
  let z2 := x.c0.c2
  let z3 := x.c1.c0
  let z4 := x.c1.c1
  let z5 := x.c1.c2
  let x0 := ell_0
  let x2 := ell_VV
  let x4 := ell_VW
  let D0 := z0 * x0
  let D2 := z2 * x2
  let D4 := z4 * x4
  let t2 := z0 + z4
  let t1 := z0 + z2
  let s0 := z1 + z3 + z5
  -- z0
  let S1 := z1 * x2
  let T3 := S1 + D4
  let T4 := ξ * T3 + D0
  let z0 := T4
  -- z1
  let T3 := z5 * x4
  let S1 := S1 + T3
  let T3 := T3 + D2
  let T4 := ξ * T3
  let T3 := z1 * x0
  let S1 := S1 + T3
  let T4 := T4 + T3
  let z1 := T4
  -- z2
  let t0 := x0 + x2
  let T3 := t1 * t0 - D0 - D2
  let T4 := z3 * x4
  let S1 := S1 + T4
  let T3 := T3 + T4
  -- z3
  let t0 := z2 + z4
  let z2 := T3
  let t1 := x2 + x4
  let T3 := t0 * t1 - D2 - D4
  let T4 := ξ * T3
  let T3 := z3 * x0
  let S1 := S1 + T3
  let T4 := T4 + T3
  let z3 := T4
  -- z4
  let T3 := z5 * x2
  let S1 := S1 + T3
  let T4 := ξ * T3
  let t0 := x0 + x4
  let T3 := t2 * t0 - D0 - D4
  let T4 := T4 + T3
  let z4 := T4
  -- z5
  let t0 := x0 + x2 + x4
  let T3 := s0 * t0 - S1
  let z5 := T3
  ⟨⟨z0, z1, z2⟩, ⟨z3, z4, z5⟩⟩

/-- `Fp12_2over3over2_model::cyclotomic_squared`, fp12_2over3over2.tcc:277-342. -/
def Fp12.cyclotomicSquared {β : K} {ξ γ : Fp2 K β} (x : Fp12 K β ξ γ) : Fp12 K β ξ γ :=
  let z0 := x.c0.c0
  let z4 := x.c0.c1
  let z3 := x.c0.c2
  let z2 := x.c1.c0
  let z1 := x.c1.c1
  let z5 := x.c1.c2
  let tmp := z0 * z1
  let t0 := (z0 + z1) * (z0 + ξ * z1) - tmp - ξ * tmp
  let t1 := tmp + tmp
  let tmp := z2 * z3
  let t2 := (z2 + z3) * (z2 + ξ * z3) - tmp - ξ * tmp
  let t3 := tmp + tmp
  let tmp := z4 * z5
  let t4 := (z4 + z5) * (z4 + ξ * z5) - tmp - ξ * tmp
  let t5 := tmp + tmp
  -- for A
  let z0 := t0 - z0
  let z0 := z0 + z0
  let z0 := z0 + t0
  let z1 := t1 + z1
  let z1 := z1 + z1
  let z1 := z1 + t1
  -- for B
  let tmp := ξ * t5
  let z2 := tmp + z2
  let z2 := z2 + z2
  let z2 := z2 + tmp
  let z3 := t4 - z3
  let z3 := z3 + z3
  let z3 := z3 + t4
  -- for C
  let z4 := t2 - z4
  let z4 := z4 + z4
  let z4 := z4 + t2
  let z5 := t3 + z5
  let z5 := z5 + z5
  let z5 := z5 + t3
  ⟨⟨z0, z4, z3⟩, ⟨z2, z1, z5⟩⟩

/-- `Fp6_2over3_model::cyclotomic_squared`, fp6_2over3.tcc:255-307; `my_Fp2` is `Fp2_model` with the
non-residue `ρ`. -/
def Fp6_2over3.cyclotomicSquared {β γ : K} (ρ : K) (x : Fp6_2over3 K β γ) : Fp6_2over3 K β γ :=
  let a : Fp2 K ρ := ⟨x.c0.c0, x.c1.c1⟩
  let b : Fp2 K ρ := ⟨x.c1.c0, x.c0.c2⟩
  let c : Fp2 K ρ := ⟨x.c0.c1, x.c1.c2⟩
  let asq := squared a
  let bsq := squared b
  let csq := squared c
  let A_a := asq.c0 - a.c0
  let A_a := A_a + A_a + asq.c0
  let A_b := asq.c1 + a.c1
  let A_b := A_b + A_b + asq.c1
  let B_tmp := β * csq.c1
  let B_a := B_tmp + b.c0
  let B_a := B_a + B_a + B_tmp
  let B_b := csq.c0 - b.c1
  let B_b := B_b + B_b + csq.c0
  let C_a := bsq.c0 - c.c0
  let C_a := C_a + C_a + bsq.c0
  let C_b := bsq.c1 + c.c1
  let C_b := C_b + C_b + bsq.c1
  ⟨⟨A_a, C_a, B_b⟩, ⟨B_a, A_b, C_b⟩⟩

/-- `Fp12_2over3over2_model::cyclotomic_exp`, fp12_2over3over2.tcc:467-493: the loop over limbs and
bits from the most significant bit of the most significant limb is the loop of `power`, with
`cyclotomic_squared`. -/
def cyclotomicExpBits {G : Type*} [Mul G] [One G] (csq : G → G) (x : G) (e : List Limb) : G :=
  (e.reverse.foldl (fun st w => powLoop csq x (bitAt w) 64 st) (false, 1)).2

end Fp12ops

/-- The loop of `Fp4_model::cyclotomic_exp` (fp4.tcc:292-312) and `Fp6_2over3_model::cyclotomic_exp`
(fp6_2over3.tcc:319-339) over the digits from the most significant one. -/
def nafExpLoop {G : Type*} [Mul G] (csq : G → G) (x xinv : G) : List Int → Bool × G → G
  | [], st => st.2
  | d :: ds, (found, res) =>
    let res := if found then csq res else res
    if d ≠ 0 then
      if d > 0 then nafExpLoop csq x xinv ds (true, res * x)
      else nafExpLoop csq x xinv ds (true, res * xinv)
    else nafExpLoop csq x xinv ds (found, res)

/-- `cyclotomic_exp` of `Fp4_model` (fp4.tcc:282-315) and `Fp6_2over3_model` (fp6_2over3.tcc:309-342);
`csq` is the class's `cyclotomic_squared`. -/
def cyclotomicExpNaf {K : Type*} {nr : K → K} [Neg K] [Add K] [Sub K] [Mul K] [Zero K] [One K]
    (csq : Quad K nr → Quad K nr) (x : Quad K nr) (e : List Limb) : Outcome (Quad K nr) :=
  (findWnaf 1 e).map fun naf => nafExpLoop csq x x.unitaryInverse naf.reverse (false, 1)

end Libff
