import Verif.Model.Ext
import Verif.Model.FieldUtils

/-!
# Curve points (libff/algebra/curves)

Every group class of the library stores three coordinates `X, Y, Z` of its base field.  There are three
coordinate systems:

* Jacobian, curve `y² = x³ + b`: `alt_bn128_G1`, `alt_bn128_G2`, `bls12_381_G1`, `bls12_381_G2`;
* projective, curve `y² = x³ + a x + b`: `mnt4_G1`, `mnt4_G2`, `mnt6_G1`, `mnt6_G2`;
* inverted twisted Edwards, curve `a x² + y² = 1 + d x² y²`: `edwards_G1`, `edwards_G2`.

Within one coordinate system the member functions of the classes have the same text up to the name of the
base field and the way a curve coefficient is multiplied (`coeff_a * ZZ` in a G1, `mul_by_a(ZZ)` in a G2),
so each system is modelled once, over an arbitrary base field type `K`.  The line numbers cite the first
class of each system (`alt_bn128_g1.cpp`, `mnt4_g1.cpp`, `edwards_g1.cpp`/`edwards_g2.cpp`); the other
classes have the functions in the same order.

The operation counters (`PROFILE_OP_COUNTS`) are in `Model/GroupCounters.lean`.
-/
namespace Libff

/-- The three coordinates of a point; alt_bn128_g1.hpp:41-48, mnt4_g1.hpp:44-54, edwards_g1.hpp:32-43. -/
@[ext] structure Coord3 (K : Type*) where
  X : K
  Y : K
  Z : K
  deriving DecidableEq

section
variable {K : Type*} [Zero K] [One K] [Add K] [Sub K] [Neg K] [Mul K] [DecidableEq K] [Squared K] [InverseO K]

namespace Jac

/-- `G1_zero`, alt_bn128_init.cpp (`alt_bn128_G1(zero, one, zero)`), returned by `zero()`,
alt_bn128_g1.cpp:352-355. -/
def zero : Coord3 K := ⟨0, 1, 0⟩

/-- `is_zero`, alt_bn128_g1.cpp:96-99. -/
def isZero (p : Coord3 K) : Bool := p.Z = 0

/-- `to_affine_coordinates`, alt_bn128_g1.cpp:67-84, and `to_special`, alt_bn128_g1.cpp:86-89. -/
def toAffine (p : Coord3 K) : Outcome (Coord3 K) :=
  if isZero p then .ok ⟨0, 1, 0⟩
  else (inverseO p.Z).map fun Z_inv =>
    let Z2_inv := squared Z_inv
    let Z3_inv := Z2_inv * Z_inv
    ⟨p.X * Z2_inv, p.Y * Z3_inv, 1⟩

/-- `is_special`, alt_bn128_g1.cpp:91-94. -/
def isSpecial (p : Coord3 K) : Bool := isZero p || p.Z = 1

/-- `operator==`, alt_bn128_g1.cpp:101-134. -/
def eq (p q : Coord3 K) : Bool :=
  if isZero p then isZero q
  else if isZero q then false
  else
    let Z1_squared := squared p.Z
    let Z2_squared := squared q.Z
    if p.X * Z2_squared ≠ q.X * Z1_squared then false
    else
      let Z1_cubed := p.Z * Z1_squared
      let Z2_cubed := q.Z * Z2_squared
      ¬ p.Y * Z2_cubed ≠ q.Y * Z1_cubed

/-- `dbl`, alt_bn128_g1.cpp:285-318. -/
def dbl (p : Coord3 K) : Coord3 K :=
  if isZero p then p
  else
    let A := squared p.X
    let B := squared p.Y
    let C := squared B
    let D := squared (p.X + B) - A - C
    let D := D + D
    let E := A + A + A
    let F := squared E
    let X3 := F - (D + D)
    let eightC := C + C
    let eightC := eightC + eightC
    let eightC := eightC + eightC
    let Y3 := E * (D - X3) - eightC
    let Y1Z1 := p.Y * p.Z
    let Z3 := Y1Z1 + Y1Z1
    ⟨X3, Y3, Z3⟩

/-- `operator+`, alt_bn128_g1.cpp:141-201, and `add`, alt_bn128_g1.cpp:214-217. -/
def add (p q : Coord3 K) : Coord3 K :=
  if isZero p then q
  else if isZero q then p
  else
    let Z1Z1 := squared p.Z
    let Z2Z2 := squared q.Z
    let U1 := p.X * Z2Z2
    let U2 := q.X * Z1Z1
    let Z1_cubed := p.Z * Z1Z1
    let Z2_cubed := q.Z * Z2Z2
    let S1 := p.Y * Z2_cubed
    let S2 := q.Y * Z1_cubed
    if U1 = U2 ∧ S1 = S2 then dbl p
    else
      let H := U2 - U1
      let S2_minus_S1 := S2 - S1
      let I := squared (H + H)
      let J := H * I
      let r := S2_minus_S1 + S2_minus_S1
      let V := U1 * I
      let X3 := squared r - J - (V + V)
      let S1_J := S1 * J
      let Y3 := r * (V - X3) - (S1_J + S1_J)
      let Z3 := (squared (p.Z + q.Z) - Z1Z1 - Z2Z2) * H
      ⟨X3, Y3, Z3⟩

/-- unary `operator-`, alt_bn128_g1.cpp:203-206. -/
def neg (p : Coord3 K) : Coord3 K := ⟨p.X, -p.Y, p.Z⟩

/-- `operator-`, alt_bn128_g1.cpp:209-212. -/
def sub (p q : Coord3 K) : Coord3 K := add p (neg q)

/-- The body of `mixed_add` after its debug assertion, alt_bn128_g1.cpp:225-283. -/
def mixedAddRelease (p q : Coord3 K) : Coord3 K :=
  if isZero p then q
  else if isZero q then p
  else
    let Z1Z1 := squared p.Z
    let U1 := p.X
    let U2 := q.X * Z1Z1
    let Z1_cubed := p.Z * Z1Z1
    let S1 := p.Y
    let S2 := q.Y * Z1_cubed
    if U1 = U2 ∧ S1 = S2 then dbl p
    else
      let H := U2 - p.X
      let HH := squared H
      let I := HH + HH
      let I := I + I
      let J := H * I
      let r := S2 - p.Y
      let r := r + r
      let V := p.X * I
      let X3 := squared r - J - V - V
      let Y3 := p.Y * J
      let Y3 := r * (V - X3) - Y3 - Y3
      let Z3 := squared (p.Z + H) - Z1Z1 - HH
      ⟨X3, Y3, Z3⟩

/-- `mixed_add`, alt_bn128_g1.cpp:219-283; the assertion is compiled in with `DEBUG`. -/
def mixedAdd (debug : Bool) (p q : Coord3 K) : Outcome (Coord3 K) :=
  if debug && !isSpecial q then .abort else .ok (mixedAddRelease p q)

/-- `is_well_formed`, alt_bn128_g1.cpp:326-350 (with `twist_coeff_b` in a G2). -/
def isWellFormed (b : K) (p : Coord3 K) : Bool :=
  if isZero p then true
  else
    let X2 := squared p.X
    let Y2 := squared p.Y
    let Z2 := squared p.Z
    let X3 := p.X * X2
    let Z3 := p.Z * Z2
    let Z6 := squared Z3
    Y2 = X3 + b * Z6

/-- The second loop of `batch_to_special_all_non_zeros`, alt_bn128_g1.cpp:475-483. -/
def scaleAll : List (Coord3 K) → List K → List (Coord3 K)
  | p :: ps, zi :: zs =>
    let Z2 := squared zi
    let Z3 := zi * Z2
    ⟨p.X * Z2, p.Y * Z3, 1⟩ :: scaleAll ps zs
  | _, _ => []

/-- `batch_to_special_all_non_zeros`, alt_bn128_g1.cpp:462-484. -/
def batchToSpecialNZ (debug : Bool) (vec : List (Coord3 K)) : Outcome (List (Coord3 K)) :=
  (batchInvert debug (vec.map (·.Z))).map (scaleAll vec)

end Jac

/-! ## Projective coordinates -/

namespace Proj

/-- `G1_zero`, mnt4_init.cpp (`mnt4_G1(zero, one, zero)`), returned by `zero()`, mnt4_g1.cpp:381-384. -/
def zero : Coord3 K := ⟨0, 1, 0⟩

/-- `is_zero`, mnt4_g1.cpp:102-105. -/
def isZero (p : Coord3 K) : Bool := p.X = 0 ∧ p.Z = 0

/-- `to_affine_coordinates`, mnt4_g1.cpp:75-90, and `to_special`, mnt4_g1.cpp:92-95. -/
def toAffine (p : Coord3 K) : Outcome (Coord3 K) :=
  if isZero p then .ok ⟨0, 1, 0⟩
  else (inverseO p.Z).map fun Z_inv => ⟨p.X * Z_inv, p.Y * Z_inv, 1⟩

/-- `is_special`, mnt4_g1.cpp:97-100. -/
def isSpecial (p : Coord3 K) : Bool := isZero p || p.Z = 1

/-- `operator==`, mnt4_g1.cpp:107-134. -/
def eq (p q : Coord3 K) : Bool :=
  if isZero p then isZero q
  else if isZero q then false
  else if p.X * q.Z ≠ q.X * p.Z then false
  else if p.Y * q.Z ≠ q.Y * p.Z then false
  else true

/-- The doubling formula, mnt4_g1.cpp:335-349 and again inlined in `operator+`, mnt4_g1.cpp:180-195.
`mulA` multiplies by the coefficient `a`: `coeff_a * ZZ` in a G1, `mul_by_a(ZZ)` in a G2. -/
def dblFormula (mulA : K → K) (p : Coord3 K) : Coord3 K :=
  let XX := squared p.X
  let ZZ := squared p.Z
  let w := mulA ZZ + (XX + XX + XX)
  let Y1Z1 := p.Y * p.Z
  let s := Y1Z1 + Y1Z1
  let ss := squared s
  let sss := s * ss
  let R := p.Y * s
  let RR := squared R
  let B := squared (p.X + R) - XX - RR
  let h := squared w - (B + B)
  let X3 := h * s
  let Y3 := w * (B - h) - (RR + RR)
  let Z3 := sss
  ⟨X3, Y3, Z3⟩

/-- `dbl`, mnt4_g1.cpp:322-350. -/
def dbl (mulA : K → K) (p : Coord3 K) : Coord3 K :=
  if isZero p then p else dblFormula mulA p

/-- `operator+`, mnt4_g1.cpp:141-214. -/
def plus (mulA : K → K) (p q : Coord3 K) : Coord3 K :=
  if isZero p then q
  else if isZero q then p
  else
    let X1Z2 := p.X * q.Z
    let X2Z1 := p.Z * q.X
    let Y1Z2 := p.Y * q.Z
    let Y2Z1 := p.Z * q.Y
    if X1Z2 = X2Z1 ∧ Y1Z2 = Y2Z1 then dblFormula mulA p
    else
      let Z1Z2 := p.Z * q.Z
      let u := Y2Z1 - Y1Z2
      let uu := squared u
      let v := X2Z1 - X1Z2
      let vv := squared v
      let vvv := v * vv
      let R := vv * X1Z2
      let A := uu * Z1Z2 - (vvv + R + R)
      let X3 := v * A
      let Y3 := u * (R - A) - vvv * Y1Z2
      let Z3 := vvv * Z1Z2
      ⟨X3, Y3, Z3⟩

/-- unary `operator-`, mnt4_g1.cpp:216-219. -/
def neg (p : Coord3 K) : Coord3 K := ⟨p.X, -p.Y, p.Z⟩

/-- `operator-`, mnt4_g1.cpp:222-225. -/
def sub (mulA : K → K) (p q : Coord3 K) : Coord3 K := plus mulA p (neg q)

/-- `add`, mnt4_g1.cpp:227-270. -/
def add (mulA : K → K) (p q : Coord3 K) : Coord3 K :=
  if isZero p then q
  else if isZero q then p
  else if eq p q then dbl mulA p
  else
    let Y1Z2 := p.Y * q.Z
    let X1Z2 := p.X * q.Z
    let Z1Z2 := p.Z * q.Z
    let u := q.Y * p.Z - Y1Z2
    let uu := squared u
    let v := q.X * p.Z - X1Z2
    let vv := squared v
    let vvv := v * vv
    let R := vv * X1Z2
    let A := uu * Z1Z2 - (vvv + R + R)
    let X3 := v * A
    let Y3 := u * (R - A) - vvv * Y1Z2
    let Z3 := vvv * Z1Z2
    ⟨X3, Y3, Z3⟩

/-- `mixed_add`, mnt4_g1.cpp:272-320; the assertion is compiled in with `DEBUG`. -/
def mixedAdd (mulA : K → K) (debug : Bool) (p q : Coord3 K) : Outcome (Coord3 K) :=
  if isZero p then .ok q
  else if isZero q then .ok p
  else if debug && !isSpecial q then .abort
  else
    let X1Z2 := p.X
    let X2Z1 := p.Z * q.X
    let Y1Z2 := p.Y
    let Y2Z1 := p.Z * q.Y
    if X1Z2 = X2Z1 ∧ Y1Z2 = Y2Z1 then .ok (dbl mulA p)
    else
      let u := Y2Z1 - p.Y
      let uu := squared u
      let v := X2Z1 - p.X
      let vv := squared v
      let vvv := v * vv
      let R := vv * p.X
      let A := uu * p.Z - vvv - R - R
      let X3 := v * A
      let Y3 := u * (R - A) - vvv * p.Y
      let Z3 := vvv * p.Z
      .ok ⟨X3, Y3, Z3⟩

/-- `is_well_formed`, mnt4_g1.cpp:358-379, mnt4_g2.cpp:380-402. -/
def isWellFormed (a b : K) (p : Coord3 K) : Bool :=
  if isZero p then true
  else
    let X2 := squared p.X
    let Y2 := squared p.Y
    let Z2 := squared p.Z
    p.Z * (Y2 - b * Z2) = p.X * (X2 + a * Z2)

/-- The second loop of `batch_to_special_all_non_zeros`, mnt4_g1.cpp:505-510. -/
def scaleAll : List (Coord3 K) → List K → List (Coord3 K)
  | p :: ps, zi :: zs => ⟨p.X * zi, p.Y * zi, 1⟩ :: scaleAll ps zs
  | _, _ => []

/-- `batch_to_special_all_non_zeros`, mnt4_g1.cpp:492-511. -/
def batchToSpecialNZ (debug : Bool) (vec : List (Coord3 K)) : Outcome (List (Coord3 K)) :=
  (batchInvert debug (vec.map (·.Z))).map (scaleAll vec)

end Proj

/-! ## Inverted Edwards coordinates -/

namespace Edw

/-- The public constructor from affine coordinates, edwards_g1.hpp:43. -/
def ofAffine (x y : K) : Coord3 K := ⟨y, x, x * y⟩

/-- `G1_zero`, edwards_init.cpp (`edwards_G1(zero, one)`), returned by `zero()`, edwards_g1.cpp:288-291. -/
def zero : Coord3 K := ofAffine 0 1

/-- `is_zero`, edwards_g1.cpp:114-117. -/
def isZero (p : Coord3 K) : Bool := p.Y = 0 ∧ p.Z = 0

/-- `to_affine_coordinates`, edwards_g1.cpp:66-86. Afterwards `X` and `Y` are the affine coordinates. -/
def toAffine (p : Coord3 K) : Outcome (Coord3 K) :=
  if isZero p then .ok ⟨0, 1, 1⟩
  else
    let tX := p.Y * p.Z
    let tY := p.X * p.Z
    let tZ := p.X * p.Y
    (inverseO tZ).map fun tZ_inv => ⟨tX * tZ_inv, tY * tZ_inv, 1⟩

/-- `operator==`, edwards_g1.cpp:119-146. -/
def eq (p q : Coord3 K) : Bool :=
  if isZero p then isZero q
  else if isZero q then false
  else if p.X * q.Z ≠ q.X * p.Z then false
  else if p.Y * q.Z ≠ q.Y * p.Z then false
  else true

/-- `to_special`, edwards_g1.cpp:88-107; the assertion is compiled in with `DEBUG`. -/
def toSpecial (debug : Bool) (p : Coord3 K) : Outcome (Coord3 K) :=
  if p.Z = 0 then .ok p
  else (inverseO p.Z).bind fun Z_inv =>
    let r : Coord3 K := ⟨p.X * Z_inv, p.Y * Z_inv, 1⟩
    if debug && !eq r p then .abort else .ok r

/-- `is_special`, edwards_g1.cpp:109-112. -/
def isSpecial (p : Coord3 K) : Bool := isZero p || p.Z = 1

/-- `add`, edwards_g1.cpp:180-200 (`mulA` the identity, `mulD` the product with `edwards_coeff_d`) and
edwards_g2.cpp:202-222 (`mul_by_a`, `mul_by_d`). -/
def add (mulA mulD : K → K) (p q : Coord3 K) : Coord3 K :=
  let A := p.Z * q.Z
  let B := mulD (squared A)
  let C := p.X * q.X
  let D := p.Y * q.Y
  let E := C * D
  let H := C - mulA D
  let I := (p.X + p.Y) * (q.X + q.Y) - C - D
  let X3 := (E + B) * H
  let Y3 := (E - B) * I
  let Z3 := A * H * I
  ⟨X3, Y3, Z3⟩

/-- `operator+`, edwards_g1.cpp:153-167. -/
def plus (mulA mulD : K → K) (p q : Coord3 K) : Coord3 K :=
  if isZero p then q else if isZero q then p else add mulA mulD p q

/-- unary `operator-`, edwards_g1.cpp:169-172. -/
def neg (p : Coord3 K) : Coord3 K := ⟨-p.X, p.Y, p.Z⟩

/-- `operator-`, edwards_g1.cpp:175-178. -/
def sub (mulA mulD : K → K) (p q : Coord3 K) : Coord3 K := plus mulA mulD p (neg q)

/-- `mixed_add`, edwards_g1.cpp:202-237, edwards_g2.cpp:224-259. -/
def mixedAdd (mulA mulD : K → K) (debug : Bool) (p q : Coord3 K) : Outcome (Coord3 K) :=
  if isZero p then .ok q
  else if isZero q then .ok p
  else if debug && !isSpecial q then .abort
  else
    let A := p.Z
    let B := mulD (squared A)
    let C := p.X * q.X
    let D := p.Y * q.Y
    let E := C * D
    let H := C - mulA D
    let I := (p.X + p.Y) * (q.X + q.Y) - C - D
    let X3 := (E + B) * H
    let Y3 := (E - B) * I
    let Z3 := A * H * I
    .ok ⟨X3, Y3, Z3⟩

/-- `dbl` of the twisted class, edwards_g2.cpp:261-285. -/
def dbl (mulA mulD : K → K) (p : Coord3 K) : Coord3 K :=
  if isZero p then p
  else
    let A := squared p.X
    let B := squared p.Y
    let U := mulA B
    let C := A + U
    let D := A - U
    let E := squared (p.X + p.Y) - A - B
    let X3 := C * D
    let dZZ := mulD (squared p.Z)
    let Y3 := E * (C - dZZ - dZZ)
    let Z3 := D * E
    ⟨X3, Y3, Z3⟩

/-- `dbl` of the class with `a = 1`, edwards_g1.cpp:239-262. -/
def dbl1 (mulD : K → K) (p : Coord3 K) : Coord3 K :=
  if isZero p then p
  else
    let A := squared p.X
    let B := squared p.Y
    let C := A + B
    let D := A - B
    let E := squared (p.X + p.Y) - C
    let X3 := C * D
    let dZZ := mulD (squared p.Z)
    let Y3 := E * (C - dZZ - dZZ)
    let Z3 := D * E
    ⟨X3, Y3, Z3⟩

/-- `is_well_formed`, edwards_g1.cpp:264-286 (where `aY2` is `Y2`, added in the same order),
edwards_g2.cpp:294-316. -/
def isWellFormed (mulA mulD : K → K) (p : Coord3 K) : Bool :=
  if isZero p then true
  else
    let X2 := squared p.X
    let Y2 := squared p.Y
    let Z2 := squared p.Z
    let aY2 := mulA Y2
    let dZ2 := mulD Z2
    Z2 * (aY2 + X2 - dZ2) = X2 * Y2

/-- The second loop of `batch_to_special_all_non_zeros`, edwards_g1.cpp:404-409. -/
def scaleAll : List (Coord3 K) → List K → List (Coord3 K)
  | p :: ps, zi :: zs => ⟨p.X * zi, p.Y * zi, 1⟩ :: scaleAll ps zs
  | _, _ => []

/-- `batch_to_special_all_non_zeros`, edwards_g1.cpp:391-410. -/
def batchToSpecialNZ (debug : Bool) (vec : List (Coord3 K)) : Outcome (List (Coord3 K)) :=
  (batchInvert debug (vec.map (·.Z))).map (scaleAll vec)

end Edw

end

/-! ## Twist coefficients

`β` is the non-residue of the quadratic or cubic extension the twist lives in. -/

section
variable {K : Type*} [Zero K] [One K] [Mul K] [Squared K] {β : K}

/-- `mnt4_twist_coeff_a`, mnt4_init.cpp:45. -/
def mnt4TwistA (a : K) : Quad K (mulConst β) := ⟨a * β, 0⟩
/-- `mnt4_twist_coeff_b`, mnt4_init.cpp:46. -/
def mnt4TwistB (b : K) : Quad K (mulConst β) := ⟨0, b * β⟩
/-- `mnt4_G2::mul_by_a`, mnt4_g2.cpp:35-38, with the constants of mnt4_init.cpp:50-51. -/
def mnt4MulByA (a : K) (x : Quad K (mulConst β)) : Quad K (mulConst β) := ⟨(a * β) * x.c0, (a * β) * x.c1⟩
/-- `mnt4_G2::mul_by_b`, mnt4_g2.cpp:40-43, with the constants of mnt4_init.cpp:52-53. -/
def mnt4MulByB (b : K) (x : Quad K (mulConst β)) : Quad K (mulConst β) :=
  ⟨(b * squared β) * x.c1, (b * β) * x.c0⟩

/-- `mnt6_twist_coeff_a`, mnt6_init.cpp:47-48. -/
def mnt6TwistA (a : K) : Cubic K (mulConst β) := ⟨0, 0, a⟩
/-- `mnt6_twist_coeff_b`, mnt6_init.cpp:49-50. -/
def mnt6TwistB (b : K) : Cubic K (mulConst β) := ⟨b * β, 0, 0⟩
/-- `mnt6_G2::mul_by_a`, mnt6_g2.cpp:45-48, with the constants of mnt6_init.cpp:54-56. -/
def mnt6MulByA (a : K) (x : Cubic K (mulConst β)) : Cubic K (mulConst β) :=
  ⟨(a * β) * x.c1, (a * β) * x.c2, a * x.c0⟩
/-- `mnt6_G2::mul_by_b`, mnt6_g2.cpp:50-53, with the constants of mnt6_init.cpp:57-59. -/
def mnt6MulByB (b : K) (x : Cubic K (mulConst β)) : Cubic K (mulConst β) :=
  ⟨(b * β) * x.c0, (b * β) * x.c1, (b * β) * x.c2⟩

/-- `edwards_twist`, edwards_init.cpp:41. -/
def edwardsTwist : Cubic K (mulConst β) := ⟨0, 1, 0⟩
/-- `edwards_twist_coeff_a`, edwards_init.cpp:39 and 42 (`edwards_coeff_a = 1`; the product of a scalar and an
`Fp3` works coefficient by coefficient, fp3.tcc:82-91). -/
def edwardsTwistA : Cubic K (mulConst β) := Cubic.scale (· * ·) (1 : K) edwardsTwist
/-- `edwards_twist_coeff_d`, edwards_init.cpp:43. -/
def edwardsTwistD (d : K) : Cubic K (mulConst β) := Cubic.scale (· * ·) d edwardsTwist
/-- `edwards_G2::mul_by_a`, edwards_g2.cpp:34-40, with the constant of edwards_init.cpp:44. -/
def edwardsMulByA (x : Cubic K (mulConst β)) : Cubic K (mulConst β) := ⟨((1 : K) * β) * x.c2, x.c0, x.c1⟩
/-- `edwards_G2::mul_by_d`, edwards_g2.cpp:42-45, with the constants of edwards_init.cpp:47-49. -/
def edwardsMulByD (d : K) (x : Cubic K (mulConst β)) : Cubic K (mulConst β) :=
  ⟨(d * β) * x.c2, d * x.c0, d * x.c1⟩

end

end Libff
