import Verif.Model.Curve
import Mathlib.AlgebraicGeometry.EllipticCurve.Affine.Point
import Mathlib.Algebra.Group.Subgroup.Ker

/-!
# Which point of an elliptic curve a triple of coordinates denotes

The reference is Mathlib's group of points of a Weierstrass curve (`WeierstrassCurve.Affine.Point`, whose
group axioms are proved in Mathlib), so the specification of the group law is not ours.
-/
namespace Libff
open WeierstrassCurve

variable {K : Type*} [Field K]

/-- The curve `y² = x³ + a₂ x² + a₄ x + a₆`. -/
def weier (a₂ a₄ a₆ : K) : Affine K := ⟨0, a₂, 0, a₄, a₆⟩

/-- The curve `y² = x³ + a x + b`. -/
abbrev sw (a b : K) : Affine K := weier 0 a b

/-- Jacobian coordinates: `(X : Y : Z)` denotes `(X/Z², Y/Z³)`, and the neutral element if `Z = 0`. -/
def JacRep {W : Affine K} (p : Coord3 K) : W.Point → Prop
  | .zero => p.Z = 0
  | .some x y _ => p.Z ≠ 0 ∧ p.X = x * p.Z ^ 2 ∧ p.Y = y * p.Z ^ 3

/-- Projective coordinates: `(X : Y : Z)` denotes `(X/Z, Y/Z)`, and the neutral element if `X = Z = 0`. -/
def ProjRep {W : Affine K} (p : Coord3 K) : W.Point → Prop
  | .zero => p.X = 0 ∧ p.Z = 0
  | .some x y _ => p.Z ≠ 0 ∧ p.X = x * p.Z ∧ p.Y = y * p.Z

/-- The affine twisted Edwards curve `a x² + y² = 1 + d x² y²`. -/
def EdwOn (a d x y : K) : Prop := a * x ^ 2 + y ^ 2 = 1 + d * x ^ 2 * y ^ 2

/-- The Weierstrass form of the twisted Edwards curve: `v² = u³ + 2 (a + d) u² + (a - d)² u`. -/
abbrev edwW (a d : K) : Affine K := weier (2 * (a + d)) ((a - d) ^ 2) 0

/-- Inverted coordinates: `(X : Y : Z)` with `X, Y, Z ≠ 0` denotes the affine point
`(x, y) = (Z/X, Z/Y)` of the Edwards curve, which is the point
`u = (a - d) (1 + y) / (1 - y)`, `v = 2 u / x` of the Weierstrass form (the standard birational equivalence).
The neutral element is denoted by `Y = Z = 0`. -/
def EdwRep {a d : K} (p : Coord3 K) : (edwW a d).Point → Prop
  | .zero => p.Y = 0 ∧ p.Z = 0
  | .some u v _ => p.X ≠ 0 ∧ p.Y ≠ 0 ∧ p.Z ≠ 0 ∧ EdwOn a d (p.Z / p.X) (p.Z / p.Y) ∧
      u = (a - d) * (1 + p.Z / p.Y) / (1 - p.Z / p.Y) ∧ v = 2 * u / (p.Z / p.X)

/-- A subgroup of the points without elements of order two (so without elements of order four either), for
instance the subgroup of prime order `r ≠ 2` the library works in. -/
def NoTwoTorsion {A : Type*} [AddCommGroup A] (H : AddSubgroup A) : Prop := ∀ P ∈ H, P + P = 0 → P = 0

/-- The elements killed by `n`. -/
def torsionSub {A : Type*} [AddCommGroup A] (n : Nat) : AddSubgroup A := (nsmulAddMonoidHom n).ker

/-- The coordinates denote a point of the subgroup. -/
def EdwRepIn {a d : K} [DecidableEq K] (H : AddSubgroup (edwW a d).Point) (p : Coord3 K) (P : (edwW a d).Point) : Prop :=
  P ∈ H ∧ EdwRep p P

end Libff
