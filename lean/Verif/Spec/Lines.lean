import Verif.Spec.Curve

/-!
# The lines of the chord-and-tangent law, as functions on the plane

`lineAt A B x y` is the value at `(x, y)` of the (normalised) equation of the line through the points `A` and `B` of a
Weierstrass curve: the tangent if `A = B`, the vertical line if `A + B = 0` or if `A` or `B` is the point at infinity (and
the constant 1, the line at infinity, if both are). `vertAt A x` is the vertical line through `A`.
-/
namespace Libff
open WeierstrassCurve Affine

variable {F : Type*} [Field F] [DecidableEq F] {W : Affine F}

/-- The vertical line through `A`, evaluated at abscissa `x`. -/
def vertAt : W.Point → F → F
  | .zero, _ => 1
  | .some x₁ _ _, x => x - x₁

/-- The line through `A` and `B`, evaluated at `(x, y)`. -/
def lineAt : W.Point → W.Point → F → F → F
  | .zero, B, x, _ => vertAt B x
  | .some x₁ _ _, .zero, x, _ => x - x₁
  | .some x₁ y₁ _, .some x₂ y₂ _, x, y =>
    if x₁ = x₂ ∧ y₁ = W.negY x₂ y₂ then x - x₁ else y - (W.slope x₁ x₂ y₁ y₂ * (x - x₁) + y₁)

/-- The line through `A` and `B`, evaluated at the point `P` (1 at infinity). -/
def lineVal (A B : W.Point) : W.Point → F
  | .zero => 1
  | .some x y _ => lineAt A B x y

/-- `c₀ + c₁ y + c₂ x = 0` is the equation of the line through `A` and `B`. -/
def IsLine (A B : W.Point) (c₀ c₁ c₂ : F) : Prop := ∃ κ ≠ 0, ∀ x y, c₀ + c₁ * y + c₂ * x = κ * lineAt A B x y

/-- `c_ZZ (1 + y) + c_XY x y + c_XZ x = 0` is the equation, in the coordinates of the twisted Edwards curve `a x² + y² = 1 + d x² y²`, of
the line through the points `A` and `B` of its Weierstrass form: `u = (a - d) (1 + y) / (1 - y)`, `v = 2 u / x`, and the denominator
`x (1 - y)` is removed. This conic meets the Edwards curve in `A`, `B`, `-(A + B)`, in `(0, -1)` and at infinity. -/
def IsConic {a d : F} (A B : (edwW a d).Point) (c_ZZ c_XY c_XZ : F) : Prop :=
  ∃ κ ≠ 0, ∀ x y, x ≠ 0 → y ≠ 1 →
    c_ZZ * (1 + y) + c_XY * (x * y) + c_XZ * x =
      κ * (x * (1 - y)) * lineAt A B ((a - d) * (1 + y) / (1 - y)) (2 * ((a - d) * (1 + y) / (1 - y)) / x)

end Libff
