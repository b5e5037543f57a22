import Verif.Spec.Lines
import Verif.Model.PairingMnt

/-!
# Extended coordinates on twisted Edwards curves
-/
namespace Libff
open WeierstrassCurve Affine

variable {K : Type*} [Field K] {a d : K}

/-- Extended coordinates: `(X : Y : Z : T)` denotes the point `(x, y) = (X/Z, Y/Z)` of the Edwards curve, and `T = X Y / Z`. It is the
point `u = (a - d) (1 + y) / (1 - y)`, `v = 2 u / x` of the Weierstrass form. Only points with `x, y ≠ 0` are meant; the
points of odd order other than the neutral element are such. -/
def EdwExtRep (R : ExtCoord K) : (edwW a d).Point → Prop
  | .zero => False
  | .some u v _ => R.X ≠ 0 ∧ R.Y ≠ 0 ∧ R.Z ≠ 0 ∧ R.T * R.Z = R.X * R.Y ∧ EdwOn a d (R.X / R.Z) (R.Y / R.Z) ∧
      u = (a - d) * (1 + R.Y / R.Z) / (1 - R.Y / R.Z) ∧ v = 2 * u / (R.X / R.Z)

end Libff
