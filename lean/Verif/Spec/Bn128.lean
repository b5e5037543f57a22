import Verif.Model.Bn128
import Verif.Spec.Curve

/-!
# What the external library under the bn128 classes is assumed to do
-/
namespace Libff.Bn128
open WeierstrassCurve

/-- `ECAdd` adds two different points other than the neutral element, `ECDouble` doubles any point, on the curve
`y² = x³ + b` and in Jacobian coordinates. -/
structure EcOps.Correct {K : Type} [Field K] [DecidableEq K] (E : EcOps K) (b : K) : Prop where
  add : ∀ {p q : Coord3 K} {P Q : (sw 0 b).Point}, JacRep p P → JacRep q Q → P ≠ 0 → Q ≠ 0 → P ≠ Q →
    JacRep (E.ecAdd p q) (P + Q)
  dbl : ∀ {p : Coord3 K} {P : (sw 0 b).Point}, JacRep p P → JacRep (E.ecDouble p) (P + P)

/-- The low bit in memory of an element tells it from its negative. It holds for any representation of residues modulo an odd
`p` by numbers below `p`, Montgomery form included. -/
def LsbLaw {F : Type} [Zero F] [Neg F] (lsb : F → Bool) : Prop := ∀ y : F, y ≠ 0 → lsb (-y) = !lsb y

end Libff.Bn128
