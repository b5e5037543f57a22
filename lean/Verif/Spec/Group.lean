import Verif.Model.Group
import Mathlib.Algebra.Group.Defs

/-!
# What it means that a group class implements a group
-/
namespace Libff

/-- `ψ` sends objects of the class to elements of the commutative group `A` they denote, and every
operation computes the group operation. Several objects may denote the same element (projective
coordinates). -/
structure ImplementsGroup {G A : Type*} [GroupOps G] [AddCommGroup A] (ψ : G → A) : Prop where
  zero : ψ GroupOps.zero = 0
  add : ∀ a b, ψ (GroupOps.add a b) = ψ a + ψ b
  sub : ∀ a b, ψ (GroupOps.sub a b) = ψ a - ψ b
  dbl : ∀ a, ψ (GroupOps.dbl a) = ψ a + ψ a

/-- Value of a digit vector, least significant digit first. -/
def digitsVal : List Int → Int
  | [] => 0
  | d :: ds => d + 2 * digitsVal ds

/-- Every nonzero digit is followed by `w` zero digits. -/
def NonAdjacent (w : Nat) : List Int → Prop
  | [] => True
  | d :: ds => (d ≠ 0 → ∀ j < w, ds.getD j 0 = 0) ∧ NonAdjacent w ds

end Libff
