import Mathlib.Algebra.Field.Defs
import Verif.Model.Bigint

/-!
# Specification: how the values of a pairing may be handled

Independent of the curves and of the way a pairing is computed.
-/
namespace Libff

/-- For all admissible arguments the pairing has a value `v` such that: the cheap inverse `uinv v` is an inverse of `v`, the cheap square
`csq v` is the square of `v`, the cheap power `cexp v e` is `v` to the `e` for every exponent that leaves two values of headroom in its
limbs, and negating either argument of the pairing gives `uinv v`. -/
def TargetGroup {G₁ G₂ L : Type} [Field L] (neg₁ : G₁ → G₁) (neg₂ : G₂ → G₂) (arg₁ : G₁ → Prop) (arg₂ : G₂ → Prop) (uinv csq : L → L)
    (cexp : L → List Limb → Outcome L) (pair : G₁ → G₂ → Outcome L) : Prop :=
  ∀ p q, arg₁ p → arg₂ q → ∃ v, pair p q = .ok v ∧ v * uinv v = 1 ∧ csq v = v * v ∧
    (∀ e : List Limb, val e + 2 ≤ 2 ^ (64 * e.length) → cexp v e = .ok (v ^ val e)) ∧
    pair (neg₁ p) q = .ok (uinv v) ∧ pair p (neg₂ q) = .ok (uinv v)

end Libff
