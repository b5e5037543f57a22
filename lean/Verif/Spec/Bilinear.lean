import Verif.Model.Group
import Verif.Model.Outcome
import Verif.Spec.Limbs
import Mathlib.Algebra.Field.Defs

/-!
# What a bilinear pairing is, in terms of the operations of the group classes
-/
namespace Libff

/-- `q` is not the zero of its class, and is `==` to some multiple of `one`. -/
def NonzeroMultiple {G : Type} (ops : GroupOps G) (eq : G → G → Bool) (isZero : G → Bool) (one q : G) : Prop :=
  isZero q = false ∧ ∃ k : List Limb, eq q (scalarMul one k) = true

/-- `pair` succeeds on all pairs of arguments, its values are `r`-th roots of unity which depend only on the group elements that
the arguments denote (not on the chosen coordinates), it turns sums in either argument into products, and scalar multiples into
powers. `arg₁` and `arg₂` say what the admissible arguments are. -/
structure BilinearPairing {G₁ G₂ L : Type} [Field L] (ops₁ : GroupOps G₁) (ops₂ : GroupOps G₂) (eq₁ : G₁ → G₁ → Bool)
    (eq₂ : G₂ → G₂ → Bool) (arg₁ : G₁ → Prop) (arg₂ : G₂ → Prop) (r : Nat) (pair : G₁ → G₂ → Outcome L) : Prop where
  total : ∀ {p q}, arg₁ p → arg₂ q → ∃ v, pair p q = .ok v ∧ v ^ r = 1
  congr : ∀ {p p' q q'}, arg₁ p → arg₁ p' → arg₂ q → arg₂ q' → eq₁ p p' = true → eq₂ q q' = true → pair p q = pair p' q'
  add_left : ∀ {p p' q v v'}, arg₁ p → arg₁ p' → arg₁ (ops₁.add p p') → arg₂ q → pair p q = .ok v → pair p' q = .ok v' →
    pair (ops₁.add p p') q = .ok (v * v')
  add_right : ∀ {p q q' v v'}, arg₁ p → arg₂ q → arg₂ q' → arg₂ (ops₂.add q q') → pair p q = .ok v → pair p q' = .ok v' →
    pair p (ops₂.add q q') = .ok (v * v')
  scalar : ∀ {p q v}, arg₁ p → arg₂ q → pair p q = .ok v → ∀ a b : List Limb, arg₁ (scalarMul p a) → arg₂ (scalarMul q b) →
    pair (scalarMul p a) (scalarMul q b) = .ok (v ^ (val a * val b))

/-- No admissible arguments in the groups generated by `one₁` and `one₂` are paired to 1. -/
def NondegeneratePairing {G₁ G₂ L : Type} [Field L] (sub₁ : G₁ → Prop) (sub₂ : G₂ → Prop) (pair : G₁ → G₂ → Outcome L) : Prop :=
  ∀ p q, sub₁ p → sub₂ q → ∃ v, pair p q = .ok v ∧ v ≠ 1

end Libff
