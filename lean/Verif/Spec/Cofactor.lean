import Verif.Model.Group

/-!
# What it means that `mul_by_cofactor` maps into the group of order `r`
-/
namespace Libff

/-- `order` is the group order announced by the class, `cof` is `mul_by_cofactor`. Objects that pass `is_well_formed`
are mapped to objects that pass it and are killed by `order`; these are exactly the multiples of `one`. -/
structure CofactorClears {G : Type} (ops : GroupOps G) (eq : G → G → Bool) (isWellFormed : G → Bool) (one : G)
    (order : List Limb) (cof : G → G) : Prop where
  /-- The result is a valid group element. -/
  wellFormed : ∀ p, isWellFormed p = true → isWellFormed (cof p) = true
  /-- `order() * p.mul_by_cofactor() == zero()`. -/
  killed : ∀ p, isWellFormed p = true → eq (scalarMul (cof p) order) ops.zero = true
  /-- The result is one of the `order` many multiples of the generator. -/
  multiple : ∀ p, isWellFormed p = true →
    ∃ k < val order, ∀ e, val e = k → eq (cof p) (scalarMul one e) = true
  /-- An element is a multiple of the generator if the order kills it, so the test `order() * p == zero()` decides
  membership in the group of order `r`. -/
  member : ∀ p, isWellFormed p = true → (eq (scalarMul p order) ops.zero = true ↔
    ∃ k < val order, ∀ e, val e = k → eq p (scalarMul one e) = true)
  /-- Two elements of the group of order `r` with equal images are equal. -/
  injective : ∀ p q, isWellFormed p = true → isWellFormed q = true → eq (scalarMul p order) ops.zero = true →
    eq (scalarMul q order) ops.zero = true → eq (cof p) (cof q) = true → eq p q = true
  /-- It commutes with the group operation. -/
  add : ∀ p q, isWellFormed p = true → isWellFormed q = true →
    eq (cof (ops.add p q)) (ops.add (cof p) (cof q)) = true

end Libff
