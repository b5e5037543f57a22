import Verif.Model.Group

/-!
# What it means that `mul_by_q` is the Frobenius endomorphism
-/
namespace Libff

/-- `m` maps valid objects of a group class to valid, well-formed objects, commutes with the operators under the
class's `==`, and on every multiple of `one` it is multiplication by the number `q`. -/
structure TwistEndo {G : Type} (ops : GroupOps G) (eq : G → G → Bool) (isWellFormed : G → Bool) (valid : G → Prop)
    (one : G) (q : List Limb) (m : G → G) : Prop where
  valid_map : ∀ {g}, valid g → valid (m g)
  wellFormed : ∀ {g}, valid g → isWellFormed (m g) = true
  zero : eq (m ops.zero) ops.zero = true
  add : ∀ {g h}, valid g → valid h → eq (m (ops.add g h)) (ops.add (m g) (m h)) = true
  sub : ∀ {g h}, valid g → valid h → eq (m (ops.sub g h)) (ops.sub (m g) (m h)) = true
  dbl : ∀ {g}, valid g → eq (m (ops.dbl g)) (ops.dbl (m g)) = true
  scalar : ∀ {g}, valid g → ∀ k, eq (m (scalarMul g k)) (scalarMul (m g) k) = true
  mul_q : ∀ k, eq (m (scalarMul one k)) (scalarMul (scalarMul one k) q) = true

end Libff
