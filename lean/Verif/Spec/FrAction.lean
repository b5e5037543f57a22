import Verif.Model.FieldMul
import Verif.Lemmas.FpType

/-!
# What it means that the scalar field acts faithfully on a generator
-/
namespace Libff

/-- The products `x * one` of the scalars `x` of the field `P` with the object `one` of a group class are defined
and behave as exponents: sums, differences and products of scalars become sums, differences and repeated products
of group elements under the class's own `==`; different scalars give different elements; only zero gives the
neutral element; `order() * one` is the neutral element. -/
structure FrActs {G : Type} (P : FpParams) [Fact P.Valid] (ops : GroupOps G) (eq : G → G → Bool)
    (isZero : G → Bool) (one : G) (f : Fp P → G) : Prop where
  defined : ∀ x, fieldMul P x.repr one = .ok (f x)
  one_mul : eq (f 1) one = true
  add : ∀ x y, eq (f (x + y)) (ops.add (f x) (f y)) = true
  sub : ∀ x y, eq (f (x - y)) (ops.sub (f x) (f y)) = true
  mul : ∀ x y, ∃ g, fieldMul P x.repr (f y) = .ok g ∧ eq (f (x * y)) g = true
  faithful : ∀ x y, eq (f x) (f y) = true ↔ x = y
  zero_iff : ∀ x, isZero (f x) = true ↔ x = 0
  order : isZero (scalarMul one P.modulus) = true

end Libff
