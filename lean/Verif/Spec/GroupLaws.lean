import Verif.Model.Bigint
import Verif.Model.Outcome

/-!
# Specification: a class is an abelian group in its own terms

Only the functions of the class occur: equality is `operator==`, never equality of the stored coordinates or of some mathematical
object behind them.
-/
namespace Libff

/-- The functions of a group class. `ok` says which objects are valid. -/
structure GroupClass (G : Type) where
  ok : G → Prop
  /-- `operator==` -/
  eq : G → G → Bool
  /-- `zero()` -/
  zero : G
  /-- `is_zero` -/
  isZero : G → Bool
  /-- `operator+` -/
  add : G → G → G
  /-- binary `operator-` -/
  sub : G → G → G
  /-- unary `operator-` -/
  neg : G → G
  /-- `dbl` -/
  dbl : G → G
  /-- `bigint * element`, `Fp * element` -/
  mul : List Limb → G → G
  /-- `is_special` -/
  isSpecial : G → Bool
  /-- `to_special` -/
  toSpecial : G → Outcome G
  /-- `mixed_add` -/
  mixedAdd : G → G → Outcome G

/-- All laws, for all valid objects. -/
structure GroupClass.Lawful {G : Type} (C : GroupClass G) : Prop where
  -- `==` is an equivalence relation
  eq_refl : ∀ {p}, C.ok p → C.eq p p = true
  eq_symm : ∀ {p q}, C.ok p → C.ok q → C.eq p q = true → C.eq q p = true
  eq_trans : ∀ {p q r}, C.ok p → C.ok q → C.ok r → C.eq p q = true → C.eq q r = true → C.eq p r = true
  -- valid objects stay valid
  ok_zero : C.ok C.zero
  ok_add : ∀ {p q}, C.ok p → C.ok q → C.ok (C.add p q)
  ok_sub : ∀ {p q}, C.ok p → C.ok q → C.ok (C.sub p q)
  ok_neg : ∀ {p}, C.ok p → C.ok (C.neg p)
  ok_dbl : ∀ {p}, C.ok p → C.ok (C.dbl p)
  ok_mul : ∀ {p} (e), C.ok p → C.ok (C.mul e p)
  -- equal objects may be exchanged for each other
  add_congr : ∀ {p p' q q'}, C.ok p → C.ok p' → C.ok q → C.ok q' → C.eq p p' = true → C.eq q q' = true →
    C.eq (C.add p q) (C.add p' q') = true
  sub_congr : ∀ {p p' q q'}, C.ok p → C.ok p' → C.ok q → C.ok q' → C.eq p p' = true → C.eq q q' = true →
    C.eq (C.sub p q) (C.sub p' q') = true
  neg_congr : ∀ {p p'}, C.ok p → C.ok p' → C.eq p p' = true → C.eq (C.neg p) (C.neg p') = true
  dbl_congr : ∀ {p p'}, C.ok p → C.ok p' → C.eq p p' = true → C.eq (C.dbl p) (C.dbl p') = true
  isZero_congr : ∀ {p p'}, C.ok p → C.ok p' → C.eq p p' = true → C.isZero p = C.isZero p'
  mul_congr : ∀ {p p'} (e e'), C.ok p → C.ok p' → C.eq p p' = true → val e = val e' → C.eq (C.mul e p) (C.mul e' p') = true
  -- the axioms of an abelian group
  add_assoc : ∀ {p q r}, C.ok p → C.ok q → C.ok r → C.eq (C.add (C.add p q) r) (C.add p (C.add q r)) = true
  add_comm : ∀ {p q}, C.ok p → C.ok q → C.eq (C.add p q) (C.add q p) = true
  add_zero : ∀ {p}, C.ok p → C.eq (C.add p C.zero) p = true
  add_neg : ∀ {p}, C.ok p → C.eq (C.add p (C.neg p)) C.zero = true
  -- the other functions are what they are called
  sub_eq : ∀ {p q}, C.ok p → C.ok q → C.eq (C.sub p q) (C.add p (C.neg q)) = true
  dbl_eq : ∀ {p}, C.ok p → C.eq (C.dbl p) (C.add p p) = true
  isZero_iff : ∀ {p}, C.ok p → (C.isZero p = true ↔ C.eq p C.zero = true)
  mul_zero : ∀ {p e}, C.ok p → val e = 0 → C.eq (C.mul e p) C.zero = true
  mul_succ : ∀ {p e e'}, C.ok p → val e' = val e + 1 → C.eq (C.mul e' p) (C.add (C.mul e p) p) = true
  mul_add : ∀ {p e f g}, C.ok p → val g = val e + val f → C.eq (C.mul g p) (C.add (C.mul e p) (C.mul f p)) = true
  mul_mul : ∀ {p e f g}, C.ok p → val g = val e * val f → C.eq (C.mul g p) (C.mul e (C.mul f p)) = true
  mul_dist : ∀ {p q e}, C.ok p → C.ok q → C.eq (C.mul e (C.add p q)) (C.add (C.mul e p) (C.mul e q)) = true
  toSpecial_eq : ∀ {p}, C.ok p → ∃ r, C.toSpecial p = .ok r ∧ C.ok r ∧ C.isSpecial r = true ∧ C.eq r p = true
  mixedAdd_eq : ∀ {p q}, C.ok p → C.ok q → C.isSpecial q = true →
    ∃ r, C.mixedAdd p q = .ok r ∧ C.ok r ∧ C.eq r (C.add p q) = true

end Libff
