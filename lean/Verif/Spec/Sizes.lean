import Verif.Spec.Limbs
import Mathlib.Algebra.CharP.Defs
import Mathlib.GroupTheory.OrderOfElement
import Mathlib.Data.Nat.Prime.Defs
import Mathlib.SetTheory.Cardinal.Finite

/-! # What a field class or a group class reports about its size, and when the report is true -/
namespace Libff

/-- The answers of `field_char()`, `extension_degree()`, `ceil_size_in_bits()` and `floor_size_in_bits()`. -/
structure FieldInfo where
  char : List Limb
  degree : Nat
  ceilBits : Nat
  floorBits : Nat

/-- The report is true of the field `K` of the values of the class: its characteristic is the prime `field_char()`, it has
`field_char() ^ extension_degree()` elements, all of them can be told apart with `ceil_size_in_bits()` bits, and there are enough of them
for every string of `floor_size_in_bits()` bits to have an element of its own. -/
structure FieldInfo.TrueOf (I : FieldInfo) (K : Type) [Ring K] : Prop where
  prime : (val I.char).Prime
  char : CharP K (val I.char)
  card : Nat.card K = val I.char ^ I.degree
  ceil : Nat.card K ≤ 2 ^ I.ceilBits
  floor : 2 ^ I.floorBits ≤ Nat.card K

/-- The answers of `field_char()`, `order()` and `size_in_bits()` of a group class. -/
structure GroupInfo where
  char : List Limb
  order : List Limb
  sizeInBits : Nat

/-- The report is true of a class whose objects denote points `A` with coordinates in `K` and whose `one()` denotes `g`: the coordinates are
in characteristic `field_char()`, the multiples of `one()` are `order()` many, a prime number, and all points together can be told apart
with `size_in_bits()` bits. -/
structure GroupInfo.TrueOf (I : GroupInfo) (K A : Type) [Ring K] [AddGroup A] (g : A) : Prop where
  char : CharP K (val I.char)
  prime : (val I.order).Prime
  order : Nat.card (AddSubgroup.zmultiples g) = val I.order
  bits : Nat.card A ≤ 2 ^ I.sizeInBits

end Libff
