import Mathlib.Data.Rat.Defs
import Mathlib.Algebra.Order.Ring.Rat
import Mathlib.Algebra.Order.Field.Rat

/-!
# What a `double` is

A finite number of IEEE 754's format binary64: 53 significant bits. The exponent is taken as unbounded, so overflow, underflow, infinities and NaN
do not occur.
-/
namespace Libff

/-- `x` is a floating point number with 53 bits. -/
def IsDouble (x : ℚ) : Prop := ∃ (m : ℤ) (e : ℤ), |m| < 2 ^ 53 ∧ x = m * (2 : ℚ) ^ e

/-- `y` is a floating point number, and none is closer to `x`. -/
def IsNearest (x y : ℚ) : Prop := IsDouble y ∧ ∀ z, IsDouble z → |y - x| ≤ |z - x|

end Libff
