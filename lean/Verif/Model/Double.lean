import Verif.Model.Outcome
import Mathlib.Data.Int.Log
import Mathlib.Data.Rat.Floor

/-!
# The class `Double`, libff/common/double.cpp

Complex numbers of two `double`s. A finite `double` is the rational number it stands for; every operation of the machine rounds its exact result to
the nearest `double`, ties to even (IEEE 754, default rounding mode). Simplifications: the exponent is unbounded (no overflow, underflow, infinities,
NaN); the compiler does not fuse multiplications with additions; the sign of zero is not modelled. Not modelled: `^` and `get_root_of_unity<Double>`
(`std::pow` of complex numbers, `cos`, `sin`), `inverse` (`std::complex` division): what the standard library returns there is not specified to the bit.
-/
namespace Libff

/-- The integer nearest to `q`, ties to even. -/
def roundEven (q : ℚ) : ℤ :=
  if q - ⌊q⌋ < 1 / 2 then ⌊q⌋ else if 1 / 2 < q - ⌊q⌋ then ⌊q⌋ + 1 else if ⌊q⌋ % 2 = 0 then ⌊q⌋ else ⌊q⌋ + 1

/-- Rounding of a positive number: 53 bits, the exponent is such that the first of them is 1. -/
def flPos (x : ℚ) : ℚ := roundEven (x / 2 ^ (Int.log 2 x - 52)) * 2 ^ (Int.log 2 x - 52)

/-- Rounding to the nearest `double` (IEEE 754, 4.3.1 roundTiesToEven). -/
def fl (x : ℚ) : ℚ := if x = 0 then 0 else if x < 0 then -flPos (-x) else flPos x

/-- `Double`, double.hpp:21-25: `std::complex<double> val`. -/
@[ext] structure Double where
  re : ℚ
  im : ℚ

namespace Double

/-- `Double(double real)`, double.cpp:26-29. -/
def ofReal (r : ℚ) : Double := ⟨r, 0⟩
/-- `Double::zero`, double.cpp:172-175. -/
def zero : Double := ofReal 0
/-- `Double::one`, double.cpp:167-170. -/
def one : Double := ofReal 1
/-- `operator+`, `operator+=`, double.cpp:46-53, 82-90. -/
def add (a b : Double) : Double := ⟨fl (a.re + b.re), fl (a.im + b.im)⟩
/-- `operator-`, `operator-=`, double.cpp:55-62, 92-100. -/
def sub (a b : Double) : Double := ⟨fl (a.re - b.re), fl (a.im - b.im)⟩
/-- `operator*`, `operator*=`, double.cpp:64-71, 102-110; the product of `std::complex<double>` (C11, G.5.1: the four products, then the difference
and the sum; the repair of NaN results does not apply). -/
def mul (a b : Double) : Double :=
  ⟨fl (fl (a.re * b.re) - fl (a.im * b.im)), fl (fl (a.re * b.im) + fl (a.im * b.re))⟩
/-- unary `operator-`, double.cpp:73-80. -/
def neg (a : Double) : Double := if a.im = 0 then ofReal (-a.re) else ⟨-a.re, -a.im⟩
/-- `squared`, double.cpp:162-165. -/
def squared (a : Double) : Double := mul a a
/-- The literal `0.000001`, double.cpp:114-115: the nearest `double`. -/
def eps : ℚ := fl (1 / 1000000)
/-- `operator==`, double.cpp:112-116. -/
def beq (a b : Double) : Bool := decide (|fl (a.re - b.re)| < eps) && decide (|fl (a.im - b.im)| < eps)
/-- `operator!=`, double.cpp:118-121. -/
def bne (a b : Double) : Bool := !beq a b
/-- `operator<`, double.cpp:123-126. -/
def lt (a b : Double) : Bool := decide (a.re < b.re)
/-- `operator>`, double.cpp:128-131. -/
def gt (a b : Double) : Bool := decide (b.re < a.re)

/-- `(size_t) x` for a `double`: the fraction is discarded; undefined if the result does not fit (C++11, 4.9). -/
def toSize (x : ℚ) : Outcome Nat :=
  let t := if x < 0 then -⌊-x⌋ else ⌊x⌋
  if 0 ≤ t ∧ t < 2 ^ 64 then .ok t.toNat else .ub
/-- `as_bigint`, double.cpp:152-155: the value of the `bigint<1>`. -/
def asBigint (a : Double) : Outcome Nat := toSize a.re
/-- `as_ulong`, double.cpp:157-160: `round((size_t) val.real())`. The integer is converted to `double`, rounded to an integer (no effect) and
converted to `unsigned long`. -/
def asUlong (a : Double) : Outcome Nat := (toSize a.re).bind fun n => toSize (fl n)
/-- `random_element`, double.cpp:177-180, with the number `rand()` returned. -/
def randomElement (r : Nat) : Double := ofReal ((r % 1001 : Nat) : ℚ)
/-- `geometric_generator`, double.cpp:182-185. -/
def geometricGenerator : Double := ofReal 2
/-- `arithmetic_generator`, double.cpp:187-190. -/
def arithmeticGenerator : Double := ofReal 1

end Double
end Libff
