import Verif.Model.Binary
import Mathlib.RingTheory.AdjoinRoot

/-!
# What the binary fields are

An element of GF(2^n) is a polynomial over GF(2) of degree below n; bit number `i` of the value is the
coefficient of `X^i`.  The product is the product of polynomials modulo the documented polynomial.
-/
namespace Libff
open Polynomial

/-- The polynomial whose coefficients are the low `n` bits of `v`. -/
noncomputable def bitPoly (n v : ℕ) : (ZMod 2)[X] :=
  ∑ i ∈ Finset.range n, if v.testBit i then X ^ i else 0

/-- The value of an element as a number (`value_` is little-endian). -/
def GF32.nat (a : GF32) : ℕ := a.value.toNat
/-- The value of an element as a number. -/
def GF64.nat (a : GF64) : ℕ := a.value.toNat
/-- The value of an element as a number. -/
def GF128.nat (a : GF128) : ℕ := a.v0.toNat + 2 ^ 64 * a.v1.toNat
/-- The value of an element as a number. -/
def GF192.nat (a : GF192) : ℕ := a.v0.toNat + 2 ^ 64 * a.v1.toNat + 2 ^ 128 * a.v2.toNat
/-- The value of an element as a number. -/
def GF256.nat (a : GF256) : ℕ :=
  a.v0.toNat + 2 ^ 64 * a.v1.toNat + 2 ^ 128 * a.v2.toNat + 2 ^ 192 * a.v3.toNat

/-- The polynomial documented in gf32.hpp:19. -/
noncomputable def gf32Poly : (ZMod 2)[X] := X ^ 32 + X ^ 22 + X ^ 2 + X + 1
/-- The polynomial documented in gf64.hpp:19. -/
noncomputable def gf64Poly : (ZMod 2)[X] := X ^ 64 + X ^ 4 + X ^ 3 + X + 1
/-- The polynomial documented in gf128.hpp:19. -/
noncomputable def gf128Poly : (ZMod 2)[X] := X ^ 128 + X ^ 7 + X ^ 2 + X + 1
/-- The polynomial documented in gf192.hpp:19. -/
noncomputable def gf192Poly : (ZMod 2)[X] := X ^ 192 + X ^ 7 + X ^ 2 + X + 1
/-- The polynomial documented in gf256.hpp:20. -/
noncomputable def gf256Poly : (ZMod 2)[X] := X ^ 256 + X ^ 10 + X ^ 5 + X ^ 2 + 1

/-- The type `G` with the given operations is the set of polynomials of degree below `n` with addition and
multiplication modulo `f`; `poly a` is the polynomial of `a`. -/
structure PolyArith (G : Type) [Zero G] [One G] [Add G] [Sub G] [Neg G] [Mul G] (n : ℕ)
    (poly : G → (ZMod 2)[X]) (f : (ZMod 2)[X]) : Prop where
  /-- the modulus has degree `n` and leading coefficient one -/
  monic : f.Monic
  natDegree : f.natDegree = n
  /-- elements are exactly the polynomials of degree below `n` -/
  bij : ∀ p : (ZMod 2)[X], p.degree < n → ∃! a, poly a = p
  degree : ∀ a, (poly a).degree < n
  zero : poly 0 = 0
  one : poly 1 = 1
  add : ∀ a b, poly (a + b) = poly a + poly b
  sub : ∀ a b, poly (a - b) = poly a - poly b
  neg : ∀ a, poly (-a) = -poly a
  mul : ∀ a b, poly (a * b) = (poly a * poly b) %ₘ f

end Libff
