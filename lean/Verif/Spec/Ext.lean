import Verif.Model.Ext
import Mathlib.RingTheory.AdjoinRoot

/-!
# Specification of extension-field arithmetic

The mathematical object is Mathlib's `K[X] / (f)` (`AdjoinRoot f`).
-/
namespace Libff
open Polynomial

/-- The adjoined root `X` of a quadratic extension. -/
def Quad.gen {K : Type*} {nr : K → K} [Zero K] [One K] : Quad K nr := ⟨0, 1⟩

/-- The adjoined root `X` of a cubic extension. -/
def Cubic.gen {K : Type*} {nr : K → K} [Zero K] [One K] : Cubic K nr := ⟨0, 1, 0⟩

/-- The polynomial `X² - β`. -/
noncomputable def Quad.poly {K : Type*} [CommRing K] (β : K) : K[X] := X ^ 2 - C β

/-- The polynomial `X³ - β`. -/
noncomputable def Cubic.poly {K : Type*} [CommRing K] (β : K) : K[X] := X ^ 3 - C β

/-- Pairs with the library's operations are `K[X] / (X² - β)`: the pair `(c0, c1)` is `c0 + c1·X`, and
each library operation computes the operation of that ring. -/
structure IsQuadraticExtension {K : Type*} [CommRing K] [Squared K] {nr : K → K} (β : K)
    (φ : Quad K nr ≃ AdjoinRoot (Quad.poly β)) : Prop where
  coords : ∀ x, φ x = AdjoinRoot.of _ x.c0 + AdjoinRoot.of _ x.c1 * AdjoinRoot.root _
  zero : φ 0 = 0
  one : φ 1 = 1
  add : ∀ x y, φ (x + y) = φ x + φ y
  sub : ∀ x y, φ (x - y) = φ x - φ y
  neg : ∀ x, φ (-x) = -φ x
  mul : ∀ x y, φ (x * y) = φ x * φ y
  squared : ∀ x, φ (squared x) = φ x ^ 2
  squared_karatsuba : ∀ x, φ (Quad.squaredKaratsuba x) = φ x ^ 2
  scale : ∀ a x, φ (Quad.scale (· * ·) a x) = AdjoinRoot.of _ a * φ x

/-- Triples with the library's operations are `K[X] / (X³ - β)`: `(c0, c1, c2)` is
`c0 + c1·X + c2·X²`. -/
structure IsCubicExtension {K : Type*} [CommRing K] [Squared K] {nr : K → K} (β : K)
    (φ : Cubic K nr ≃ AdjoinRoot (Cubic.poly β)) : Prop where
  coords : ∀ x, φ x = AdjoinRoot.of _ x.c0 + AdjoinRoot.of _ x.c1 * AdjoinRoot.root _ +
    AdjoinRoot.of _ x.c2 * AdjoinRoot.root _ ^ 2
  zero : φ 0 = 0
  one : φ 1 = 1
  add : ∀ x y, φ (x + y) = φ x + φ y
  sub : ∀ x y, φ (x - y) = φ x - φ y
  neg : ∀ x, φ (-x) = -φ x
  mul : ∀ x y, φ (x * y) = φ x * φ y
  squared : ∀ x, φ (squared x) = φ x ^ 2
  scale : ∀ a x, φ (Cubic.scale (· * ·) a x) = AdjoinRoot.of _ a * φ x

/-- `inverse()` of a field type: rejected (assertion) on zero, and on every other element it returns
the element whose product with the argument is one. -/
def InvertsExactly {L : Type*} [Zero L] [One L] [Mul L] [InverseO L] : Prop :=
  inverseO (0 : L) = .abort ∧ ∀ x : L, x ≠ 0 → ∃ y, inverseO x = .ok y ∧ x * y = 1

end Libff
