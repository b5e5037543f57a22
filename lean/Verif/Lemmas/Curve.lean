import Verif.Spec.Curve
import Verif.Lemmas.Quad
import Mathlib.Tactic.FieldSimp
import Mathlib.Tactic.LinearCombination

/-!
# The group law on `weier a₂ a₄ a₆` by chords and tangents
-/
namespace Libff
open WeierstrassCurve Affine

variable {K : Type*} [Field K] [DecidableEq K] {a₂ a₄ a₆ : K}

omit [DecidableEq K] in
theorem weier_equation {x y : K} :
    (weier a₂ a₄ a₆).Equation x y ↔ y ^ 2 = x ^ 3 + a₂ * x ^ 2 + a₄ * x + a₆ := by
  rw [equation_iff]
  simp [weier]

omit [DecidableEq K] in
theorem weier_some_eq {x y x' y' : K} {h : (weier a₂ a₄ a₆).Nonsingular x y} (hx : x' = x) (hy : y' = y) :
    ∃ h' : (weier a₂ a₄ a₆).Nonsingular x' y', Point.some x y h = Point.some x' y' h' := by
  subst hx hy
  exact ⟨h, rfl⟩

/-- The chord. -/
theorem weier_add_of_ne {x₁ y₁ x₂ y₂ x₃ y₃ : K} {h₁ : (weier a₂ a₄ a₆).Nonsingular x₁ y₁}
    {h₂ : (weier a₂ a₄ a₆).Nonsingular x₂ y₂} (hx : x₁ ≠ x₂)
    (e₁ : x₃ = ((y₂ - y₁) / (x₂ - x₁)) ^ 2 - a₂ - x₁ - x₂)
    (e₂ : y₃ = (y₂ - y₁) / (x₂ - x₁) * (x₁ - x₃) - y₁) :
    ∃ h₃ : (weier a₂ a₄ a₆).Nonsingular x₃ y₃,
      Point.some x₁ y₁ h₁ + Point.some x₂ y₂ h₂ = Point.some x₃ y₃ h₃ := by
  rw [Point.add_of_X_ne hx]
  have hs : (y₁ - y₂) / (x₁ - x₂) = (y₂ - y₁) / (x₂ - x₁) := by
    rw [← neg_sub y₂ y₁, ← neg_sub x₂ x₁, neg_div_neg_eq]
  have ex : x₃ = (weier a₂ a₄ a₆).addX x₁ x₂ ((weier a₂ a₄ a₆).slope x₁ x₂ y₁ y₂) := by
    rw [slope_of_X_ne hx, hs, addX, e₁]
    simp [weier]
  refine weier_some_eq ex ?_
  rw [addY, negAddY, negY, ← ex, slope_of_X_ne hx, hs, e₂]
  simp only [weier]
  ring

/-- The tangent. -/
theorem weier_dbl {x y x₃ y₃ : K} (h2 : (2 : K) ≠ 0) {h h' : (weier a₂ a₄ a₆).Nonsingular x y} (hy : y ≠ 0)
    (e₁ : x₃ = ((3 * x ^ 2 + 2 * a₂ * x + a₄) / (2 * y)) ^ 2 - a₂ - x - x)
    (e₂ : y₃ = (3 * x ^ 2 + 2 * a₂ * x + a₄) / (2 * y) * (x - x₃) - y) :
    ∃ h₃ : (weier a₂ a₄ a₆).Nonsingular x₃ y₃,
      Point.some x y h + Point.some x y h' = Point.some x₃ y₃ h₃ := by
  have hne : y ≠ (weier a₂ a₄ a₆).negY x y := by
    simp only [weier, negY, zero_mul, sub_zero]
    intro h
    have : 2 * y = 0 := by linear_combination h
    exact (mul_ne_zero h2 hy) this
  have hs : (weier a₂ a₄ a₆).slope x x y y = (3 * x ^ 2 + 2 * a₂ * x + a₄) / (2 * y) := by
    rw [slope_of_Y_ne rfl hne]
    simp only [weier, negY, zero_mul, sub_zero]
    congr 1
    ring
  rw [Point.add_of_Y_ne hne]
  have ex : x₃ = (weier a₂ a₄ a₆).addX x x ((weier a₂ a₄ a₆).slope x x y y) := by
    rw [hs, addX, e₁]
    simp [weier]
  refine weier_some_eq ex ?_
  rw [addY, negAddY, negY, ← ex, hs, e₂]
  simp only [weier]
  ring

/-- Vertical chords and tangents. -/
theorem weier_add_inv {x y y' : K} {h : (weier a₂ a₄ a₆).Nonsingular x y}
    {h' : (weier a₂ a₄ a₆).Nonsingular x y'} (hy : y' = -y) :
    Point.some x y h + Point.some x y' h' = 0 := by
  apply Point.add_of_Y_eq rfl
  simp [weier, negY, hy]

omit [DecidableEq K] in
/-- Two points with the same abscissa are equal or opposite. -/
theorem weier_y_of_x {x y y' : K} (h : (weier a₂ a₄ a₆).Nonsingular x y)
    (h' : (weier a₂ a₄ a₆).Nonsingular x y') (hne : y ≠ y') : y' = -y := by
  have e := weier_equation.1 h.1
  have e' := weier_equation.1 h'.1
  have : (y - y') * (y' + y) = 0 := by linear_combination e - e'
  rcases mul_eq_zero.1 this with h0 | h0
  · exact absurd (sub_eq_zero.1 h0) hne
  · exact eq_neg_of_add_eq_zero_left h0

omit [DecidableEq K] in
theorem weier_neg {x y : K} (h : (weier a₂ a₄ a₆).Nonsingular x y) :
    ∃ h', -Point.some x y h = Point.some x (-y) h' := by
  rw [Point.neg_some]
  exact weier_some_eq rfl (by simp [weier, negY])

omit [DecidableEq K] in
/-- On a curve with nonzero discriminant every solution of the equation is a point. -/
theorem weier_nonsingular {x y : K} (hΔ : (weier a₂ a₄ a₆).Δ ≠ 0) :
    (weier a₂ a₄ a₆).Nonsingular x y ↔ y ^ 2 = x ^ 3 + a₂ * x ^ 2 + a₄ * x + a₆ := by
  rw [← equation_iff_nonsingular_of_Δ_ne_zero hΔ, weier_equation]

omit [DecidableEq K] in
/-- The discriminant of `y² = x³ + a x + b`. -/
theorem sw_disc (a b : K) : (sw a b).Δ = -16 * (4 * a ^ 3 + 27 * b ^ 2) := by
  simp only [weier, WeierstrassCurve.Δ, WeierstrassCurve.b₂, WeierstrassCurve.b₄, WeierstrassCurve.b₆,
    WeierstrassCurve.b₈]
  ring

end Libff
