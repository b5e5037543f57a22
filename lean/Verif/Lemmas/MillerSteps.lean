import Verif.Lemmas.Curve
import Verif.Spec.Lines
import Mathlib.Tactic.LinearCombination
import Mathlib.Tactic.FieldSimp

/-!
# The formulas of the Miller steps

Doubling and mixed addition in homogeneous coordinates (alt_bn128, bls12_381) and in Jacobian coordinates (mnt4, mnt6), with
the equations of the tangent and of the chord.
-/
namespace Libff
open WeierstrassCurve Affine

variable {F : Type*} [Field F] [DecidableEq F]

section
variable {a₂ a₄ a₆ : F}

theorem lineAt_of_X_ne {x₁ y₁ x₂ y₂ : F} {h₁ : (weier a₂ a₄ a₆).Nonsingular x₁ y₁} {h₂ : (weier a₂ a₄ a₆).Nonsingular x₂ y₂}
    (hx : x₁ ≠ x₂) (x y : F) :
    lineAt (Point.some x₁ y₁ h₁) (Point.some x₂ y₂ h₂) x y = y - ((y₁ - y₂) / (x₁ - x₂) * (x - x₁) + y₁) := by
  rw [lineAt, if_neg (fun h => hx h.1), slope_of_X_ne hx]

theorem lineAt_tangent {x₁ y₁ : F} (h2 : (2 : F) ≠ 0) {h₁ h₂ : (weier a₂ a₄ a₆).Nonsingular x₁ y₁} (hy : y₁ ≠ 0) (x y : F) :
    lineAt (Point.some x₁ y₁ h₁) (Point.some x₁ y₁ h₂) x y =
      y - ((3 * x₁ ^ 2 + 2 * a₂ * x₁ + a₄) / (2 * y₁) * (x - x₁) + y₁) := by
  have hne : y₁ ≠ (weier a₂ a₄ a₆).negY x₁ y₁ := by
    simp only [weier, negY, zero_mul, sub_zero]
    intro h
    exact mul_ne_zero h2 hy (by linear_combination h)
  rw [lineAt, if_neg (fun h => hne h.2), slope_of_Y_ne rfl hne]
  simp only [weier, negY, zero_mul, sub_zero, sub_neg_eq_add, ← two_mul]

theorem lineAt_vertical {x₁ y₁ y₂ : F} {h₁ : (weier a₂ a₄ a₆).Nonsingular x₁ y₁} {h₂ : (weier a₂ a₄ a₆).Nonsingular x₁ y₂}
    (hy : y₁ = -y₂) (x y : F) : lineAt (Point.some x₁ y₁ h₁) (Point.some x₁ y₂ h₂) x y = x - x₁ := by
  rw [lineAt, if_pos]
  simpa [weier, negY] using hy

end

/-! ## Homogeneous coordinates -/

section
variable {b : F}

/-- The doubling step of alt_bn128 and bls12_381. -/
theorem proj_double_step (h2 : (2 : F) ≠ 0) (h3 : (3 : F) ≠ 0) {half : F} (hh : half = 2⁻¹) {X Y Z : F} {A : (sw 0 b).Point} (hA : A ≠ 0)
    (hR : ProjRep ⟨X, Y, Z⟩ A) :
    ProjRep ⟨half * (X * Y) * (Y * Y - 9 * b * Z ^ 2), (half * (Y * Y + 9 * b * Z ^ 2)) ^ 2 - 27 * b ^ 2 * Z ^ 4, Y * Y * (2 * Y * Z)⟩
      (A + A) ∧
    IsLine A A (3 * b * Z ^ 2 - Y ^ 2) (-(2 * Y * Z)) (3 * X ^ 2) := by
  subst hh
  cases A with
  | zero => exact absurd rfl hA
  | some x y h =>
    obtain ⟨hZ, hX, hY⟩ := hR
    simp only at hZ hX hY
    subst hX hY
    have he := weier_equation.1 h.1
    by_cases hy : y = 0
    · subst hy
      have hx : x ≠ 0 := by
        rintro rfl
        have := ((nonsingular_iff _ _).1 h).2
        simp [weier] at this
      constructor
      · rw [weier_add_inv (by simp)]
        exact ⟨by ring, by ring⟩
      · refine ⟨3 * (x * Z) ^ 2, mul_ne_zero h3 (pow_ne_zero 2 (mul_ne_zero hx hZ)), fun u v => ?_⟩
        rw [lineAt_vertical (by simp)]
        linear_combination -3 * Z ^ 2 * he
    · constructor
      · obtain ⟨h', e⟩ := weier_dbl h2 (h := h) (h' := h) hy rfl rfl
        rw [e]
        refine ⟨mul_ne_zero (mul_ne_zero (mul_ne_zero hy hZ) (mul_ne_zero hy hZ))
          (mul_ne_zero (mul_ne_zero h2 (mul_ne_zero hy hZ)) hZ), ?_, ?_⟩
        · have : b = y ^ 2 - x ^ 3 := by linear_combination -he
          subst this
          simp only
          field_simp
          ring
        · have : b = y ^ 2 - x ^ 3 := by linear_combination -he
          subst this
          simp only
          field_simp
          ring
      · refine ⟨-(2 * (y * Z) * Z), neg_ne_zero.2 (mul_ne_zero (mul_ne_zero h2 (mul_ne_zero hy hZ)) hZ), fun u v => ?_⟩
        rw [lineAt_tangent h2 hy]
        field_simp
        linear_combination -3 * he

/-- The mixed addition step of alt_bn128 and bls12_381. -/
theorem proj_add_step {X Y Z x₂ y₂ : F} {A : (sw 0 b).Point} {h₂ : (sw 0 b).Nonsingular x₂ y₂} (hA : A ≠ 0)
    (hAB : A ≠ Point.some x₂ y₂ h₂) (hR : ProjRep ⟨X, Y, Z⟩ A) {d e j : F} (hd : d = X - x₂ * Z) (he : e = Y - y₂ * Z)
    (hj : j = d ^ 3 + Z * e ^ 2 - 2 * (X * d ^ 2)) :
    ProjRep ⟨d * j, e * (X * d ^ 2 - j) - d ^ 3 * Y, Z * d ^ 3⟩ (A + Point.some x₂ y₂ h₂) ∧
    IsLine A (Point.some x₂ y₂ h₂) (e * x₂ - d * y₂) d (-e) := by
  cases A with
  | zero => exact absurd rfl hA
  | some x y h =>
    obtain ⟨hZ, hX, hY⟩ := hR
    simp only at hZ hX hY
    subst hX hY
    obtain rfl : d = (x - x₂) * Z := by rw [hd]; ring
    obtain rfl : e = (y - y₂) * Z := by rw [he]; ring
    by_cases hx : x = x₂
    · subst hx
      have hyy : y ≠ y₂ := by rintro rfl; exact hAB rfl
      have hy2 := weier_y_of_x h h₂ hyy
      constructor
      · rw [weier_add_inv hy2]
        exact ⟨by simp only; ring, by simp only; ring⟩
      · refine ⟨-((y - y₂) * Z), neg_ne_zero.2 (mul_ne_zero (sub_ne_zero.2 hyy) hZ), fun u v => ?_⟩
        rw [lineAt_vertical (by rw [hy2]; ring)]
        ring
    · have hx' : x - x₂ ≠ 0 := sub_ne_zero.2 hx
      have hx'' : x₂ - x ≠ 0 := sub_ne_zero.2 (Ne.symm hx)
      constructor
      · obtain ⟨h', e'⟩ := weier_add_of_ne (h₁ := h) (h₂ := h₂) hx rfl rfl
        rw [e']
        have hs : (y₂ - y) / (x₂ - x) = (y - y₂) / (x - x₂) := by rw [div_eq_div_iff hx'' hx']; ring
        refine ⟨mul_ne_zero hZ (pow_ne_zero 3 (mul_ne_zero hx' hZ)), ?_, ?_⟩
        · simp only [hj, hs]
          field_simp
          ring
        · simp only [hj, hs]
          field_simp
          ring
      · refine ⟨(x - x₂) * Z, mul_ne_zero hx' hZ, fun u v => ?_⟩
        rw [lineAt_of_X_ne hx]
        field_simp
        ring
end

/-! ## Jacobian coordinates -/

section
variable {a b : F}

/-- The doubling step of mnt4 and mnt6. -/
theorem jac_double_step (h2 : (2 : F) ≠ 0) {X Y Z : F} {A : (sw a b).Point} (hA : A + A ≠ 0) (hR : JacRep ⟨X, Y, Z⟩ A) {f : F}
    (hf : f = 3 * X ^ 2 + a * (Z ^ 2) ^ 2) :
    JacRep ⟨f ^ 2 - 8 * X * Y ^ 2, f * (4 * X * Y ^ 2 - (f ^ 2 - 8 * X * Y ^ 2)) - 8 * Y ^ 4, 2 * Y * Z⟩ (A + A) ∧
    IsLine A A (2 * f * X - 4 * Y ^ 2) (2 * (2 * Y * Z) * Z ^ 2) (-(2 * f * Z ^ 2)) := by
  cases A with
  | zero => exact absurd (add_zero (0 : (sw a b).Point)) hA
  | some x y h =>
    obtain ⟨hZ, hX, hY⟩ := hR
    simp only at hZ hX hY
    subst hX hY
    have hy : y ≠ 0 := by
      rintro rfl
      exact hA (weier_add_inv (by simp))
    constructor
    · obtain ⟨h', e⟩ := weier_dbl h2 (h := h) (h' := h) hy rfl rfl
      rw [e]
      refine ⟨mul_ne_zero (mul_ne_zero h2 (mul_ne_zero hy (pow_ne_zero 3 hZ))) hZ, ?_, ?_⟩
      · simp only [hf]
        field_simp
        ring
      · simp only [hf]
        field_simp
        ring
    · refine ⟨2 * (2 * (y * Z ^ 3) * Z) * Z ^ 2, mul_ne_zero (mul_ne_zero h2 (mul_ne_zero (mul_ne_zero h2 (mul_ne_zero hy
        (pow_ne_zero 3 hZ))) hZ)) (pow_ne_zero 2 hZ), fun u v => ?_⟩
      rw [lineAt_tangent h2 hy, hf]
      field_simp
      ring

/-- The mixed addition step of mnt4 and mnt6. -/
theorem jac_add_step (h2 : (2 : F) ≠ 0) {X Y Z x₂ y₂ : F} {A : (sw a b).Point} {h₂ : (sw a b).Nonsingular x₂ y₂} (hA : A ≠ 0)
    (hAB : A ≠ Point.some x₂ y₂ h₂) (hAB' : A + Point.some x₂ y₂ h₂ ≠ 0) (hR : JacRep ⟨X, Y, Z⟩ A) {h l : F} (hh : h = x₂ * Z ^ 2 - X)
    (hl : l = 2 * y₂ * Z * Z ^ 2 - 2 * Y) {X₃ : F} (hX3 : X₃ = l ^ 2 - 4 * h ^ 3 - 8 * X * h ^ 2) :
    JacRep ⟨X₃, l * (4 * X * h ^ 2 - X₃) - 8 * Y * h ^ 3, 2 * Z * h⟩ (A + Point.some x₂ y₂ h₂) ∧
    IsLine A (Point.some x₂ y₂ h₂) (l * x₂ - 2 * Z * h * y₂) (2 * Z * h) (-l) := by
  cases A with
  | zero => exact absurd rfl hA
  | some x y h₁ =>
    obtain ⟨hZ, hX, hY⟩ := hR
    simp only at hZ hX hY
    subst hX hY
    obtain rfl : h = (x₂ - x) * Z ^ 2 := by rw [hh]; ring
    obtain rfl : l = 2 * (y₂ - y) * Z ^ 3 := by rw [hl]; ring
    have hx : x ≠ x₂ := by
      rintro rfl
      have hyy : y ≠ y₂ := by rintro rfl; exact hAB rfl
      exact hAB' (weier_add_inv (weier_y_of_x h₁ h₂ hyy))
    have hx' : x - x₂ ≠ 0 := sub_ne_zero.2 hx
    have hx'' : x₂ - x ≠ 0 := sub_ne_zero.2 (Ne.symm hx)
    constructor
    · obtain ⟨h', e'⟩ := weier_add_of_ne (h₁ := h₁) (h₂ := h₂) hx rfl rfl
      rw [e']
      refine ⟨mul_ne_zero (mul_ne_zero h2 hZ) (mul_ne_zero hx'' (pow_ne_zero 2 hZ)), ?_, ?_⟩
      · simp only [hX3]
        field_simp
        ring
      · simp only [hX3]
        field_simp
        ring
    · refine ⟨2 * Z * ((x₂ - x) * Z ^ 2), mul_ne_zero (mul_ne_zero h2 hZ) (mul_ne_zero hx'' (pow_ne_zero 2 hZ)), fun u v => ?_⟩
      rw [lineAt_of_X_ne hx]
      have hs : (y - y₂) / (x - x₂) = (y₂ - y) / (x₂ - x) := by rw [div_eq_div_iff hx' hx'']; ring
      rw [hs]
      field_simp
      ring
end
end Libff
