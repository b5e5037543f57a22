import Verif.Lemmas.LineCocycle
import Verif.Lemmas.Curve

/-!
# Reciprocity for lines

For lines `l`, `m` that meet the curve in `A₁, A₂, A₃` and `P₁, P₂, P₃`, the product of the values of `l` at the `Pᵢ` is
minus the product of the values of `m` at the `Aᵢ`: both are the value of a cubic at the point where the lines meet.
-/
namespace Libff
open WeierstrassCurve Affine Polynomial

variable {F : Type*} [Field F] [DecidableEq F] {a₂ a₄ a₆ : F}

/-- The abscissas of the three points on a line. -/
theorem slope_vieta {x₁ y₁ x₂ y₂ : F} (h₁ : (weier a₂ a₄ a₆).Equation x₁ y₁) (h₂ : (weier a₂ a₄ a₆).Equation x₂ y₂)
    (hxy : ¬(x₁ = x₂ ∧ y₁ = (weier a₂ a₄ a₆).negY x₂ y₂)) {ℓ x₃ : F} (hℓ : ℓ = (weier a₂ a₄ a₆).slope x₁ x₂ y₁ y₂)
    (h₃ : x₃ = (weier a₂ a₄ a₆).addX x₁ x₂ ℓ) :
    x₁ + x₂ + x₃ = ℓ ^ 2 - a₂ ∧ x₁ * x₂ + x₁ * x₃ + x₂ * x₃ = a₄ - 2 * ℓ * (y₁ - ℓ * x₁) ∧
      x₁ * x₂ * x₃ = (y₁ - ℓ * x₁) ^ 2 - a₆ := by
  have h := addPolynomial_slope h₁ h₂ hxy
  rw [← hℓ, ← h₃, addPolynomial_eq, neg_inj, Cubic.prod_X_sub_C_eq, Cubic.toPoly_injective] at h
  have hb := congrArg Cubic.b h
  have hc := congrArg Cubic.c h
  have hd := congrArg Cubic.d h
  simp only [weier] at hb hc hd
  refine ⟨by linear_combination hb, by linear_combination -hc, by linear_combination hd⟩

/-- A line that is not vertical, and the points where it meets the curve. -/
theorem line_sloped (A B : (weier a₂ a₄ a₆).Point) (hA : A ≠ 0) (hB : B ≠ 0) (hAB : A + B ≠ 0) :
    ∃ x₁ y₁ h₁ x₂ y₂ h₂ x₃ y₃ h₃ ℓ ν, A = .some x₁ y₁ h₁ ∧ B = .some x₂ y₂ h₂ ∧ A + B = .some x₃ y₃ h₃ ∧
      (∀ x y, lineAt A B x y = y - (ℓ * x + ν)) ∧ y₁ = ℓ * x₁ + ν ∧ y₂ = ℓ * x₂ + ν ∧ -y₃ = ℓ * x₃ + ν ∧
      x₁ + x₂ + x₃ = ℓ ^ 2 - a₂ ∧ x₁ * x₂ + x₁ * x₃ + x₂ * x₃ = a₄ - 2 * ℓ * ν ∧ x₁ * x₂ * x₃ = ν ^ 2 - a₆ := by
  cases A with
  | zero => exact absurd rfl hA
  | some x₁ y₁ h₁ =>
    cases B with
    | zero => exact absurd rfl hB
    | some x₂ y₂ h₂ =>
      have hxy : ¬(x₁ = x₂ ∧ y₁ = (weier a₂ a₄ a₆).negY x₂ y₂) := fun h => hAB (Point.add_of_Y_eq h.1 h.2)
      obtain ⟨e1, e2, e3⟩ := slope_vieta h₁.left h₂.left hxy rfl rfl
      refine ⟨x₁, y₁, h₁, x₂, y₂, h₂, _, _, _, (weier a₂ a₄ a₆).slope x₁ x₂ y₁ y₂,
        y₁ - (weier a₂ a₄ a₆).slope x₁ x₂ y₁ y₂ * x₁, rfl, rfl, Point.add_some hxy, ?_, by ring, ?_, ?_, e1, e2, e3⟩
      · intro x y
        simp only [lineAt, if_neg hxy]
        ring
      · by_cases hx : x₁ = x₂
        · have hy : y₁ ≠ (weier a₂ a₄ a₆).negY x₂ y₂ := fun h => hxy ⟨hx, h⟩
          obtain rfl := hx
          rw [Y_eq_of_Y_ne h₁.left h₂.left rfl hy]
          ring
        · rw [slope_of_X_ne hx]
          have : x₁ - x₂ ≠ 0 := sub_ne_zero.2 hx
          field_simp
          ring
      · simp only [addY, negAddY, negY]
        simp only [weier]
        ring

/-- The line through `A` and `B` is the line through `B` and `A`. -/
theorem lineAt_comm (A B : (weier a₂ a₄ a₆).Point) (x y : F) : lineAt A B x y = lineAt B A x y := by
  cases A with
  | zero => cases B <;> rfl
  | some x₁ y₁ h₁ =>
    cases B with
    | zero => rfl
    | some x₂ y₂ h₂ =>
      by_cases hxy : x₁ = x₂ ∧ y₁ = (weier a₂ a₄ a₆).negY x₂ y₂
      · have hyx : x₂ = x₁ ∧ y₂ = (weier a₂ a₄ a₆).negY x₁ y₁ := by
          obtain ⟨rfl, rfl⟩ := hxy
          exact ⟨rfl, by rw [negY_negY]⟩
        rw [lineAt, lineAt, if_pos hxy, if_pos hyx, hxy.1]
      · have hyx : ¬(x₂ = x₁ ∧ y₂ = (weier a₂ a₄ a₆).negY x₁ y₁) := by
          rintro ⟨rfl, rfl⟩
          exact hxy ⟨rfl, by rw [negY_negY]⟩
        simp only [lineAt, if_neg hxy, if_neg hyx]
        by_cases hx : x₁ = x₂
        · have hy : y₁ ≠ (weier a₂ a₄ a₆).negY x₂ y₂ := fun h => hxy ⟨hx, h⟩
          obtain rfl := hx
          rw [Y_eq_of_Y_ne h₁.left h₂.left rfl hy]
        · rw [slope_of_X_ne hx, slope_of_X_ne (Ne.symm hx)]
          have h1 : x₁ - x₂ ≠ 0 := sub_ne_zero.2 hx
          have h2 : x₂ - x₁ ≠ 0 := sub_ne_zero.2 (Ne.symm hx)
          rw [← neg_sub x₁ x₂, ← neg_sub y₁ y₂, neg_div_neg_eq]
          field_simp
          ring

theorem lineVal_comm (A B P : (weier a₂ a₄ a₆).Point) : lineVal A B P = lineVal B A P := by
  cases P with
  | zero => rfl
  | some x y h => exact lineAt_comm A B x y

/-- The vertical line through `A`, at the point `P`. -/
def vertVal {W : Affine F} (A : W.Point) : W.Point → F
  | .zero => 1
  | .some x _ _ => vertAt A x

theorem vertVal_comm {W : Affine F} (A P : W.Point) : vertVal A P = vertVal P A ∨ vertVal A P = -vertVal P A := by
  cases A <;> cases P
  · exact Or.inl rfl
  · exact Or.inl rfl
  · exact Or.inl rfl
  · exact Or.inr (neg_sub _ _).symm

/-- A line at a point and its negative. -/
theorem lineVal_neg {A B P : (weier a₂ a₄ a₆).Point} (hA : A ≠ 0) (hB : B ≠ 0) (hAB : A + B ≠ 0) (hP : P ≠ 0) :
    lineVal A B P * lineVal A B (-P) = -(vertVal A P * vertVal B P * vertVal (A + B) P) := by
  obtain ⟨x₁, y₁, h₁, x₂, y₂, h₂, x₃, y₃, h₃, ℓ, ν, e₁, e₂, e₃, hl, f₁, f₂, f₃, v₁, v₂, v₃⟩ := line_sloped A B hA hB hAB
  cases P with
  | zero => exact absurd rfl hP
  | some x y h =>
    rw [Point.neg_some]
    simp only [lineVal, vertVal, hl]
    rw [e₁, e₂, ← e₁, ← e₂, e₃, e₁, e₂]
    simp only [vertAt, negY]
    have hE := weier_equation.1 h.left
    simp only [weier]
    linear_combination -hE - x ^ 2 * v₁ + x * v₂ - v₃

/-- **Reciprocity.** -/
theorem lineVal_recip {A B P R : (weier a₂ a₄ a₆).Point} (hA : A ≠ 0) (hB : B ≠ 0) (hAB : A + B ≠ 0)
    (hP : P ≠ 0) (hR : R ≠ 0) (hPR : P + R ≠ 0) :
    lineVal A B P * lineVal A B R * lineVal A B (-(P + R)) =
      -(lineVal P R A * lineVal P R B * lineVal P R (-(A + B))) := by
  obtain ⟨x₁, y₁, h₁, x₂, y₂, h₂, x₃, y₃, h₃, ℓ, ν, e₁, e₂, e₃, hl, f₁, f₂, f₃, v₁, v₂, v₃⟩ := line_sloped A B hA hB hAB
  obtain ⟨x₁', y₁', h₁', x₂', y₂', h₂', x₃', y₃', h₃', ℓ', ν', e₁', e₂', e₃', hl', f₁', f₂', f₃', v₁', v₂', v₃'⟩ :=
    line_sloped P R hP hR hPR
  have k : ∀ (Q : (weier a₂ a₄ a₆).Point) x y h, Q = .some x y h → lineVal A B Q = y - (ℓ * x + ν) := by
    rintro Q x y h rfl; exact hl x y
  have k' : ∀ (Q : (weier a₂ a₄ a₆).Point) x y h, Q = .some x y h → lineVal P R Q = y - (ℓ' * x + ν') := by
    rintro Q x y h rfl; exact hl' x y
  have n : ∀ (Q : (weier a₂ a₄ a₆).Point) x y h, Q = .some x y h → ∃ h', -Q = .some x (-y) h' := by
    rintro Q x y h rfl
    have : (weier a₂ a₄ a₆).negY x y = -y := by simp [negY, weier]
    rw [Point.neg_some]
    rw [← this]
    exact ⟨_, rfl⟩
  obtain ⟨_, n₃⟩ := n _ _ _ _ e₃
  obtain ⟨_, n₃'⟩ := n _ _ _ _ e₃'
  rw [k _ _ _ _ e₁', k _ _ _ _ e₂', k _ _ _ _ n₃', k' _ _ _ _ e₁, k' _ _ _ _ e₂, k' _ _ _ _ n₃, f₁, f₂, f₃, f₁', f₂', f₃']
  linear_combination (ℓ' - ℓ) ^ 3 * (v₃' - v₃) + (ℓ' - ℓ) ^ 2 * (ν' - ν) * (v₂' - v₂) + (ℓ' - ℓ) * (ν' - ν) ^ 2 * (v₁' - v₁)

end Libff
