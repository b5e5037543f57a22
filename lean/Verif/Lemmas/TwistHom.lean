import Verif.Lemmas.Curve
import Verif.Spec.Lines
import Verif.Lemmas.LineRecip

/-!
# Embeddings of curves and their action on lines

`(x, y) ↦ (cx σ(x), cy σ(y))` for a field embedding `σ : K →+* L`: base change, untwisting and the Frobenius endomorphism.
-/
namespace Libff
open WeierstrassCurve Affine

variable {K L : Type*} [Field K] [DecidableEq K] [Field L] [DecidableEq L] {a₂ a₄ a₆ : K} {b₂ b₄ b₆ : L}

/-- The conditions under which `(x, y) ↦ (cx σ(x), cy σ(y))` maps `y² = x³ + a₂ x² + a₄ x + a₆` to
`y² = x³ + b₂ x² + b₄ x + b₆`. -/
structure TwistHom (σ : K →+* L) (a₂ a₄ a₆ : K) (b₂ b₄ b₆ cx cy : L) : Prop where
  ne : cx ≠ 0
  sq : cy ^ 2 = cx ^ 3
  e₂ : cx * σ a₂ = b₂
  e₄ : cx ^ 2 * σ a₄ = b₄
  e₆ : cx ^ 3 * σ a₆ = b₆

namespace TwistHom
variable {σ : K →+* L} {cx cy : L} (h : TwistHom σ a₂ a₄ a₆ b₂ b₄ b₆ cx cy)
include h

omit [DecidableEq K] [DecidableEq L] in
theorem cy_ne : cy ≠ 0 := fun h0 => pow_ne_zero 3 h.ne (by rw [← h.sq, h0]; ring)

omit [DecidableEq K] [DecidableEq L] in
theorem nonsingular {x y : K} (hP : (weier a₂ a₄ a₆).Nonsingular x y) :
    (weier b₂ b₄ b₆).Nonsingular (cx * σ x) (cy * σ y) := by
  rw [nonsingular_iff] at hP ⊢
  obtain ⟨h1, h2⟩ := hP
  constructor
  · rw [weier_equation] at h1 ⊢
    have h1 := congrArg σ h1
    simp only [map_pow, map_add, map_mul] at h1
    have := h.e₂; have := h.e₄; have := h.e₆
    linear_combination σ y ^ 2 * h.sq + cx ^ 3 * h1 + (σ x) ^ 2 * cx ^ 2 * h.e₂ + σ x * cx * h.e₄ + h.e₆
  · simp only [weier, zero_mul, sub_zero] at h2 ⊢
    refine h2.imp (fun h3 h4 => h3 ?_) (fun h3 h4 => h3 ?_)
    · have h5 : cx ^ 2 * σ (3 * x ^ 2 + 2 * a₂ * x + a₄) = 0 := by
        simp only [map_pow, map_add, map_mul, map_ofNat]
        linear_combination h.e₄ + 2 * σ x * cx * h.e₂ - h4
      have := (mul_eq_zero.1 h5).resolve_left (pow_ne_zero 2 h.ne)
      exact ((map_eq_zero σ).1 this).symm
    · have h5 : cy * σ (y + y) = 0 := by
        simp only [map_add]
        linear_combination h4
      have := (map_eq_zero σ).1 ((mul_eq_zero.1 h5).resolve_left h.cy_ne)
      linear_combination this

/-- The map on points. -/
def map : (weier a₂ a₄ a₆).Point → (weier b₂ b₄ b₆).Point
  | .zero => 0
  | .some x y hP => .some (cx * σ x) (cy * σ y) (h.nonsingular hP)

omit [DecidableEq K] [DecidableEq L] in
theorem map_zero : h.map 0 = 0 := rfl

omit [DecidableEq K] [DecidableEq L] in
theorem map_some {x y : K} (hP) : h.map (.some x y hP) = .some (cx * σ x) (cy * σ y) (h.nonsingular hP) := rfl

theorem map_add (h2 : (2 : L) ≠ 0) (P Q : (weier a₂ a₄ a₆).Point) : h.map (P + Q) = h.map P + h.map Q := by
  rcases P with _ | ⟨x₁, y₁, h₁⟩
  · change h.map (0 + Q) = h.map 0 + h.map Q
    rw [zero_add, h.map_zero, zero_add]
  rcases Q with _ | ⟨x₂, y₂, h₂⟩
  · change h.map (Point.some x₁ y₁ h₁ + 0) = h.map (Point.some x₁ y₁ h₁) + h.map 0
    rw [add_zero, h.map_zero, add_zero]
  have hcx := h.ne
  have hcy := h.cy_ne
  have hl : cy / cx * (cy / cx) = cx := by
    field_simp
    linear_combination h.sq
  by_cases hx : x₁ = x₂
  · subst hx
    by_cases hy : y₂ = -y₁
    · rw [weier_add_inv hy, h.map_zero, h.map_some, h.map_some, weier_add_inv]
      rw [hy, _root_.map_neg]; ring
    · have hyy : y₁ = y₂ := by
        by_contra hne
        exact hy (weier_y_of_x h₁ h₂ hne)
      subst hyy
      have hy0 : y₁ ≠ 0 := fun h0 => hy (by rw [h0, neg_zero])
      have h2' : (2 : K) ≠ 0 := fun h0 => h2 (by rw [← map_ofNat σ 2, h0, _root_.map_zero])
      obtain ⟨h3, e3⟩ := weier_dbl h2' (h := h₁) (h' := h₂) hy0 rfl rfl
      have hs0 : σ y₁ ≠ 0 := (map_ne_zero σ).2 hy0
      have hs : (3 * (cx * σ x₁) ^ 2 + 2 * b₂ * (cx * σ x₁) + b₄) / (2 * (cy * σ y₁)) =
          cy / cx * ((3 * σ x₁ ^ 2 + 2 * σ a₂ * σ x₁ + σ a₄) / (2 * σ y₁)) := by
        rw [div_mul_div_comm, div_eq_div_iff (by simp [h2, hs0, hcy]) (by simp [h2, hs0, hcx])]
        have e2 := h.e₂; have e4 := h.e₄
        linear_combination (-2 * σ y₁ * (3 * σ x₁ ^ 2 + 2 * σ a₂ * σ x₁ + σ a₄)) * h.sq
          - 4 * σ y₁ * cx ^ 2 * σ x₁ * h.e₂ - 2 * σ y₁ * cx * h.e₄
      rw [e3, h.map_some, h.map_some]
      symm
      refine (weier_dbl h2 (mul_ne_zero hcy hs0) ?_ ?_).choose_spec
      · rw [hs, mul_pow, pow_two (cy / cx), hl]
        simp only [_root_.map_sub, map_pow, map_div₀, _root_.map_add, map_mul, map_ofNat]
        linear_combination - h.e₂
      · rw [hs]
        simp only [_root_.map_sub, map_pow, map_div₀, _root_.map_add, map_mul, map_ofNat]
        have : cy = cy / cx * cx := by field_simp
        generalize cy / cx = t at this
        rw [this]; ring
  · have hsx : σ x₁ ≠ σ x₂ := fun h0 => hx (σ.injective h0)
    have hsx' : σ x₂ - σ x₁ ≠ 0 := sub_ne_zero.2 hsx.symm
    obtain ⟨h3, e3⟩ := weier_add_of_ne (h₁ := h₁) (h₂ := h₂) hx rfl rfl
    rw [e3, h.map_some, h.map_some, h.map_some]
    have hs : (cy * σ y₂ - cy * σ y₁) / (cx * σ x₂ - cx * σ x₁) = cy / cx * ((σ y₂ - σ y₁) / (σ x₂ - σ x₁)) := by
      rw [← mul_sub, ← mul_sub, mul_div_mul_comm]
    symm
    refine (weier_add_of_ne (fun h0 => hsx (mul_left_cancel₀ hcx h0)) ?_ ?_).choose_spec
    · rw [hs, mul_pow, pow_two (cy / cx), hl]
      simp only [_root_.map_sub, map_pow, map_div₀]
      linear_combination - h.e₂
    · rw [hs]
      simp only [_root_.map_sub, map_pow, map_div₀, map_mul]
      have : cy = cy / cx * cx := by field_simp
      generalize cy / cx = t at this
      rw [this]; ring

/-- The homomorphism. -/
def hom (h2 : (2 : L) ≠ 0) : (weier a₂ a₄ a₆).Point →+ (weier b₂ b₄ b₆).Point where
  toFun := h.map
  map_zero' := rfl
  map_add' := h.map_add h2


omit [DecidableEq K] [DecidableEq L] in
theorem map_injective : Function.Injective h.map := by
  intro P Q e
  cases P with
  | zero =>
    cases Q with
    | zero => rfl
    | some x y hxy => exact absurd e.symm (Point.some_ne_zero _)
  | some x y hxy =>
    cases Q with
    | zero => exact absurd e (Point.some_ne_zero _)
    | some x' y' hxy' =>
      rw [h.map_some, h.map_some] at e
      injection e with e1 e2
      have e1 := σ.injective (mul_left_cancel₀ h.ne e1)
      have e2 := σ.injective (mul_left_cancel₀ h.cy_ne e2)
      subst e1 e2
      rfl

/-- Lines that are not vertical map to lines. -/
theorem lineAt_map (h2 : (2 : L) ≠ 0) {A B : (weier a₂ a₄ a₆).Point} (hA : A ≠ 0) (hB : B ≠ 0) (hAB : A + B ≠ 0) (x y : K) :
    lineAt (h.map A) (h.map B) (cx * σ x) (cy * σ y) = cy * σ (lineAt A B x y) := by
  have hcx := h.ne
  have hcy := h.cy_ne
  cases A with
  | zero => exact absurd rfl hA
  | some x₁ y₁ h₁ =>
    cases B with
    | zero => exact absurd rfl hB
    | some x₂ y₂ h₂ =>
      have hxy : ¬(x₁ = x₂ ∧ y₁ = (weier a₂ a₄ a₆).negY x₂ y₂) := fun h => hAB (Point.add_of_Y_eq h.1 h.2)
      have hxy' : ¬(cx * σ x₁ = cx * σ x₂ ∧ cy * σ y₁ = (weier b₂ b₄ b₆).negY (cx * σ x₂) (cy * σ y₂)) := by
        rintro ⟨e1, e2⟩
        refine hxy ⟨σ.injective (mul_left_cancel₀ hcx e1), σ.injective (mul_left_cancel₀ hcy ?_)⟩
        rw [e2]; simp only [negY, weier, zero_mul, sub_zero, _root_.map_neg]; ring
      rw [h.map_some, h.map_some, lineAt, lineAt, if_neg hxy, if_neg hxy']
      have hs : (weier b₂ b₄ b₆).slope (cx * σ x₁) (cx * σ x₂) (cy * σ y₁) (cy * σ y₂) =
          cy / cx * σ ((weier a₂ a₄ a₆).slope x₁ x₂ y₁ y₂) := by
        by_cases hx : x₁ = x₂
        · subst hx
          have hy : y₁ ≠ (weier a₂ a₄ a₆).negY x₁ y₂ := fun h0 => hxy ⟨rfl, h0⟩
          have hy' : cy * σ y₁ ≠ (weier b₂ b₄ b₆).negY (cx * σ x₁) (cy * σ y₂) := fun h0 => hxy' ⟨rfl, h0⟩
          have hyy : y₁ = y₂ := Y_eq_of_Y_ne h₁.left h₂.left rfl hy
          subst hyy
          rw [slope_of_Y_ne rfl hy', slope_of_Y_ne rfl hy]
          have h0 : σ (y₁ - (weier a₂ a₄ a₆).negY x₁ y₁) ≠ 0 := (map_ne_zero σ).2 (sub_ne_zero.2 hy)
          have e0 : cy * σ y₁ - (weier b₂ b₄ b₆).negY (cx * σ x₁) (cy * σ y₁) = cy * σ (y₁ - (weier a₂ a₄ a₆).negY x₁ y₁) := by
            simp only [negY, weier, zero_mul, sub_zero, _root_.map_neg, _root_.map_sub]; ring
          rw [e0, map_div₀, div_mul_div_comm, div_eq_div_iff (mul_ne_zero hcy h0) (mul_ne_zero hcx h0)]
          generalize σ (y₁ - (weier a₂ a₄ a₆).negY x₁ y₁) = t
          simp only [weier, zero_mul, sub_zero, _root_.map_add, map_mul, map_pow, map_ofNat]
          linear_combination (-t * (3 * σ x₁ ^ 2 + 2 * σ a₂ * σ x₁ + σ a₄)) * h.sq
            - 2 * t * cx ^ 2 * σ x₁ * h.e₂ - t * cx * h.e₄
        · rw [slope_of_X_ne hx, slope_of_X_ne (fun h0 => hx (σ.injective (mul_left_cancel₀ hcx h0))), ← mul_sub, ← mul_sub,
            mul_div_mul_comm, map_div₀, _root_.map_sub, _root_.map_sub]
      rw [hs]
      simp only [_root_.map_sub, _root_.map_add, map_mul]
      field_simp

end TwistHom
end Libff
