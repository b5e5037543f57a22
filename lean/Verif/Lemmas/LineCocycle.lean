import Verif.Spec.Lines
import Mathlib.RingTheory.Ideal.Operations
import Mathlib.Algebra.Polynomial.Degree.Domain
import Mathlib.Tactic.LinearCombination

/-!
# Lines form a cocycle

For points `A`, `B`, `C` of a Weierstrass curve the functions `L(A,B) L(A+B,C) V(B+C)` and `L(B,C) L(A,B+C) V(A+B)`
have the same zeros, so they agree up to a constant; the constant is a fourth root of unity. The proof is in the
coordinate ring of the curve: the ideals generated by the two are equal by Mathlib's `XYIdeal_mul_XYIdeal`, so they
differ by a unit, the units are constants, and the leading coefficients of the norms are `±1`.
-/
namespace Libff
open WeierstrassCurve Affine CoordinateRing Polynomial
open scoped Polynomial.Bivariate

variable {F : Type*} [Field F] [DecidableEq F] {W : Affine F}

/-- `vertAt` as an element of the coordinate ring. -/
noncomputable def vertR : W.Point → W.CoordinateRing
  | .zero => 1
  | .some x₁ _ _ => XClass W x₁

/-- `lineAt` as an element of the coordinate ring. -/
noncomputable def lineR : W.Point → W.Point → W.CoordinateRing
  | .zero, B => vertR B
  | .some x₁ _ _, .zero => XClass W x₁
  | .some x₁ y₁ _, .some x₂ y₂ _ =>
    if x₁ = x₂ ∧ y₁ = W.negY x₂ y₂ then XClass W x₁
    else YClass W (linePolynomial x₁ y₁ (W.slope x₁ x₂ y₁ y₂))

/-- The ideal of functions vanishing at `A`. -/
noncomputable def idealR : W.Point → Ideal W.CoordinateRing
  | .zero => ⊤
  | .some x₁ y₁ _ => XYIdeal W x₁ (C y₁)

omit [DecidableEq F] in
theorem vertR_ne_zero (A : W.Point) : vertR A ≠ 0 := by
  cases A with
  | zero => exact one_ne_zero
  | some x y h => exact XClass_ne_zero x

/-- What `lineR` is: a vertical line or a sloped one. -/
theorem lineR_cases (A B : W.Point) : lineR A B = 1 ∨ (∃ x, lineR A B = XClass W x) ∨
    ∃ x y ℓ, lineR A B = YClass W (linePolynomial x y ℓ) := by
  cases A with
  | zero =>
    cases B with
    | zero => exact Or.inl rfl
    | some x y h => exact Or.inr (Or.inl ⟨x, rfl⟩)
  | some x y h =>
    cases B with
    | zero => exact Or.inr (Or.inl ⟨x, rfl⟩)
    | some x' y' h' =>
      simp only [lineR]
      split_ifs
      · exact Or.inr (Or.inl ⟨x, rfl⟩)
      · exact Or.inr (Or.inr ⟨_, _, _, rfl⟩)

theorem lineR_ne_zero (A B : W.Point) : lineR A B ≠ 0 := by
  rcases lineR_cases A B with h | ⟨x, h⟩ | ⟨x, y, l, h⟩ <;> rw [h]
  · exact one_ne_zero
  · exact XClass_ne_zero x
  · exact YClass_ne_zero _

omit [DecidableEq F] in
/-- The ideal of a point times that of its negative is principal. -/
theorem idealR_neg_mul (A : W.Point) : idealR (-A) * idealR A = Ideal.span {vertR A} := by
  cases A with
  | zero =>
    show (⊤ : Ideal W.CoordinateRing) * ⊤ = Ideal.span {1}
    rw [Ideal.top_mul, Ideal.span_singleton_one]
  | some x y h => exact XYIdeal_neg_mul h

/-- The line through `A` and `B` meets the curve in `A`, `B` and `-(A+B)`. -/
theorem lineR_ideal (A B : W.Point) :
    Ideal.span {lineR A B} * idealR (A + B) = Ideal.span {vertR (A + B)} * (idealR A * idealR B) := by
  cases A with
  | zero =>
    rw [show (Point.zero : W.Point) + B = B from zero_add B]
    show Ideal.span {vertR B} * idealR B = Ideal.span {vertR B} * (⊤ * idealR B)
    rw [Ideal.top_mul]
  | some x y h =>
    cases B with
    | zero =>
      rw [show Point.some x y h + Point.zero = Point.some x y h from add_zero _]
      show Ideal.span {XClass W x} * idealR _ = Ideal.span {XClass W x} * (idealR _ * ⊤)
      rw [Ideal.mul_top]
    | some x' y' h' =>
      by_cases hxy : x = x' ∧ y = W.negY x' y'
      · obtain ⟨rfl, rfl⟩ := hxy
        rw [Point.add_of_Y_eq rfl rfl]
        simp only [lineR, and_self, if_true]
        show Ideal.span {XClass W x} * ⊤ = Ideal.span {1} * (XYIdeal W x (C (W.negY x y')) * XYIdeal W x (C y'))
        rw [XYIdeal_neg_mul h', Ideal.mul_top, Ideal.span_singleton_one, Ideal.top_mul]
        rfl
      · rw [Point.add_some hxy]
        simp only [lineR, if_neg hxy]
        exact (XYIdeal_mul_XYIdeal h.left h'.left hxy).symm

omit [DecidableEq F] in
/-- Equal products with the ideal of a point: the generators agree up to a unit. -/
theorem associated_of_idealR {a b : W.CoordinateRing} (S : W.Point)
    (h : Ideal.span {a} * idealR S = Ideal.span {b} * idealR S) : Associated a b := by
  have h' : Ideal.span {a * vertR S} = Ideal.span {b * vertR S} := by
    rw [← Ideal.span_singleton_mul_span_singleton, ← Ideal.span_singleton_mul_span_singleton, ← idealR_neg_mul,
      mul_left_comm, h, mul_left_comm]
  exact ((Ideal.span_singleton_eq_span_singleton.1 h').of_mul_right (Associated.refl _) (vertR_ne_zero S))

/-- The two sides of the cocycle identity generate the same ideal. -/
theorem cocycle_associated (A B C : W.Point) :
    Associated (lineR A B * lineR (A + B) C * vertR (B + C)) (lineR B C * lineR A (B + C) * vertR (A + B)) := by
  apply associated_of_idealR (A + B + C)
  have h1 := lineR_ideal A B
  have h2 := lineR_ideal (A + B) C
  have h3 := lineR_ideal B C
  have h4 := lineR_ideal A (B + C)
  rw [← add_assoc] at h4
  simp only [← Ideal.span_singleton_mul_span_singleton]
  generalize idealR (A + B + C) = S at *
  generalize idealR (A + B) = I at *
  generalize idealR (B + C) = J at *
  generalize idealR A = a at *
  generalize idealR B = b at *
  generalize idealR C = c at *
  calc Ideal.span {lineR A B} * Ideal.span {lineR (A + B) C} * Ideal.span {vertR (B + C)} * S
      = Ideal.span {lineR A B} * Ideal.span {vertR (B + C)} * (Ideal.span {lineR (A + B) C} * S) := by ring
    _ = (Ideal.span {lineR A B} * I) * (Ideal.span {vertR (B + C)} * (Ideal.span {vertR (A + B + C)} * c)) := by
        rw [h2]; ring
    _ = Ideal.span {vertR (B + C)} * Ideal.span {vertR (A + B + C)} * Ideal.span {vertR (A + B)} * (a * b * c) := by
        rw [h1]; ring
    _ = (Ideal.span {lineR B C} * J) * (Ideal.span {vertR (A + B)} * (Ideal.span {vertR (A + B + C)} * a)) := by
        rw [h3]; ring
    _ = Ideal.span {lineR B C} * Ideal.span {vertR (A + B)} * (Ideal.span {lineR A (B + C)} * S) := by
        rw [h4]; ring
    _ = _ := by ring

/-! ## Units are constants, and the constant is a fourth root of unity -/

/-- The leading coefficient is `±1`. -/
def LeadSign (p : F[X]) : Prop := p.leadingCoeff = 1 ∨ p.leadingCoeff = -1

omit [DecidableEq F] in
theorem LeadSign.mul {p q : F[X]} (hp : LeadSign p) (hq : LeadSign q) : LeadSign (p * q) := by
  unfold LeadSign
  rw [leadingCoeff_mul]
  rcases hp with hp | hp <;> rcases hq with hq | hq <;> rw [hp, hq] <;> simp

omit [DecidableEq F] in
theorem norm_XClass (x : F) : LeadSign (Algebra.norm F[X] (XClass W x)) := by
  have h := norm_smul_basis (W' := W) (X - C x) 0
  rw [zero_smul, add_zero, CoordinateRing.smul, mul_one] at h
  rw [XClass, h, mul_zero, zero_mul, sub_zero, zero_pow two_ne_zero, zero_mul, sub_zero]
  left
  rw [leadingCoeff_pow, leadingCoeff_X_sub_C, one_pow]

omit [DecidableEq F] in
theorem norm_YClass (x y ℓ : F) : LeadSign (Algebra.norm F[X] (YClass W (linePolynomial x y ℓ))) := by
  have h := norm_smul_basis (W' := W) (-(linePolynomial x y ℓ)) 1
  have e : YClass W (linePolynomial x y ℓ) = -(linePolynomial x y ℓ) • (1 : W.CoordinateRing) + (1 : F[X]) • mk W Y := by
    rw [CoordinateRing.smul, CoordinateRing.smul, mul_one, YClass, map_sub, map_one, map_one, one_mul, C_neg, map_neg]
    ring
  rw [e, h]
  right
  rw [show (-(linePolynomial x y ℓ)) ^ 2 - -(linePolynomial x y ℓ) * 1 * (C W.a₁ * X + C W.a₃) -
      1 ^ 2 * (X ^ 3 + C W.a₂ * X ^ 2 + C W.a₄ * X + C W.a₆) =
      -(Cubic.toPoly ⟨1, -ℓ ^ 2 - W.a₁ * ℓ + W.a₂, 2 * x * ℓ ^ 2 + (W.a₁ * x - 2 * y - W.a₃) * ℓ + (-W.a₁ * y + W.a₄),
        -x ^ 2 * ℓ ^ 2 + (2 * x * y + W.a₃ * x) * ℓ - (y ^ 2 + W.a₃ * y - W.a₆)⟩) by
    unfold linePolynomial Cubic.toPoly
    simp only [C_neg, C_add, C_sub, C_mul, C_pow, C_1, C_ofNat]
    ring]
  rw [leadingCoeff_neg, Cubic.leadingCoeff_of_a_ne_zero one_ne_zero]

theorem norm_lineR (A B : W.Point) : LeadSign (Algebra.norm F[X] (lineR A B)) := by
  rcases lineR_cases A B with h | ⟨x, h⟩ | ⟨x, y, l, h⟩ <;> rw [h]
  · rw [map_one]; exact Or.inl leadingCoeff_one
  · exact norm_XClass x
  · exact norm_YClass x y l

omit [DecidableEq F] in
theorem norm_vertR (A : W.Point) : LeadSign (Algebra.norm F[X] (vertR A)) := by
  cases A with
  | zero => rw [vertR, map_one]; exact Or.inl leadingCoeff_one
  | some x y h => exact norm_XClass x

omit [DecidableEq F] in
/-- The units of the coordinate ring are constants. -/
theorem unit_const (u : W.CoordinateRingˣ) : ∃ c : F, (u : W.CoordinateRing) = mk W (C (C c)) ∧
    Algebra.norm F[X] (u : W.CoordinateRing) = C (c ^ 2) := by
  obtain ⟨p, q, hpq⟩ := exists_smul_basis_eq (u : W.CoordinateRing)
  have hu : IsUnit (Algebra.norm F[X] (u : W.CoordinateRing)) := u.isUnit.map _
  have hd := degree_eq_zero_of_isUnit hu
  rw [← hpq, degree_norm_smul_basis] at hd
  have hq : q = 0 := by
    by_contra hq
    have h1 : (2 • q.degree + 3 : WithBot ℕ) ≤ 0 := hd ▸ le_max_right _ _
    rw [degree_eq_natDegree hq] at h1
    have h2 : ((2 * q.natDegree + 3 : ℕ) : WithBot ℕ) ≤ 0 := by
      refine le_trans (le_of_eq ?_) h1
      push_cast
      rw [two_nsmul]
      ring
    have h3 : 2 * q.natDegree + 3 ≤ 0 := by exact_mod_cast h2
    omega
  subst hq
  have hp : p.degree ≤ 0 := by
    by_contra hp
    push Not at hp
    have h0 : p ≠ 0 := by rintro rfl; simp at hp
    have h1 : (2 • p.degree : WithBot ℕ) ≤ 0 := hd ▸ le_max_left _ _
    rw [degree_eq_natDegree h0] at h1 hp
    have h2 : ((2 * p.natDegree : ℕ) : WithBot ℕ) ≤ 0 := by
      refine le_trans (le_of_eq ?_) h1
      push_cast
      rw [two_nsmul]
      ring
    have h3 : 2 * p.natDegree ≤ 0 := by exact_mod_cast h2
    have h4 : 0 < p.natDegree := by exact_mod_cast hp
    omega
  obtain ⟨c, rfl⟩ : ∃ c, p = C c := ⟨_, eq_C_of_degree_le_zero hp⟩
  refine ⟨c, ?_, ?_⟩
  · rw [← hpq, zero_smul, add_zero, CoordinateRing.smul, mul_one]
  · rw [← hpq, norm_smul_basis]
    simp

/-- Evaluation of functions at a point of the curve. -/
noncomputable def evalR {x y : F} (h : W.Equation x y) : W.CoordinateRing →+* F := AdjoinRoot.evalEval h

omit [DecidableEq F] in
theorem evalR_mk {x y : F} (h : W.Equation x y) (g : F[X][Y]) : evalR h (mk W g) = g.evalEval x y :=
  AdjoinRoot.evalEval_mk h g

omit [DecidableEq F] in
theorem evalR_XClass {x y : F} (h : W.Equation x y) (x₁ : F) : evalR h (XClass W x₁) = x - x₁ := by
  rw [XClass, evalR_mk, evalEval_C]
  simp

omit [DecidableEq F] in
theorem evalR_vertR {x y : F} (h : W.Equation x y) (A : W.Point) : evalR h (vertR A) = vertAt A x := by
  cases A with
  | zero => exact map_one _
  | some x' y' h' => exact evalR_XClass h x'

theorem evalR_lineR {x y : F} (h : W.Equation x y) (A B : W.Point) : evalR h (lineR A B) = lineAt A B x y := by
  cases A with
  | zero => exact evalR_vertR h B
  | some x₁ y₁ h₁ =>
    cases B with
    | zero => exact evalR_XClass h x₁
    | some x₂ y₂ h₂ =>
      simp only [lineR, lineAt]
      split_ifs
      · exact evalR_XClass h x₁
      · rw [YClass, evalR_mk]
        simp [linePolynomial, evalEval]

/-- **The cocycle identity.** -/
theorem lineAt_cocycle (A B C : W.Point) {x y : F} (h : W.Equation x y) : ∃ c : F, c ^ 4 = 1 ∧
    lineAt A B x y * lineAt (A + B) C x y * vertAt (B + C) x =
      c * (lineAt B C x y * lineAt A (B + C) x y * vertAt (A + B) x) := by
  obtain ⟨u, hu⟩ := (cocycle_associated A B C).symm
  obtain ⟨c, hc, hn⟩ := unit_const u
  refine ⟨c, ?_, ?_⟩
  · have h1 := ((norm_lineR A B).mul (norm_lineR (A + B) C)).mul (norm_vertR (B + C))
    have h2 := ((norm_lineR B C).mul (norm_lineR A (B + C))).mul (norm_vertR (A + B))
    rw [← map_mul, ← map_mul] at h1 h2
    rw [← hu, map_mul, hn] at h1
    unfold LeadSign at h1 h2
    rw [leadingCoeff_mul, leadingCoeff_C] at h1
    have e : c ^ 4 = (c ^ 2) ^ 2 := by ring
    rw [e]
    rcases h2 with h2 | h2 <;> rw [h2] at h1 <;> rcases h1 with h1 | h1
    · rw [one_mul] at h1; rw [h1, one_pow]
    · rw [one_mul] at h1; rw [h1]; ring
    · rw [show c ^ 2 = -1 by linear_combination -h1]; ring
    · rw [show c ^ 2 = 1 by linear_combination -h1]; ring
  · have := congrArg (evalR h) hu
    rw [hc] at this
    simp only [map_mul, evalR_lineR, evalR_vertR, evalR_mk, evalEval_C, eval_C] at this
    rw [← this]
    ring

end Libff
