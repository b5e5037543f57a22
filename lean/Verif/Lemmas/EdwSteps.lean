import Verif.Lemmas.CurveEdwRep
import Verif.Lemmas.MillerSteps
import Verif.Spec.EdwExt
import Verif.Model.PairingEdwards

/-!
# The Miller steps of the Edwards curve
-/
namespace Libff
open WeierstrassCurve Affine

variable {K : Type*} [Field K] {a d : K}

theorem edwExtRep_iff {R : ExtCoord K} {P : (edwW a d).Point} :
    EdwExtRep R P ↔ R.Z ≠ 0 ∧ R.T * R.Z = R.X * R.Y ∧ EdwPt (R.X / R.Z) (R.Y / R.Z) P := by
  rcases P with _ | ⟨u, v, h⟩
  · constructor
    · exact False.elim
    · rintro ⟨-, -, -, -, -, h, e⟩
      cases e
  · constructor
    · rintro ⟨h1, h2, h3, h4, h5, rfl, rfl⟩
      exact ⟨h3, h4, div_ne_zero h1 h3, div_ne_zero h2 h3, h5, h, rfl⟩
    · rintro ⟨h3, h4, h1, h2, h5, h', e⟩
      simp only [Point.some.injEq] at e
      refine ⟨fun h0 => h1 (by rw [h0, zero_div]), fun h0 => h2 (by rw [h0, zero_div]), h3, h4, h5, e.1, ?_⟩
      rw [e.2, e.1]

/-- The form in which the representation is used. -/
theorem EdwExtRep.obtain {R : ExtCoord K} {P : (edwW a d).Point} (h : EdwExtRep R P) :
    ∃ x y z, R = ⟨x * z, y * z, z, x * y * z⟩ ∧ z ≠ 0 ∧ EdwPt x y P := by
  obtain ⟨X, Y, Z, t⟩ := R
  obtain ⟨hZ, ht, hp⟩ := edwExtRep_iff.1 h
  simp only at hZ ht hp
  refine ⟨X / Z, Y / Z, Z, ?_, hZ, hp⟩
  rw [ExtCoord.mk.injEq]
  refine ⟨by field_simp, by field_simp, rfl, ?_⟩
  field_simp
  linear_combination ht

theorem edwExtRep_mk {x y z : K} {P : (edwW a d).Point} (hz : z ≠ 0) (h : EdwPt x y P) {R : ExtCoord K}
    (hR : R = ⟨x * z, y * z, z, x * y * z⟩) : EdwExtRep R P := by
  subst hR
  refine edwExtRep_iff.2 ⟨hz, by ring, ?_⟩
  simpa only [mul_div_cancel_right₀ _ hz] using h

variable [DecidableEq K]

omit [DecidableEq K] in
/-- `a` in terms of `a - d` and a point. -/
theorem EdwOn.a_eq_of_sub {δ x y : K} (h : EdwOn a d x y) (hx : x ≠ 0) (w : 1 - y ≠ 0) (w' : 1 + y ≠ 0) (hδ : a - d = δ) :
    a = ((1 - y) * (1 + y) - δ * x ^ 2 * y ^ 2) / (x ^ 2 * ((1 - y) * (1 + y))) := by
  unfold EdwOn at h
  field_simp
  linear_combination h - x ^ 2 * y ^ 2 * hδ

/-- The tangent as a conic. -/
theorem edw_conic_tangent (h2 : (2 : K) ≠ 0) (hc : a - d ≠ 0) {x₁ y₁ : K} {P : (edwW a d).Point} (hP : EdwPt x₁ y₁ P) {z : K} (hz : z ≠ 0) :
    IsConic P P (2 * (x₁ * y₁ * (y₁ - 1)) * z ^ 2) (2 * (1 - a * x₁ ^ 2 - y₁ ^ 2 + y₁) * z ^ 2) (2 * (a * x₁ ^ 2 * y₁ - y₁ ^ 2) * z ^ 2) := by
  obtain ⟨hx, hy, hon, h, rfl⟩ := hP
  have w := hon.w_ne hc hx
  have w' := hon.w_ne' hc hx
  refine ⟨x₁ * y₁ * (y₁ - 1) / (a - d) * z ^ 2, ?_, fun x y hx' hy' => ?_⟩
  · refine mul_ne_zero (div_ne_zero (mul_ne_zero (mul_ne_zero hx hy) ?_) hc) (pow_ne_zero 2 hz)
    rw [← neg_sub]; exact neg_ne_zero.2 w
  · have hw : 1 - y ≠ 0 := sub_ne_zero.2 hy'.symm
    rw [lineAt_tangent h2 (div_ne_zero (mul_ne_zero h2 (div_ne_zero (mul_ne_zero hc w') w)) hx)]
    have hl : ∀ u v, u = (a - d) * (1 + y₁) / (1 - y₁) → v = 2 * u / x₁ → (3 * u ^ 2 + 2 * (2 * (a + d)) * u + (a - d) ^ 2) / (2 * v) =
        x₁ * ((a - d) * (1 + y₁ + y₁ ^ 2) + (a + d) * (1 - y₁ ^ 2)) / ((1 - y₁) * (1 + y₁)) := by
      rintro u v rfl rfl
      field_simp
      ring
    rw [hl _ _ rfl rfl]
    obtain ⟨δ, hδ⟩ : ∃ δ, a - d = δ := ⟨_, rfl⟩
    have ha := hon.a_eq_of_sub hx w w' hδ
    have hd : a + d = 2 * a - δ := by rw [← hδ]; ring
    rw [hd, hδ, ha]
    rw [hδ] at hc
    field_simp
    ring

/-- The chord as a conic. -/
theorem edw_conic_chord (h2 : (2 : K) ≠ 0) (hc : a - d ≠ 0) {x₁ y₁ x₂ y₂ : K} {P Q : (edwW a d).Point} (hP : EdwPt x₁ y₁ P)
    (hQ : EdwPt x₂ y₂ Q) (hy : y₁ ≠ y₂) {z : K} (hz : z ≠ 0) :
    IsConic P Q (x₁ * x₂ * (y₁ - y₂) * z) ((x₁ - x₂ + (x₁ * y₂ - y₁ * x₂)) * z)
      ((x₂ * y₂ - x₁ * y₁ + (y₁ * (x₂ * y₂) - x₁ * y₁ * y₂)) * z) := by
  obtain ⟨hx1, hy1, hon1, h1, rfl⟩ := hP
  obtain ⟨hx2, hy2, hon2, h2', rfl⟩ := hQ
  have w1 := hon1.w_ne hc hx1
  have w2 := hon2.w_ne hc hx2
  have hyd : y₁ - y₂ ≠ 0 := sub_ne_zero.2 hy
  have hud : (a - d) * (1 + y₁) / (1 - y₁) - (a - d) * (1 + y₂) / (1 - y₂) =
      2 * (a - d) * (y₁ - y₂) / ((1 - y₁) * (1 - y₂)) := by
    field_simp
    ring
  have hu : (a - d) * (1 + y₁) / (1 - y₁) ≠ (a - d) * (1 + y₂) / (1 - y₂) := by
    intro h
    rw [h, sub_self, eq_comm, div_eq_zero_iff] at hud
    rcases hud with h0 | h0
    · exact mul_ne_zero (mul_ne_zero h2 hc) hyd h0
    · exact mul_ne_zero w1 w2 h0
  refine ⟨x₁ * x₂ * (y₁ - y₂) / (2 * (a - d)) * z, ?_, fun x y hx' hy' => ?_⟩
  · exact mul_ne_zero (div_ne_zero (mul_ne_zero (mul_ne_zero hx1 hx2) hyd) (mul_ne_zero h2 hc)) hz
  · have hw : 1 - y ≠ 0 := sub_ne_zero.2 hy'.symm
    rw [lineAt_of_X_ne hu, hud]
    generalize a - d = δ at hc
    field_simp
    ring

/-- Doubling in extended coordinates. -/
theorem edw_ext_double (h2 : (2 : K) ≠ 0) (hc : a - d ≠ 0) {H : AddSubgroup (edwW a d).Point} (hH : NoTwoTorsion H) {P : (edwW a d).Point}
    (hP : P ∈ H) {x y z : K} (hp : EdwPt x y P) (hz : z ≠ 0) {R : ExtCoord K}
    (hX : R.X = 2 * x * y * (2 - (a * x ^ 2 + y ^ 2)) * z ^ 4) (hY : R.Y = (a * x ^ 2 + y ^ 2) * (y ^ 2 - a * x ^ 2) * z ^ 4)
    (hZ : R.Z = (a * x ^ 2 + y ^ 2) * (2 - (a * x ^ 2 + y ^ 2)) * z ^ 4) (hT : R.T = 2 * x * y * (y ^ 2 - a * x ^ 2) * z ^ 4) :
    EdwExtRep R (P + P) := by
  have h0 : P + P ≠ 0 := fun h => by
    have := hH P hP h
    obtain ⟨-, -, -, h', e⟩ := hp
    rw [this] at e
    exact absurd e.symm (Point.some_ne_zero _)
  obtain ⟨hs, hm, he, he', hR⟩ := edwPt_sum h2 hc hH hP hP hp hp h0
  have hon := hp.2.2.1
  unfold EdwOn at hon
  have e1 : 1 + d * x * x * y * y = a * x ^ 2 + y ^ 2 := by linear_combination -hon
  have e2 : 1 - d * x * x * y * y = 2 - (a * x ^ 2 + y ^ 2) := by linear_combination hon
  rw [e1] at he hR
  rw [e2] at he' hR
  refine edwExtRep_mk (z := R.Z) ?_ hR ?_
  · rw [hZ]; exact mul_ne_zero (mul_ne_zero he he') (pow_ne_zero 4 hz)
  · obtain ⟨X, Y, Z, t⟩ := R
    simp only at hX hY hZ hT
    subst hX hY hZ hT
    rw [ExtCoord.mk.injEq]
    generalize 2 - (a * x ^ 2 + y ^ 2) = E' at he' ⊢
    generalize a * x ^ 2 + y ^ 2 = E at he ⊢
    refine ⟨?_, ?_, rfl, ?_⟩ <;> · field_simp; try ring

/-- Mixed addition in extended coordinates. -/
theorem edw_ext_add (h2 : (2 : K) ≠ 0) (hc : a - d ≠ 0) {H : AddSubgroup (edwW a d).Point} (hH : NoTwoTorsion H) {P Q : (edwW a d).Point}
    (hP : P ∈ H) (hQ : Q ∈ H) {x₁ y₁ z x₂ y₂ : K} (hp : EdwPt x₁ y₁ P) (hq : EdwPt x₂ y₂ Q) (hz : z ≠ 0) (h0 : P + Q ≠ 0) (h1 : P ≠ Q)
    {R : ExtCoord K}
    (hX : R.X = (x₁ * y₁ + x₂ * y₂) * (x₁ * y₂ - y₁ * x₂) * z ^ 2) (hY : R.Y = (y₁ * y₂ + a * x₁ * x₂) * (x₁ * y₁ - x₂ * y₂) * z ^ 2)
    (hZ : R.Z = (x₁ * y₂ - y₁ * x₂) * (y₁ * y₂ + a * x₁ * x₂) * z ^ 2) (hT : R.T = (x₁ * y₁ + x₂ * y₂) * (x₁ * y₁ - x₂ * y₂) * z ^ 2) :
    EdwExtRep R (P + Q) ∧ y₁ ≠ y₂ := by
  obtain ⟨hs, hm, he, he', hR⟩ := edwPt_sum h2 hc hH hP hQ hp hq h0
  have h1' : P + -Q ≠ 0 := fun h => h1 (add_neg_eq_zero.1 h)
  obtain ⟨hs', hm', -, -, -⟩ := edwPt_sum h2 hc hH hP (neg_mem hQ) hp (edwPt_neg hq) h1'
  have f1 := hp.2.2.1
  have f2 := hq.2.2.1
  have hg : y₁ * y₂ + a * x₁ * x₂ ≠ 0 := fun h => hm' (by linear_combination h)
  have hf : x₁ * y₂ - y₁ * x₂ ≠ 0 := fun h => hs' (by linear_combination h)
  constructor
  · unfold EdwOn at f1 f2
    have e1 : (x₁ * y₂ + y₁ * x₂) / (1 + d * x₁ * x₂ * y₁ * y₂) = (x₁ * y₁ + x₂ * y₂) / (y₁ * y₂ + a * x₁ * x₂) := by
      rw [div_eq_div_iff he hg]
      linear_combination x₁ * y₁ * f2 + x₂ * y₂ * f1
    have e2 : (y₁ * y₂ - a * x₁ * x₂) / (1 - d * x₁ * x₂ * y₁ * y₂) = (x₁ * y₁ - x₂ * y₂) / (x₁ * y₂ - y₁ * x₂) := by
      rw [div_eq_div_iff he' hf]
      linear_combination x₁ * y₁ * f2 - x₂ * y₂ * f1
    rw [e1, e2] at hR
    refine edwExtRep_mk (z := R.Z) ?_ hR ?_
    · rw [hZ]; exact mul_ne_zero (mul_ne_zero hf hg) (pow_ne_zero 2 hz)
    · obtain ⟨X, Y, Z, t⟩ := R
      simp only at hX hY hZ hT
      subst hX hY hZ hT
      rw [ExtCoord.mk.injEq]
      generalize x₁ * y₂ - y₁ * x₂ = E' at hf ⊢
      generalize y₁ * y₂ + a * x₁ * x₂ = E at hg ⊢
      refine ⟨?_, ?_, rfl, ?_⟩ <;> · field_simp; try ring
  · rintro rfl
    unfold EdwOn at f1 f2
    have h3 : (x₂ - x₁) * (x₂ + x₁) * (a - d * y₁ ^ 2) = 0 := by linear_combination f2 - f1
    have h4 : a - d * y₁ ^ 2 ≠ 0 := fun h => by
      apply hp.2.2.1.y_ne_one hc hp.1
      linear_combination f1 - x₁ ^ 2 * h
    have h5 : x₁ * y₁ - y₁ * x₂ = y₁ * (x₁ - x₂) := by ring
    have h6 : x₁ * y₁ + y₁ * x₂ = y₁ * (x₁ + x₂) := by ring
    rw [h5] at hf
    rw [h6] at hs
    refine mul_ne_zero (mul_ne_zero ?_ ?_) h4 h3
    · rw [← neg_sub]; exact neg_ne_zero.2 (right_ne_zero_of_mul hf)
    · rw [add_comm]; exact right_ne_zero_of_mul hs

end Libff
