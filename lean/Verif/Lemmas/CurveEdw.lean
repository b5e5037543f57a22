import Verif.Lemmas.Curve

/-!
# The Edwards addition law is the group law of the Weierstrass form

`edw_chord` and `edw_tangent` translate chords and tangents of the Weierstrass form into the Edwards addition
law; the rest of the file shows that no exceptional case arises in a subgroup without two-torsion.
-/
namespace Libff
open WeierstrassCurve Affine

variable {K : Type*} [Field K]

section algebra
variable {x₁ y₁ x₂ y₂ a d : K}

/-- The relations between a point `(u₃, v₃)` of the Weierstrass form and the Edwards sum of two points, with
the denominators cleared. -/
def EdwSum (a d x₁ y₁ x₂ y₂ u₃ v₃ : K) : Prop :=
  u₃ * (1 - d * x₁ * x₂ * y₁ * y₂ - (y₁ * y₂ - a * x₁ * x₂)) =
    (a - d) * (1 - d * x₁ * x₂ * y₁ * y₂ + (y₁ * y₂ - a * x₁ * x₂)) ∧
  v₃ * (x₁ * y₂ + y₁ * x₂) = 2 * u₃ * (1 + d * x₁ * x₂ * y₁ * y₂)

theorem EdwOn.a_eq (hx : x₁ ≠ 0) (h : EdwOn a d x₁ y₁) : a = (1 - y₁ ^ 2) / x₁ ^ 2 + d * y₁ ^ 2 := by
  unfold EdwOn at h
  field_simp
  linear_combination h

theorem EdwOn.y_ne_one (hc : a - d ≠ 0) (hx : x₁ ≠ 0) (h : EdwOn a d x₁ y₁) : y₁ ^ 2 ≠ 1 := by
  unfold EdwOn at h
  intro h1
  rw [mul_assoc, mul_left_comm, h1] at h
  have : (a - d) * x₁ ^ 2 = 0 := by linear_combination h
  exact (mul_ne_zero hc (pow_ne_zero 2 hx)) this

theorem EdwOn.w_ne (hc : a - d ≠ 0) (hx : x₁ ≠ 0) (h : EdwOn a d x₁ y₁) : 1 - y₁ ≠ 0 := by
  intro h1
  apply h.y_ne_one hc hx
  rw [← sub_eq_zero.1 h1, one_pow]

theorem EdwOn.w_ne' (hc : a - d ≠ 0) (hx : x₁ ≠ 0) (h : EdwOn a d x₁ y₁) : 1 + y₁ ≠ 0 := by
  intro h1
  apply h.y_ne_one hc hx
  rw [eq_neg_of_add_eq_zero_right h1]
  ring

theorem edw_chord (hx1 : x₁ ≠ 0) (hx2 : x₂ ≠ 0) (hw1 : 1 - y₁ ≠ 0) (hw2 : 1 - y₂ ≠ 0) (hy : y₂ - y₁ ≠ 0)
    (hy' : y₂ + y₁ ≠ 0) (e1 : EdwOn a d x₁ y₁) (e2 : EdwOn a d x₂ y₂) (l u₃ v₃ : K)
    (hl : l = ((1 + y₂) * (1 - y₁) * x₁ - (1 + y₁) * (1 - y₂) * x₂) / (x₁ * x₂ * (y₂ - y₁)))
    (hu : u₃ = l ^ 2 - 2 * (a + d) - (a - d) * (1 + y₁) / (1 - y₁) - (a - d) * (1 + y₂) / (1 - y₂))
    (hv : v₃ = l * ((a - d) * (1 + y₁) / (1 - y₁) - u₃) - 2 * (a - d) * (1 + y₁) / ((1 - y₁) * x₁)) :
    EdwSum a d x₁ y₁ x₂ y₂ u₃ v₃ := by
  have ha := e1.a_eq hx1
  have hd : d = ((1 - y₁ ^ 2) / x₁ ^ 2 - (1 - y₂ ^ 2) / x₂ ^ 2) / ((y₂ - y₁) * (y₂ + y₁)) := by
    unfold EdwOn at e1 e2
    field_simp
    linear_combination -(x₁ ^ 2) * e2 + x₂ ^ 2 * e1
  constructor
  · rw [hu, hl, ha, hd]
    field_simp
    ring
  · rw [hv, hu, hl, ha, hd]
    field_simp
    ring

/-- The chord between `(x₁, y)` and `(±x₁, -y)`. -/
theorem edw_chord_neg (hx1 : x₁ ≠ 0) (hw1 : 1 - y₁ ≠ 0) (hw2 : 1 + y₁ ≠ 0) (hy : y₁ ≠ 0) (h2 : (2 : K) ≠ 0)
    (hx : x₂ = x₁ ∨ x₂ = -x₁) (e1 : EdwOn a d x₁ y₁) (l u₃ v₃ : K)
    (hl : l = ((1 - y₁) * (1 - y₁) * x₁ - (1 + y₁) * (1 + y₁) * x₂) / (x₁ * x₂ * (-y₁ - y₁)))
    (hu : u₃ = l ^ 2 - 2 * (a + d) - (a - d) * (1 + y₁) / (1 - y₁) - (a - d) * (1 - y₁) / (1 + y₁))
    (hv : v₃ = l * ((a - d) * (1 + y₁) / (1 - y₁) - u₃) - 2 * (a - d) * (1 + y₁) / ((1 - y₁) * x₁)) :
    EdwSum a d x₁ y₁ x₂ (-y₁) u₃ v₃ := by
  have ha := e1.a_eq hx1
  have hyy : -y₁ - y₁ = -(2 * y₁) := by ring
  rw [hyy] at hl
  rcases hx with rfl | rfl
  · constructor
    · rw [hu, hl, ha]
      field_simp
      ring
    · rw [hv, hu, hl, ha]
      field_simp
      ring
  · constructor
    · rw [hu, hl, ha]
      field_simp
      ring
    · rw [hv, hu, hl, ha]
      field_simp
      ring

theorem edw_tangent (hx1 : x₁ ≠ 0) (hw1 : 1 - y₁ ≠ 0) (hw2 : 1 + y₁ ≠ 0) (h2 : (2 : K) ≠ 0) (hc : a - d ≠ 0)
    (e1 : EdwOn a d x₁ y₁) (u v l u₃ v₃ : K) (hu1 : u = (a - d) * (1 + y₁) / (1 - y₁)) (hv1 : v = 2 * u / x₁)
    (hl : l = (3 * u ^ 2 + 2 * (2 * (a + d)) * u + (a - d) ^ 2) / (2 * v))
    (hu : u₃ = l ^ 2 - 2 * (a + d) - u - u) (hv : v₃ = l * (u - u₃) - v) :
    EdwSum a d x₁ y₁ x₁ y₁ u₃ v₃ := by
  have hl' : l = x₁ * ((a - d) * (1 + y₁ + y₁ ^ 2) + (a + d) * (1 - y₁ ^ 2)) / ((1 - y₁) * (1 + y₁)) := by
    rw [hl, hv1, hu1]
    field_simp
    ring
  have ha := e1.a_eq hx1
  constructor
  · rw [hu, hl', hu1, ha]
    field_simp
    ring
  · rw [hv, hu, hl', hv1, hu1, ha]
    field_simp
    ring

end algebra

variable [DecidableEq K] {a d : K}

omit [DecidableEq K] in
/-- `P` is the point of the Weierstrass form that corresponds to `(x, y)`, both nonzero. -/
def EdwPt (x y : K) (P : (edwW a d).Point) : Prop :=
  x ≠ 0 ∧ y ≠ 0 ∧ EdwOn a d x y ∧ ∃ h, P = Point.some ((a - d) * (1 + y) / (1 - y)) (2 * ((a - d) * (1 + y) / (1 - y)) / x) h

theorem edwPt_add (h2 : (2 : K) ≠ 0) (hc : a - d ≠ 0) {x₁ y₁ x₂ y₂ : K} {P Q : (edwW a d).Point}
    (hP : EdwPt x₁ y₁ P) (hQ : EdwPt x₂ y₂ Q) :
    (P + Q = 0 ∧ x₂ = -x₁ ∧ y₂ = y₁) ∨
      ∃ u₃ v₃ h₃, P + Q = Point.some u₃ v₃ h₃ ∧ EdwSum a d x₁ y₁ x₂ y₂ u₃ v₃ := by
  obtain ⟨hx1, hy1, e1, h1, rfl⟩ := hP
  obtain ⟨hx2, hy2, e2, h2', rfl⟩ := hQ
  have w1 := e1.w_ne hc hx1
  have w1' := e1.w_ne' hc hx1
  have w2 := e2.w_ne hc hx2
  have w2' := e2.w_ne' hc hx2
  have hsq : y₂ ^ 2 = y₁ ^ 2 → x₂ = x₁ ∨ x₂ = -x₁ := by
    intro hy
    have f1 := e1
    have f2 := e2
    unfold EdwOn at f1 f2
    rw [hy] at f2
    have h0 : (x₂ - x₁) * (x₂ + x₁) * (a - d * y₁ ^ 2) = 0 := by linear_combination f2 - f1
    rcases mul_eq_zero.1 h0 with h0 | h0
    · rcases mul_eq_zero.1 h0 with h0 | h0
      · exact Or.inl (sub_eq_zero.1 h0)
      · exact Or.inr (eq_neg_of_add_eq_zero_left h0)
    · exfalso
      apply e1.y_ne_one hc hx1
      linear_combination f1 - x₁ ^ 2 * h0
  by_cases hy : y₂ = y₁
  · subst hy
    rcases hsq rfl with rfl | rfl
    · right
      have hv : 2 * ((a - d) * (1 + y₂) / (1 - y₂)) / x₂ ≠ 0 := by
        refine div_ne_zero (mul_ne_zero h2 (div_ne_zero (mul_ne_zero hc w1') w1)) hx1
      obtain ⟨h3, hh⟩ := weier_dbl h2 (h := h1) (h' := h2') hv rfl rfl
      exact ⟨_, _, h3, hh, edw_tangent hx1 w1 w1' h2 hc e1 _ _ _ _ _ rfl rfl rfl rfl rfl⟩
    · left
      refine ⟨weier_add_inv ?_, rfl, rfl⟩
      rw [div_neg]
  · right
    have hyd : y₂ - y₁ ≠ 0 := sub_ne_zero.2 hy
    have hud : (a - d) * (1 + y₂) / (1 - y₂) - (a - d) * (1 + y₁) / (1 - y₁) =
        2 * (a - d) * (y₂ - y₁) / ((1 - y₁) * (1 - y₂)) := by
      field_simp
      ring
    have hu : (a - d) * (1 + y₁) / (1 - y₁) ≠ (a - d) * (1 + y₂) / (1 - y₂) := by
      intro h
      rw [h, sub_self, eq_comm, div_eq_zero_iff] at hud
      rcases hud with h0 | h0
      · exact mul_ne_zero (mul_ne_zero h2 hc) hyd h0
      · exact mul_ne_zero w1 w2 h0
    have hl : (2 * ((a - d) * (1 + y₂) / (1 - y₂)) / x₂ - 2 * ((a - d) * (1 + y₁) / (1 - y₁)) / x₁) /
        ((a - d) * (1 + y₂) / (1 - y₂) - (a - d) * (1 + y₁) / (1 - y₁)) =
        ((1 + y₂) * (1 - y₁) * x₁ - (1 + y₁) * (1 - y₂) * x₂) / (x₁ * x₂ * (y₂ - y₁)) := by
      rw [hud]
      field_simp
    have hv1 : 2 * ((a - d) * (1 + y₁) / (1 - y₁)) / x₁ = 2 * (a - d) * (1 + y₁) / ((1 - y₁) * x₁) := by
      field_simp
    obtain ⟨h3, hh⟩ := weier_add_of_ne (h₁ := h1) (h₂ := h2') hu rfl rfl
    refine ⟨_, _, h3, hh, ?_⟩
    by_cases hy' : y₂ + y₁ = 0
    · have hy2 : y₂ = -y₁ := eq_neg_of_add_eq_zero_left hy'
      have hx : x₂ = x₁ ∨ x₂ = -x₁ := hsq (by rw [hy2]; ring)
      subst hy2
      refine edw_chord_neg hx1 w1 w1' hy1 h2 hx e1 _ _ _ (hl.trans ?_) ?_ ?_
      · rw [sub_neg_eq_add, ← sub_eq_add_neg]
      · rw [sub_neg_eq_add, ← sub_eq_add_neg]
      · rw [hv1]
    · refine edw_chord hx1 hx2 w1 w2 hyd hy' e1 e2 _ _ _ hl rfl ?_
      rw [hv1]

theorem edwPt_neg {x y : K} {P : (edwW a d).Point} (hP : EdwPt x y P) : EdwPt (-x) y (-P) := by
  obtain ⟨hx, hy, e, h, rfl⟩ := hP
  refine ⟨neg_ne_zero.2 hx, hy, ?_, ?_⟩
  · unfold EdwOn at *
    linear_combination e
  · obtain ⟨h', hh⟩ := weier_neg h
    rw [hh]
    exact weier_some_eq rfl (by rw [div_neg])

/-- No coordinate of a point of order greater than four vanishes. -/
theorem edw_torsion (h2 : (2 : K) ≠ 0) {H : AddSubgroup (edwW a d).Point} (hH : NoTwoTorsion H) {u v : K}
    {h : (edwW a d).Nonsingular u v} (hP : Point.some u v h ∈ H) :
    v ≠ 0 ∧ u ≠ 0 ∧ u - (a - d) ≠ 0 ∧ u + (a - d) ≠ 0 := by
  have key : ∀ {u v : K} {h : (edwW a d).Nonsingular u v}, Point.some u v h ∈ H → v ≠ 0 := by
    intro u v h hP hv
    have := hH _ hP (weier_add_inv (by rw [hv, neg_zero]))
    exact Point.some_ne_zero _ this
  have hv := key hP
  have heq := weier_equation.1 h.1
  have hu : u ≠ 0 := by
    intro hu
    rw [hu] at heq
    apply hv
    have : v ^ 2 = 0 := by rw [heq]; ring
    exact pow_eq_zero_iff (two_ne_zero) |>.1 this
  have h4 : (u - (a - d)) * (u + (a - d)) ≠ 0 := by
    intro h0
    obtain ⟨h3, hh⟩ := weier_dbl h2 (h := h) (h' := h) hv rfl rfl
    have hmem := H.add_mem hP hP
    rw [hh] at hmem
    have hx := weier_equation.1 h3.1
    apply key hmem
    have hx0 : ((3 * u ^ 2 + 2 * (2 * (a + d)) * u + (a - d) ^ 2) / (2 * v)) ^ 2 - 2 * (a + d) - u - u = 0 := by
      have hne : (2 * v) ^ 2 ≠ 0 := pow_ne_zero 2 (mul_ne_zero h2 hv)
      have : (((3 * u ^ 2 + 2 * (2 * (a + d)) * u + (a - d) ^ 2) / (2 * v)) ^ 2 - 2 * (a + d) - u - u) * (2 * v) ^ 2
          = 0 := by
        rw [div_pow, sub_mul, sub_mul, sub_mul, div_mul_cancel₀ _ hne]
        linear_combination (u ^ 2 - (a - d) ^ 2) * h0 - 4 * (2 * (a + d) + 2 * u) * heq
      exact (mul_eq_zero.1 this).resolve_right hne
    rw [hx0] at hx ⊢
    refine pow_eq_zero_iff (two_ne_zero) |>.1 (hx.trans ?_)
    ring
  exact ⟨hv, hu, left_ne_zero_of_mul h4, right_ne_zero_of_mul h4⟩

omit [DecidableEq K] in
theorem edwPt_of_coords (h2 : (2 : K) ≠ 0) (hc : a - d ≠ 0) {u v : K} {h : (edwW a d).Nonsingular u v}
    (hv : v ≠ 0) (hu : u ≠ 0) (h1 : u - (a - d) ≠ 0) (h3 : u + (a - d) ≠ 0) :
    EdwPt (2 * u / v) ((u - (a - d)) / (u + (a - d))) (Point.some u v h) := by
  have hw : 1 - (u - (a - d)) / (u + (a - d)) = 2 * (a - d) / (u + (a - d)) := by
    field_simp
    ring
  have hU : (a - d) * (1 + (u - (a - d)) / (u + (a - d))) / (1 - (u - (a - d)) / (u + (a - d))) = u := by
    rw [hw]
    field_simp
    ring
  refine ⟨div_ne_zero (mul_ne_zero h2 hu) hv, div_ne_zero h1 h3, ?_, ?_⟩
  · have heq := weier_equation.1 h.1
    unfold EdwOn
    rw [mul_assoc, div_pow, div_pow, mul_pow, heq]
    have hq : u ^ 3 + 2 * (a + d) * u ^ 2 + (a - d) ^ 2 * u + 0 ≠ 0 := by
      rw [← heq]
      exact pow_ne_zero 2 hv
    have hq' : u ^ 3 + 2 * (a + d) * u ^ 2 + (a - d) ^ 2 * u + 0 =
      u * (u ^ 2 + 2 * (a + d) * u + (a - d) ^ 2) := by ring
    rw [hq'] at hq ⊢
    have hq2 := right_ne_zero_of_mul hq
    clear hq hq' heq hw hU
    obtain ⟨q, hqd⟩ : ∃ q, q = u ^ 2 + 2 * (a + d) * u + (a - d) ^ 2 := ⟨_, rfl⟩
    rw [← hqd] at hq2 ⊢
    field_simp
    rw [hqd]
    ring
  · refine weier_some_eq hU ?_
    rw [hU]
    field_simp

theorem edwPt_of_mem (h2 : (2 : K) ≠ 0) (hc : a - d ≠ 0) {H : AddSubgroup (edwW a d).Point}
    (hH : NoTwoTorsion H) {u v : K} {h : (edwW a d).Nonsingular u v} (hP : Point.some u v h ∈ H) :
    EdwPt (2 * u / v) ((u - (a - d)) / (u + (a - d))) (Point.some u v h) := by
  obtain ⟨hv, hu, h1, h3⟩ := edw_torsion h2 hH hP
  exact edwPt_of_coords h2 hc hv hu h1 h3

/-- The addition law is complete on a subgroup without two-torsion. -/
theorem edwPt_sum (h2 : (2 : K) ≠ 0) (hc : a - d ≠ 0) {H : AddSubgroup (edwW a d).Point} (hH : NoTwoTorsion H)
    {x₁ y₁ x₂ y₂ : K} {P Q : (edwW a d).Point} (hPH : P ∈ H) (hQH : Q ∈ H)
    (hP : EdwPt x₁ y₁ P) (hQ : EdwPt x₂ y₂ Q) (hS : P + Q ≠ 0) :
    x₁ * y₂ + y₁ * x₂ ≠ 0 ∧ y₁ * y₂ - a * x₁ * x₂ ≠ 0 ∧ 1 + d * x₁ * x₂ * y₁ * y₂ ≠ 0 ∧
      1 - d * x₁ * x₂ * y₁ * y₂ ≠ 0 ∧
      EdwPt ((x₁ * y₂ + y₁ * x₂) / (1 + d * x₁ * x₂ * y₁ * y₂))
        ((y₁ * y₂ - a * x₁ * x₂) / (1 - d * x₁ * x₂ * y₁ * y₂)) (P + Q) := by
  -- no point of the subgroup has y² = a x²
  have hE : ∀ {x y : K} {P : (edwW a d).Point}, P ∈ H → EdwPt x y P → y ^ 2 - a * x ^ 2 ≠ 0 := by
    intro x y P hPH hP h0
    rcases edwPt_add h2 hc hP hP with ⟨-, hx, -⟩ | ⟨u₃, v₃, h₃, hh, hA1, -⟩
    · have : 2 * x = 0 := by linear_combination hx
      exact mul_ne_zero h2 hP.1 this
    · have hm := H.add_mem hPH hPH
      rw [hh] at hm
      obtain ⟨-, -, h5, -⟩ := edw_torsion h2 hH hm
      have h6 : (u₃ - (a - d)) * (1 - d * x * x * y * y) = 0 := by
        linear_combination hA1 + (u₃ + (a - d)) * h0
      have h7 := (mul_eq_zero.1 h6).resolve_left h5
      have hon := hP.2.2.1
      refine hon.y_ne_one hc hP.1 ?_
      unfold EdwOn at hon
      have h8 : 2 * (y ^ 2 - 1) = 0 := by linear_combination hon - h7 + h0
      exact sub_eq_zero.1 ((mul_eq_zero.1 h8).resolve_left h2)
  obtain ⟨u, v, h, hh, hA1, hA2⟩ := (edwPt_add h2 hc hP hQ).resolve_left (fun h => hS h.1)
  have hm := H.add_mem hPH hQH
  rw [hh] at hm
  obtain ⟨hv, hu, hu1, hu2⟩ := edw_torsion h2 hH hm
  have hD := edwPt_add h2 hc hP (edwPt_neg hQ)
  have hDm : P + -Q ∈ H := H.add_mem hPH (H.neg_mem hQH)
  have hx1 := hP.1
  have hy1 := hP.2.1
  have hx2 := hQ.1
  have hy2 := hQ.2.1
  have f1 := hP.2.2.1
  have f2 := hQ.2.2.1
  unfold EdwOn at f1 f2
  -- e = 1 or e = -1 is impossible
  have hs : x₁ * y₂ + y₁ * x₂ ≠ 0 := by
    intro h0
    rw [h0, mul_zero, eq_comm] at hA2
    have he := (mul_eq_zero.1 hA2).resolve_left (mul_ne_zero h2 hu)
    rcases hD with ⟨-, hx, hy⟩ | ⟨u', v', h', hh', hB1, -⟩
    · have hx : x₂ = x₁ := neg_injective hx
      rw [hx, hy] at h0
      have : 2 * (x₁ * y₁) = 0 := by linear_combination h0
      exact mul_ne_zero h2 (mul_ne_zero hx1 hy1) this
    · rw [hh'] at hDm
      obtain ⟨-, -, -, t2⟩ := edw_torsion h2 hH hDm
      have h6 : (u' + (a - d)) * (y₁ * y₂ + a * x₁ * x₂) = 0 := by
        linear_combination -hB1 + (u' - (a - d)) * he
      have h7 := (mul_eq_zero.1 h6).resolve_left t2
      refine hE hPH hP ?_
      have h8 : (y₁ ^ 2 - a * x₁ ^ 2) * x₂ = 0 := by
        linear_combination y₁ * h0 - x₁ * h7
      exact (mul_eq_zero.1 h8).resolve_right hx2
  have he : 1 + d * x₁ * x₂ * y₁ * y₂ ≠ 0 := by
    intro h0
    rw [h0, mul_zero] at hA2
    exact mul_ne_zero hv hs hA2
  have hmm : y₁ * y₂ - a * x₁ * x₂ ≠ 0 := by
    intro h0
    rw [h0, sub_zero, add_zero] at hA1
    have h6 : (u - (a - d)) * (1 - d * x₁ * x₂ * y₁ * y₂) = 0 := by linear_combination hA1
    have he := (mul_eq_zero.1 h6).resolve_left hu1
    rcases hD with ⟨-, hx, hy⟩ | ⟨u', v', h', hh', -, hB2⟩
    · have hx : x₂ = x₁ := neg_injective hx
      rw [hx, hy] at h0
      refine hE hPH hP ?_
      linear_combination h0
    · rw [hh'] at hDm
      obtain ⟨t1, -, -, -⟩ := edw_torsion h2 hH hDm
      have h7 : v' * (x₁ * y₂ - y₁ * x₂) = 0 := by linear_combination hB2 + 2 * u' * he
      have h8 := (mul_eq_zero.1 h7).resolve_left t1
      refine hE hPH hP ?_
      have h9 : (y₁ ^ 2 - a * x₁ ^ 2) * y₂ = 0 := by
        linear_combination y₁ * h0 - a * x₁ * h8
      exact (mul_eq_zero.1 h9).resolve_right hy2
  have he' : 1 - d * x₁ * x₂ * y₁ * y₂ ≠ 0 := by
    intro h0
    have h6 : (u + (a - d)) * (y₁ * y₂ - a * x₁ * x₂) = 0 := by
      linear_combination -hA1 + (u - (a - d)) * h0
    exact mul_ne_zero hu2 hmm h6
  refine ⟨hs, hmm, he, he', ?_⟩
  have hR := edwPt_of_mem h2 hc hH hm
  have e1 : (x₁ * y₂ + y₁ * x₂) / (1 + d * x₁ * x₂ * y₁ * y₂) = 2 * u / v := by
    rw [div_eq_div_iff he hv]
    linear_combination hA2
  have e2 : (y₁ * y₂ - a * x₁ * x₂) / (1 - d * x₁ * x₂ * y₁ * y₂) = (u - (a - d)) / (u + (a - d)) := by
    rw [div_eq_div_iff he' hu2]
    linear_combination -hA1
  rw [e1, e2, hh]
  exact hR

end Libff
