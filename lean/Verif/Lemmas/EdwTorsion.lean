import Verif.Lemmas.CurveEdwOrder
import Verif.Lemmas.PointCount

/-!
# The Edwards curve with `a = 1` and `d` not a square, outside the group of prime order
-/
namespace Libff
open WeierstrassCurve Affine

section
variable {K : Type*} [Field K] [DecidableEq K] {d : K}

omit [DecidableEq K] in
/-- The denominators of the addition law do not vanish. -/
theorem edw_denom (hd : ¬ IsSquare d) {x₁ y₁ x₂ y₂ : K} (h1 : x₁ ≠ 0) (h1' : y₁ ≠ 0) (h2 : x₂ ≠ 0) (h20 : (2 : K) ≠ 0)
    (e1 : EdwOn 1 d x₁ y₁) (e2 : EdwOn 1 d x₂ y₂) {s : K} (hs : s ^ 2 = 1) : d * x₁ * x₂ * y₁ * y₂ ≠ s := by
  intro he
  unfold EdwOn at e1 e2
  have key : ∀ t : K, t ^ 2 = 1 → x₂ + t * y₂ ≠ 0 → False := fun t ht hne => by
    refine hd ⟨(x₁ + t * s * y₁) / (x₁ * y₁ * (x₂ + t * y₂)), ?_⟩
    have hne' := mul_ne_zero (mul_ne_zero h1 h1') hne
    rw [div_mul_div_comm, eq_div_iff (mul_ne_zero hne' hne')]
    have hs2 : (d * x₁ * x₂ * y₁ * y₂) ^ 2 = 1 := by rw [he, hs]
    linear_combination (d * x₁ ^ 2 * y₁ ^ 2) * e2 + hs2 - e1 + (2 * t * x₁ * y₁) * he + (d * x₁ ^ 2 * y₁ ^ 2 * y₂ ^ 2 - y₁ ^ 2) * ht
      - (t ^ 2 * y₁ ^ 2) * hs
  by_cases h : x₂ + 1 * y₂ = 0
  · refine key (-1) (by ring) fun h' => h2 ?_
    have : 2 * x₂ = 0 := by linear_combination h + h'
    exact (mul_eq_zero.1 this).resolve_left h20
  · exact key 1 (by ring) h

/-- `(0, 0)` is a point of the Weierstrass form: the point `(0, -1)` of the Edwards curve. -/
theorem edw_T2_nonsingular (hc : 1 - d ≠ 0) : (edwW 1 d).Nonsingular 0 0 := by
  rw [nonsingular_iff]
  refine ⟨weier_equation.2 (by ring), Or.inl ?_⟩
  simp only [weier]
  intro h
  exact pow_ne_zero 2 hc (by linear_combination -h)

/-- `(0, -1)`. -/
def edwT2 (hc : 1 - d ≠ 0) : (edwW 1 d).Point := Point.some 0 0 (edw_T2_nonsingular hc)

/-- `(1, 0)`. -/
theorem edw_T4_nonsingular (h2 : (2 : K) ≠ 0) (hc : 1 - d ≠ 0) : (edwW 1 d).Nonsingular (1 - d) (2 * (1 - d)) := by
  rw [nonsingular_iff]
  refine ⟨weier_equation.2 (by ring), Or.inr ?_⟩
  simp only [weier, zero_mul, sub_zero]
  intro h
  have : 2 * (2 * (1 - d)) = 0 := by linear_combination h
  exact mul_ne_zero h2 (mul_ne_zero h2 hc) this

def edwT4 (h2 : (2 : K) ≠ 0) (hc : 1 - d ≠ 0) : (edwW 1 d).Point := Point.some _ _ (edw_T4_nonsingular h2 hc)

theorem edwT2_add (hc : 1 - d ≠ 0) : edwT2 hc + edwT2 hc = 0 := weier_add_inv (by ring)

theorem edwT4_add (h2 : (2 : K) ≠ 0) (hc : 1 - d ≠ 0) : edwT4 h2 hc + edwT4 h2 hc = edwT2 hc := by
  have hv : 2 * (1 - d) ≠ 0 := mul_ne_zero h2 hc
  obtain ⟨h3, hh⟩ := weier_dbl (x₃ := 0) (y₃ := 0) h2 (h := edw_T4_nonsingular h2 hc) (h' := edw_T4_nonsingular h2 hc) hv
    (by field_simp; ring) (by field_simp; ring)
  exact hh

theorem edwT2_order (hc : 1 - d ≠ 0) : addOrderOf (edwT2 hc) = 2 :=
  addOrderOf_eq_prime (by rw [two_nsmul, edwT2_add]) (Point.some_ne_zero _)

theorem edwT4_order (h2 : (2 : K) ≠ 0) (hc : 1 - d ≠ 0) : addOrderOf (edwT4 h2 hc) = 4 := by
  refine addOrderOf_eq_prime_pow (p := 2) (n := 1) ?_ ?_
  · rw [pow_one, two_nsmul, edwT4_add]; exact Point.some_ne_zero _
  · rw [show 2 ^ (1 + 1) = 2 * 2 from rfl, mul_nsmul, two_nsmul, two_nsmul, edwT4_add, edwT2_add]

/-- A point whose double is `0` is `0` or `(0, -1)`. -/
theorem edw_two (h2 : (2 : K) ≠ 0) (hc : 1 - d ≠ 0) (hd : ¬ IsSquare d) {P : (edwW 1 d).Point} (h : P + P = 0) :
    P = 0 ∨ P = edwT2 hc := by
  rcases P with _ | ⟨u, v, hP⟩
  · exact Or.inl rfl
  right
  have hv : v = 0 := by
    by_contra hv
    obtain ⟨h3, hh⟩ := weier_dbl h2 (h := hP) (h' := hP) hv rfl rfl
    rw [hh] at h
    exact Point.some_ne_zero _ h
  have he := weier_equation.1 hP.1
  subst hv
  have hu : u = 0 := by
    by_contra hu
    refine hd ⟨(u + (1 + d)) / 2, ?_⟩
    have h0 : u * (u ^ 2 + 2 * (1 + d) * u + (1 - d) ^ 2) = 0 := by linear_combination -he
    have h0 := (mul_eq_zero.1 h0).resolve_left hu
    field_simp
    linear_combination -h0
  subst hu
  rfl

/-- The points with an abscissa or ordinate zero. -/
theorem edw_coords (h2 : (2 : K) ≠ 0) (hc : 1 - d ≠ 0) {u v : K} {hP : (edwW 1 d).Nonsingular u v}
    (h : 4 • Point.some u v hP ≠ 0) : v ≠ 0 ∧ u ≠ 0 ∧ u - (1 - d) ≠ 0 ∧ u + (1 - d) ≠ 0 := by
  have key : ∀ {u v : K} {h : (edwW 1 d).Nonsingular u v}, 2 • Point.some u v h ≠ 0 → v ≠ 0 := by
    intro u v h hP hv
    exact hP (by rw [two_nsmul]; exact weier_add_inv (by rw [hv, neg_zero]))
  have h' : 2 • (2 • Point.some u v hP) ≠ 0 := by rwa [← mul_nsmul]
  have hv : v ≠ 0 := key fun h0 => h' (by rw [h0, nsmul_zero])
  have heq := weier_equation.1 hP.1
  have hu : u ≠ 0 := by
    intro hu
    rw [hu] at heq
    apply hv
    have : v ^ 2 = 0 := by rw [heq]; ring
    exact pow_eq_zero_iff (two_ne_zero) |>.1 this
  have h4 : (u - (1 - d)) * (u + (1 - d)) ≠ 0 := by
    intro h0
    obtain ⟨h3, hh⟩ := weier_dbl h2 (h := hP) (h' := hP) hv rfl rfl
    rw [two_nsmul (Point.some u v hP), hh] at h'
    have hx := weier_equation.1 h3.1
    apply key h'
    have hx0 : ((3 * u ^ 2 + 2 * (2 * (1 + d)) * u + (1 - d) ^ 2) / (2 * v)) ^ 2 - 2 * (1 + d) - u - u = 0 := by
      have hne : (2 * v) ^ 2 ≠ 0 := pow_ne_zero 2 (mul_ne_zero h2 hv)
      have : (((3 * u ^ 2 + 2 * (2 * (1 + d)) * u + (1 - d) ^ 2) / (2 * v)) ^ 2 - 2 * (1 + d) - u - u) * (2 * v) ^ 2
          = 0 := by
        rw [div_pow, sub_mul, sub_mul, sub_mul, div_mul_cancel₀ _ hne]
        linear_combination (u ^ 2 - (1 - d) ^ 2) * h0 - 4 * (2 * (1 + d) + 2 * u) * heq
      exact (mul_eq_zero.1 this).resolve_right hne
    rw [hx0] at hx ⊢
    refine pow_eq_zero_iff (two_ne_zero) |>.1 (hx.trans ?_)
    ring
  exact ⟨hv, hu, left_ne_zero_of_mul h4, right_ne_zero_of_mul h4⟩

/-- Adding `(0, -1)` negates both coordinates. -/
theorem edwPt_add_T2 (h2 : (2 : K) ≠ 0) (hc : 1 - d ≠ 0) {x y : K} {P : (edwW 1 d).Point} (h : EdwPt x y P) :
    EdwPt (-x) (-y) (P + edwT2 hc) := by
  obtain ⟨hx, hy, e, hP, rfl⟩ := h
  have w := e.w_ne hc hx
  have w' := e.w_ne' hc hx
  refine ⟨neg_ne_zero.2 hx, neg_ne_zero.2 hy, by unfold EdwOn at *; linear_combination e, ?_⟩
  have ha := e.a_eq hx
  have hu : (1 - d) * (1 + y) / (1 - y) ≠ 0 := div_ne_zero (mul_ne_zero hc w') w
  have hw2 : 1 - -y ≠ 0 := by rwa [sub_neg_eq_add]
  have hon : (1 - d * y ^ 2) * x ^ 2 = 1 - y ^ 2 := by unfold EdwOn at e; linear_combination e
  refine weier_add_of_ne hu ?_ ?_
  · rw [sub_neg_eq_add, ← sub_eq_add_neg]
    field_simp
    linear_combination (4 * (1 - d) ^ 2 * (1 + y) ^ 2) * hon
  · rw [sub_neg_eq_add, ← sub_eq_add_neg]
    field_simp
    ring

/-- The sum of two points, in terms of the numerators of its coordinates. -/
theorem edwPt_sum_exact (h2 : (2 : K) ≠ 0) (hc : 1 - d ≠ 0) (hd : ¬ IsSquare d) {x₁ y₁ x₂ y₂ : K} {P Q : (edwW 1 d).Point}
    (hP : EdwPt x₁ y₁ P) (hQ : EdwPt x₂ y₂ Q) : 1 + d * x₁ * x₂ * y₁ * y₂ ≠ 0 ∧ 1 - d * x₁ * x₂ * y₁ * y₂ ≠ 0 ∧
      ((x₁ * y₂ + y₁ * x₂ = 0 ∧ (P + Q = 0 ∨ P + Q = edwT2 hc)) ∨
      (x₁ * y₂ + y₁ * x₂ ≠ 0 ∧ y₁ * y₂ - 1 * x₁ * x₂ = 0 ∧ (P + Q = edwT4 h2 hc ∨ P + Q = - edwT4 h2 hc)) ∨
      (x₁ * y₂ + y₁ * x₂ ≠ 0 ∧ y₁ * y₂ - 1 * x₁ * x₂ ≠ 0 ∧ P + Q ≠ 0 ∧
        EdwPt ((x₁ * y₂ + y₁ * x₂) / (1 + d * x₁ * x₂ * y₁ * y₂))
          ((y₁ * y₂ - 1 * x₁ * x₂) / (1 - d * x₁ * x₂ * y₁ * y₂)) (P + Q))) := by
  have he : 1 + d * x₁ * x₂ * y₁ * y₂ ≠ 0 := fun h =>
    edw_denom hd hP.1 hP.2.1 hQ.1 h2 hP.2.2.1 hQ.2.2.1 (s := -1) (by ring) (by linear_combination h)
  have he' : 1 - d * x₁ * x₂ * y₁ * y₂ ≠ 0 := fun h =>
    edw_denom hd hP.1 hP.2.1 hQ.1 h2 hP.2.2.1 hQ.2.2.1 (s := 1) (by ring) (by linear_combination -h)
  refine ⟨he, he', ?_⟩
  rcases edwPt_add h2 hc hP hQ with ⟨h0, hx, hy⟩ | ⟨u, v, h, hh, hA1, hA2⟩
  · exact Or.inl ⟨by rw [hx, hy]; ring, Or.inl h0⟩
  have hu0 : u = 0 → P + Q = edwT2 hc := by
    intro hu
    subst hu
    have hv : v = 0 := by
      have := weier_equation.1 h.1
      refine pow_eq_zero_iff (two_ne_zero) |>.1 (this.trans ?_)
      ring
    subst hv
    exact hh
  by_cases hs : x₁ * y₂ + y₁ * x₂ = 0
  · refine Or.inl ⟨hs, Or.inr (hu0 ?_)⟩
    rw [hs, mul_zero, eq_comm, mul_assoc] at hA2
    exact (mul_eq_zero.1 ((mul_eq_zero.1 hA2).resolve_left h2)).resolve_right he
  right
  by_cases hm : y₁ * y₂ - 1 * x₁ * x₂ = 0
  · refine Or.inl ⟨hs, hm, ?_⟩
    have hu : u = 1 - d := by
      rw [hm, sub_zero, add_zero] at hA1
      exact mul_right_cancel₀ he' hA1
    subst hu
    have hv : (v - 2 * (1 - d)) * (v + 2 * (1 - d)) = 0 := by
      have := weier_equation.1 h.1
      linear_combination this
    rw [hh]
    rcases mul_eq_zero.1 hv with hv | hv
    · left
      obtain ⟨h', e⟩ := weier_some_eq (h := h) rfl (sub_eq_zero.1 hv).symm
      exact e
    · right
      obtain ⟨h', e⟩ := weier_some_eq (h := h) rfl (eq_neg_of_add_eq_zero_left hv).symm
      obtain ⟨h'', e'⟩ := weier_neg (edw_T4_nonsingular h2 hc)
      rw [edwT4, e', e]
  · refine Or.inr ⟨hs, hm, edwPt_sum_local h2 hc hP hQ hs hm he he' fun hn => hs ?_⟩
    have hu : u = 0 := by
      rw [hn, mul_zero] at hA1
      refine (mul_eq_zero.1 hA1).resolve_right fun h0 => he' ?_
      have : 2 * (1 - d * x₁ * x₂ * y₁ * y₂) = 0 := by linear_combination h0 + hn
      exact (mul_eq_zero.1 this).resolve_left h2
    have hQ' : Q = -P + edwT2 hc := by rw [← hu0 hu]; abel
    have := edwPt_add_T2 h2 hc (edwPt_neg hP)
    rw [← hQ', neg_neg] at this
    obtain ⟨e1, e2⟩ := edwPt_inj h2 hc this hQ
    rw [← e1, ← e2]; ring

/-- A point with non-zero coordinates has neither order two nor order four. -/
theorem edwPt_order (h2 : (2 : K) ≠ 0) (hc : 1 - d ≠ 0) (hd : ¬ IsSquare d) {x y : K} {P : (edwW 1 d).Point}
    (hP : EdwPt x y P) : 4 • P ≠ 0 := by
  intro h4
  have h2' : 2 • P + 2 • P = 0 := by rw [← add_nsmul]; exact h4
  have hT : ∀ {x y : K} {P : (edwW 1 d).Point}, EdwPt x y P → P ≠ edwT2 hc := by
    rintro x y P ⟨hx, -, e, h, rfl⟩ he
    simp only [edwT2, Point.some.injEq] at he
    exact div_ne_zero (mul_ne_zero hc (e.w_ne' hc hx)) (e.w_ne hc hx) he.1
  have h0 : ∀ {x y : K} {P : (edwW 1 d).Point}, EdwPt x y P → P ≠ 0 := by
    rintro x y P ⟨hx, -, e, h, rfl⟩ he
    exact Point.some_ne_zero _ he
  rcases edw_two h2 hc hd h2' with h | h
  · rw [two_nsmul] at h
    rcases edw_two h2 hc hd h with h | h
    · exact h0 hP h
    · exact hT hP h
  · have hP' : P = -P + edwT2 hc := by rw [← h, two_nsmul]; abel
    have := edwPt_add_T2 h2 hc (edwPt_neg hP)
    rw [← hP'] at this
    obtain ⟨-, e⟩ := edwPt_inj h2 hc this hP
    have h3 : 2 * y = 0 := by linear_combination -e
    exact mul_ne_zero h2 hP.2.1 h3

namespace Edw
variable [Squared K] [LawfulSquared K] {mulD : K → K}

omit [Squared K] [LawfulSquared K] in
theorem rep_four (h2 : (2 : K) ≠ 0) (hc : 1 - d ≠ 0) (hd : ¬ IsSquare d) {p : Coord3 K} {P : (edwW 1 d).Point}
    (hp : EdwRep p P) (h4 : 4 • P = 0) : P = 0 := by
  rw [edwRep_iff] at hp
  rcases hp with ⟨h, -⟩ | ⟨-, -, -, -, h⟩
  · exact h
  · exact absurd h4 (edwPt_order h2 hc hd h)

omit [Squared K] [LawfulSquared K] in
theorem rep_exists (h2 : (2 : K) ≠ 0) (hc : 1 - d ≠ 0) (P : (edwW 1 d).Point) (h : P = 0 ∨ 4 • P ≠ 0) :
    ∃ p : Coord3 K, EdwRep p P := by
  rcases P with _ | ⟨u, v, hP⟩
  · exact ⟨zero, zero_rep⟩
  · obtain ⟨hv, hu, hu1, hu2⟩ := edw_coords h2 hc (h.resolve_left (Point.some_ne_zero _))
    have hpt := edwPt_of_coords h2 hc (h := hP) hv hu hu1 hu2
    refine ⟨ofAffine (2 * u / v) ((u - (1 - d)) / (u + (1 - d))), edwRep_iff.2 (Or.inr ⟨Point.some_ne_zero _, hpt.2.1, hpt.1,
      mul_ne_zero hpt.1 hpt.2.1, ?_⟩)⟩
    simp only [ofAffine, mul_div_cancel_right₀ _ hpt.2.1, mul_div_cancel_left₀ _ hpt.1]
    exact hpt

/-- What `operator+` returns, for all pairs of points. -/
theorem plus_exact (hD : ∀ x, mulD x = d * x) (h2 : (2 : K) ≠ 0) (hc : 1 - d ≠ 0) (hd : ¬ IsSquare d)
    {p q : Coord3 K} {P Q : (edwW 1 d).Point} (hp : EdwRep p P) (hq : EdwRep q Q) :
    EdwRep (plus (fun x => x) mulD p q) (P + Q) ∨
    (P + Q = edwT2 hc ∧ (plus (fun x => x) mulD p q).Y = 0 ∧ (plus (fun x => x) mulD p q).Z = 0) ∨
    ((P + Q = edwT4 h2 hc ∨ P + Q = - edwT4 h2 hc) ∧ (plus (fun x => x) mulD p q).X = 0 ∧
      (plus (fun x => x) mulD p q).Y ≠ 0 ∧ (plus (fun x => x) mulD p q).Z = 0) := by
  have hp' := hp
  have hq' := hq
  rw [edwRep_iff] at hp' hq'
  rcases hp' with ⟨rfl, h, h'⟩ | ⟨h0, hX, hY, hZ, hpt⟩
  · left; rwa [plus, if_pos ((isZero_rep hp).2 rfl), zero_add]
  rcases hq' with ⟨rfl, h, h'⟩ | ⟨h0', hX', hY', hZ', hpt'⟩
  · left; rwa [plus, isZero_false hZ, if_neg Bool.false_ne_true, if_pos ((isZero_rep hq).2 rfl), add_zero]
  rw [plus, isZero_false hZ, if_neg Bool.false_ne_true, isZero_false hZ', if_neg Bool.false_ne_true]
  obtain ⟨E, A, hE, hA0, e1, e2, e3⟩ := add_affine (a := 1) (fun x => (one_mul x).symm) hD hX hY hZ hX' hY' hZ' _ _ _ _ rfl rfl rfl rfl
  have hk : E * E / A ≠ 0 := div_ne_zero (mul_ne_zero hE hE) hA0
  obtain ⟨he, he', ⟨hs, hS⟩ | ⟨hs, hm, hS⟩ | ⟨hs, hm, hS, hR⟩⟩ := edwPt_sum_exact h2 hc hd hpt hpt'
  · rw [hs, mul_zero, mul_zero] at e2 e3
    rcases hS with hS | hS
    · left; rw [hS]; exact ⟨e2, e3⟩
    · exact Or.inr (Or.inl ⟨hS, e2, e3⟩)
  · rw [hm, mul_zero, mul_zero] at e1
    rw [hm, zero_mul, mul_zero] at e3
    exact Or.inr (Or.inr ⟨hS, e1, by rw [e2]; exact mul_ne_zero hk (mul_ne_zero he' hs), e3⟩)
  · left
    rw [edwRep_iff]
    refine Or.inr ⟨hS, by rw [e1]; exact mul_ne_zero hk (mul_ne_zero he hm),
      by rw [e2]; exact mul_ne_zero hk (mul_ne_zero he' hs), by rw [e3]; exact mul_ne_zero hk (mul_ne_zero hm hs), ?_⟩
    rw [e1, e2, e3, mul_div_mul_left _ _ hk, mul_div_mul_left _ _ hk, mul_comm (1 + _) (_ - _),
      mul_div_mul_left _ _ hm, mul_div_mul_right _ _ hs]
    exact hR

omit [Squared K] [LawfulSquared K] in
theorem rep_scale_iff {k : K} (hk : k ≠ 0) {p : Coord3 K} {P : (edwW 1 d).Point} :
    EdwRep ⟨k * p.X, k * p.Y, k * p.Z⟩ P ↔ EdwRep p P := by
  rw [edwRep_iff, edwRep_iff]
  simp only [mul_eq_zero, hk, false_or, ne_eq, mul_div_mul_left _ _ hk]

/-- `dbl` agrees with `operator+` up to a factor. -/
theorem plus_self (hD : ∀ x, mulD x = d * x) {p : Coord3 K} {P : (edwW 1 d).Point} (hp : EdwRep p P) :
    ∃ k, k ≠ 0 ∧ plus (fun x => x) mulD p p =
      ⟨k * (dbl1 mulD p).X, k * (dbl1 mulD p).Y, k * (dbl1 mulD p).Z⟩ := by
  have hp' := hp
  rw [edwRep_iff] at hp'
  rcases hp' with ⟨rfl, h, h'⟩ | ⟨h0, hX, hY, hZ, hpt⟩
  · refine ⟨1, one_ne_zero, ?_⟩
    rw [plus, if_pos ((isZero_rep hp).2 rfl), dbl1, if_pos ((isZero_rep hp).2 rfl)]
    simp
  refine ⟨p.Z ^ 2, pow_ne_zero 2 hZ, ?_⟩
  have hon := (isWellFormed_iff (a := 1) (fun x => (one_mul x).symm) hD hX hY hZ).2 hpt.2.2.1
  simp only [isWellFormed, isZero_false hZ, LawfulSquared.squared_eq, Bool.false_eq_true, if_false,
    decide_eq_true_eq, hD] at hon
  rw [plus, isZero_false hZ, if_neg Bool.false_ne_true, if_neg Bool.false_ne_true, dbl1, isZero_false hZ,
    if_neg Bool.false_ne_true]
  simp only [add, LawfulSquared.squared_eq, hD, Coord3.mk.injEq]
  refine ⟨?_, ?_, ?_⟩
  · linear_combination (-(p.X * p.X - p.Y * p.Y)) * hon
  · linear_combination (-2 * p.X * p.Y) * hon
  · ring

end Edw
end
end Libff
