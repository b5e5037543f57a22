import Verif.Lemmas.CurveEdw
import Verif.Lemmas.CurveBatch

/-!
# The Edwards group classes represent points
-/
namespace Libff
open WeierstrassCurve Affine

theorem noTwoTorsion_torsionSub {A : Type*} [AddCommGroup A] (n : Nat) (hn : n % 2 = 1) :
    NoTwoTorsion (torsionSub n : AddSubgroup A) := by
  intro P hP h
  have hP : n • P = 0 := hP
  rw [← two_nsmul] at h
  rw [← Nat.div_add_mod n 2, hn, add_nsmul, mul_nsmul, h, nsmul_zero, zero_add, one_nsmul] at hP
  exact hP

variable {K : Type*} [Field K] [DecidableEq K] {a d : K}

theorem edwRep_iff {p : Coord3 K} {P : (edwW a d).Point} : EdwRep p P ↔
    (P = 0 ∧ p.Y = 0 ∧ p.Z = 0) ∨
      (P ≠ 0 ∧ p.X ≠ 0 ∧ p.Y ≠ 0 ∧ p.Z ≠ 0 ∧ EdwPt (p.Z / p.X) (p.Z / p.Y) P) := by
  rcases P with _ | ⟨u, v, h⟩
  · have h0 : (Point.zero : (edwW a d).Point) = 0 := rfl
    simp [EdwRep, h0]
  · simp only [EdwRep, EdwPt]
    constructor
    · rintro ⟨h1, h2, h3, h4, rfl, rfl⟩
      exact Or.inr ⟨Point.some_ne_zero _, h1, h2, h3, div_ne_zero h3 h1, div_ne_zero h3 h2, h4, h, rfl⟩
    · rintro (⟨h0, -⟩ | ⟨-, h1, h2, h3, -, -, h4, h', hh⟩)
      · exact absurd h0 (Point.some_ne_zero _)
      · simp only [Point.some.injEq] at hh
        refine ⟨h1, h2, h3, h4, hh.1, ?_⟩
        rw [hh.2, hh.1]

omit [DecidableEq K] in
/-- Every affine point with nonzero coordinates and `y ≠ ±1` is a point of the Weierstrass form. -/
theorem edwPt_exists (h2 : (2 : K) ≠ 0) (hc : a - d ≠ 0) {x y : K} (hx : x ≠ 0) (hy : y ≠ 0) (h : EdwOn a d x y) :
    ∃ P : (edwW a d).Point, P ≠ 0 ∧ EdwPt x y P := by
  have w := h.w_ne hc hx
  have w' := h.w_ne' hc hx
  have hv : 2 * ((a - d) * (1 + y) / (1 - y)) / x ≠ 0 :=
    div_ne_zero (mul_ne_zero h2 (div_ne_zero (mul_ne_zero hc w') w)) hx
  have hns : (edwW a d).Nonsingular ((a - d) * (1 + y) / (1 - y)) (2 * ((a - d) * (1 + y) / (1 - y)) / x) := by
    rw [nonsingular_iff]
    refine ⟨?_, Or.inr ?_⟩
    · rw [weier_equation]
      have ha := h.a_eq hx
      rw [ha]
      field_simp
      ring
    · simp only [weier, zero_mul, sub_zero]
      intro h0
      have : 2 * (2 * ((a - d) * (1 + y) / (1 - y)) / x) = 0 := by linear_combination h0
      exact mul_ne_zero h2 hv this
  exact ⟨_, Point.some_ne_zero hns, hx, hy, h, hns, rfl⟩

omit [DecidableEq K] in
theorem edwPt_inj (h2 : (2 : K) ≠ 0) (hc : a - d ≠ 0) {x y x' y' : K} {P : (edwW a d).Point} (h : EdwPt x y P)
    (h' : EdwPt x' y' P) : x = x' ∧ y = y' := by
  obtain ⟨hx, -, e, hP, rfl⟩ := h
  obtain ⟨hx', -, e', hP', hh⟩ := h'
  simp only [Point.some.injEq] at hh
  obtain ⟨hu, hv⟩ := hh
  have w := e.w_ne hc hx
  have w' := e'.w_ne hc hx'
  have hne : 2 * ((a - d) * (1 + y') / (1 - y')) ≠ 0 :=
    mul_ne_zero h2 (div_ne_zero (mul_ne_zero hc (e'.w_ne' hc hx')) w')
  constructor
  · rw [hu, div_eq_div_iff hx hx'] at hv
    exact (mul_left_cancel₀ hne hv).symm
  · rw [div_eq_div_iff w w'] at hu
    have : 2 * (a - d) * (y - y') = 0 := by linear_combination hu
    exact sub_eq_zero.1 ((mul_eq_zero.1 this).resolve_left (mul_ne_zero h2 hc))

namespace Edw

theorem rep_unique {p : Coord3 K} {P Q : (edwW a d).Point} (hP : EdwRep p P) (hQ : EdwRep p Q) : P = Q := by
  rw [edwRep_iff] at hP hQ
  rcases hP with ⟨rfl, -, h⟩ | ⟨-, -, -, h, -, -, -, t, rfl⟩ <;>
    rcases hQ with ⟨rfl, -, h'⟩ | ⟨-, -, -, h', -, -, -, t', rfl⟩
  · rfl
  · exact absurd h h'
  · exact absurd h' h
  · rfl

theorem isZero_rep {p : Coord3 K} {P : (edwW a d).Point} (hP : EdwRep p P) : isZero p = true ↔ P = 0 := by
  rw [edwRep_iff] at hP
  rcases hP with ⟨rfl, h, h'⟩ | ⟨h0, -, -, h, -⟩
  · simp [isZero, h, h']
  · simp [isZero, h, h0]

theorem isZero_false {p : Coord3 K} (h : p.Z ≠ 0) : isZero p = false := by simp [isZero, h]

theorem neg_rep {p : Coord3 K} {P : (edwW a d).Point} (hP : EdwRep p P) : EdwRep (neg p) (-P) := by
  rw [edwRep_iff] at hP ⊢
  rcases hP with ⟨rfl, h, h'⟩ | ⟨h0, hX, hY, hZ, h⟩
  · exact Or.inl ⟨neg_zero, h, h'⟩
  · refine Or.inr ⟨neg_ne_zero.2 h0, neg_ne_zero.2 hX, hY, hZ, ?_⟩
    have := edwPt_neg h
    simpa only [neg, div_neg] using this

variable [Squared K] [LawfulSquared K] {mulA mulD : K → K} {H : AddSubgroup (edwW a d).Point}

omit [DecidableEq K] in
/-- The affine addition law is what `add` computes. -/
theorem add_affine (hA : ∀ x, mulA x = a * x) (hD : ∀ x, mulD x = d * x) {p q : Coord3 K}
    (hpX : p.X ≠ 0) (hpY : p.Y ≠ 0) (hpZ : p.Z ≠ 0) (hqX : q.X ≠ 0) (hqY : q.Y ≠ 0) (hqZ : q.Z ≠ 0) (x₁ y₁ x₂ y₂ : K)
    (h1 : x₁ = p.Z / p.X) (h2 : y₁ = p.Z / p.Y) (h3 : x₂ = q.Z / q.X) (h4 : y₂ = q.Z / q.Y) :
    ∃ E A : K, E ≠ 0 ∧ A ≠ 0 ∧
      (add mulA mulD p q).X = E * E / A * ((1 + d * x₁ * x₂ * y₁ * y₂) * (y₁ * y₂ - a * x₁ * x₂)) ∧
      (add mulA mulD p q).Y = E * E / A * ((1 - d * x₁ * x₂ * y₁ * y₂) * (x₁ * y₂ + y₁ * x₂)) ∧
      (add mulA mulD p q).Z = E * E / A * ((y₁ * y₂ - a * x₁ * x₂) * (x₁ * y₂ + y₁ * x₂)) := by
  refine ⟨p.X * q.X * (p.Y * q.Y), p.Z * q.Z, mul_ne_zero (mul_ne_zero hpX hqX) (mul_ne_zero hpY hqY),
    mul_ne_zero hpZ hqZ, ?_, ?_, ?_⟩
  · simp only [add, hA, hD, LawfulSquared.squared_eq, h1, h2, h3, h4]
    field_simp
  · simp only [add, hA, hD, LawfulSquared.squared_eq, h1, h2, h3, h4]
    field_simp
    ring
  · simp only [add, hA, hD, LawfulSquared.squared_eq, h1, h2, h3, h4]
    field_simp
    ring

theorem plus_rep (hA : ∀ x, mulA x = a * x) (hD : ∀ x, mulD x = d * x) (h2 : (2 : K) ≠ 0) (hc : a - d ≠ 0)
    (hH : NoTwoTorsion H) {p q : Coord3 K} {P Q : (edwW a d).Point} (hp : EdwRep p P) (hq : EdwRep q Q)
    (hPH : P ∈ H) (hQH : Q ∈ H) : EdwRep (plus mulA mulD p q) (P + Q) := by
  have hp' := hp
  have hq' := hq
  rw [edwRep_iff] at hp' hq'
  rcases hp' with ⟨rfl, h, h'⟩ | ⟨h0, hX, hY, hZ, hpt⟩
  · rwa [plus, if_pos ((isZero_rep hp).2 rfl), zero_add]
  rcases hq' with ⟨rfl, h, h'⟩ | ⟨h0', hX', hY', hZ', hpt'⟩
  · rwa [plus, isZero_false hZ, if_neg Bool.false_ne_true, if_pos ((isZero_rep hq).2 rfl), add_zero]
  rw [plus, isZero_false hZ, if_neg Bool.false_ne_true, isZero_false hZ', if_neg Bool.false_ne_true]
  obtain ⟨E, A, hE, hA0, e1, e2, e3⟩ := add_affine hA hD hX hY hZ hX' hY' hZ' _ _ _ _ rfl rfl rfl rfl
  have hk : E * E / A ≠ 0 := div_ne_zero (mul_ne_zero hE hE) hA0
  by_cases hS : P + Q = 0
  · rcases edwPt_add h2 hc hpt hpt' with ⟨-, hx, hy⟩ | ⟨u, v, h, hh, -⟩
    · rw [hS]
      have hs : p.Z / p.X * (q.Z / q.Y) + p.Z / p.Y * (q.Z / q.X) = 0 := by
        rw [hx, hy]
        ring
      refine ⟨?_, ?_⟩
      · rw [e2, hs, mul_zero, mul_zero]
      · rw [e3, hs, mul_zero, mul_zero]
    · rw [hh] at hS
      exact absurd hS (Point.some_ne_zero _)
  · obtain ⟨hs, hm, he, he', hR⟩ := edwPt_sum h2 hc hH hPH hQH hpt hpt' hS
    rw [edwRep_iff]
    refine Or.inr ⟨hS, ?_, ?_, ?_, ?_⟩
    · rw [e1]
      exact mul_ne_zero hk (mul_ne_zero he hm)
    · rw [e2]
      exact mul_ne_zero hk (mul_ne_zero he' hs)
    · rw [e3]
      exact mul_ne_zero hk (mul_ne_zero hm hs)
    · rw [e1, e2, e3, mul_div_mul_left _ _ hk, mul_div_mul_left _ _ hk, mul_comm (1 + _) (_ - _),
        mul_div_mul_left _ _ hm, mul_div_mul_right _ _ hs]
      exact hR

theorem sub_rep (hA : ∀ x, mulA x = a * x) (hD : ∀ x, mulD x = d * x) (h2 : (2 : K) ≠ 0) (hc : a - d ≠ 0)
    (hH : NoTwoTorsion H) {p q : Coord3 K} {P Q : (edwW a d).Point} (hp : EdwRep p P) (hq : EdwRep q Q)
    (hPH : P ∈ H) (hQH : Q ∈ H) : EdwRep (sub mulA mulD p q) (P - Q) := by
  rw [sub_eq_add_neg]
  exact plus_rep hA hD h2 hc hH hp (neg_rep hq) hPH (H.neg_mem hQH)

theorem dbl_rep (hA : ∀ x, mulA x = a * x) (hD : ∀ x, mulD x = d * x) (h2 : (2 : K) ≠ 0) (hc : a - d ≠ 0)
    (hH : NoTwoTorsion H) {p : Coord3 K} {P : (edwW a d).Point} (hp : EdwRep p P)
    (hPH : P ∈ H) : EdwRep (dbl mulA mulD p) (P + P) := by
  have hp' := hp
  rw [edwRep_iff] at hp'
  rcases hp' with ⟨rfl, h, h'⟩ | ⟨h0, hX, hY, hZ, hpt⟩
  · rw [dbl, if_pos ((isZero_rep hp).2 rfl), zero_add]
    exact hp
  have hS : P + P ≠ 0 := fun h => h0 (hH P hPH h)
  obtain ⟨hs, hm, he, he', hR⟩ := edwPt_sum h2 hc hH hPH hPH hpt hpt hS
  have hon := hpt.2.2.1
  unfold EdwOn at hon
  obtain ⟨X, Y, Z⟩ := p
  simp only at hX hY hZ hs hm he he' hR hon
  have hon' : Z ^ 2 * (X ^ 2 + a * Y ^ 2) = X ^ 2 * Y ^ 2 + d * Z ^ 4 := by
    field_simp at hon
    linear_combination hon
  have e1 : 1 + d * (Z / X) * (Z / X) * (Z / Y) * (Z / Y) = Z ^ 2 / (X ^ 2 * Y ^ 2) * (X * X + a * (Y * Y)) := by
    field_simp
    linear_combination -hon'
  have e2 : 1 - d * (Z / X) * (Z / X) * (Z / Y) * (Z / Y) =
      Z ^ 2 / (X ^ 2 * Y ^ 2) * (X * X + a * (Y * Y) - d * (Z * Z) - d * (Z * Z)) := by
    field_simp
    linear_combination -hon'
  have e3 : Z / X * (Z / Y) + Z / Y * (Z / X) = Z ^ 2 / (X ^ 2 * Y ^ 2) * ((X + Y) * (X + Y) - X * X - Y * Y) := by
    field_simp
    ring
  have e4 : Z / Y * (Z / Y) - a * (Z / X) * (Z / X) = Z ^ 2 / (X ^ 2 * Y ^ 2) * (X * X - a * (Y * Y)) := by
    field_simp
  have hk : Z ^ 2 / (X ^ 2 * Y ^ 2) ≠ 0 :=
    div_ne_zero (pow_ne_zero 2 hZ) (mul_ne_zero (pow_ne_zero 2 hX) (pow_ne_zero 2 hY))
  rw [e3] at hs
  rw [e4] at hm
  rw [e1] at he
  rw [e2] at he'
  rw [e1, e2, e3, e4, mul_div_mul_left _ _ hk, mul_div_mul_left _ _ hk] at hR
  have hs := right_ne_zero_of_mul hs
  have hm := right_ne_zero_of_mul hm
  have he := right_ne_zero_of_mul he
  have he' := right_ne_zero_of_mul he'
  rw [dbl, isZero_false hZ, if_neg Bool.false_ne_true]
  simp only [LawfulSquared.squared_eq, hA, hD]
  rw [edwRep_iff]
  refine Or.inr ⟨hS, mul_ne_zero he hm, mul_ne_zero hs he', mul_ne_zero hm hs, ?_⟩
  simp only
  rw [mul_comm (X * X + _) (X * X - _), mul_div_mul_left _ _ hm, mul_comm (X * X - _) (_ - Y * Y),
    mul_div_mul_left _ _ hs]
  exact hR

theorem dbl1_eq (p : Coord3 K) : dbl1 mulD p = dbl (fun x => x) mulD p := by
  simp only [dbl1, dbl, LawfulSquared.squared_eq, sub_sub]

theorem mixedAdd_rep (hA : ∀ x, mulA x = a * x) (hD : ∀ x, mulD x = d * x) (h2 : (2 : K) ≠ 0) (hc : a - d ≠ 0)
    (hH : NoTwoTorsion H) (debug : Bool) {p q : Coord3 K} {P Q : (edwW a d).Point} (hp : EdwRep p P)
    (hq : EdwRep q Q) (hPH : P ∈ H) (hQH : Q ∈ H) (hs : isSpecial q = true) :
    ∃ r, mixedAdd mulA mulD debug p q = .ok r ∧ EdwRep r (P + Q) := by
  refine ⟨_, ?_, plus_rep hA hD h2 hc hH hp hq hPH hQH⟩
  simp only [mixedAdd, plus]
  by_cases h1 : isZero p = true
  · rw [if_pos h1, if_pos h1]
  · rw [if_neg h1, if_neg h1]
    by_cases h2 : isZero q = true
    · rw [if_pos h2, if_pos h2]
    · rw [if_neg h2, if_neg h2, if_neg (by simp [hs])]
      have hz : q.Z = 1 := by
        simp only [isSpecial, Bool.or_eq_true, h2, false_or, decide_eq_true_eq] at hs
        simpa using hs
      simp only [add, hz, mul_one]

omit [Squared K] [LawfulSquared K] in
theorem eq_rep (h2 : (2 : K) ≠ 0) (hc : a - d ≠ 0) {p q : Coord3 K} {P Q : (edwW a d).Point} (hp : EdwRep p P)
    (hq : EdwRep q Q) : eq p q = true ↔ P = Q := by
  have hp' := hp
  have hq' := hq
  rw [edwRep_iff] at hp' hq'
  unfold eq
  rcases hp' with ⟨rfl, h, h'⟩ | ⟨h0, hX, hY, hZ, hpt⟩
  · rw [if_pos ((isZero_rep hp).2 rfl), isZero_rep hq, eq_comm]
  rw [isZero_false hZ, if_neg Bool.false_ne_true]
  rcases hq' with ⟨rfl, h, h'⟩ | ⟨h0', hX', hY', hZ', hpt'⟩
  · rw [if_pos ((isZero_rep hq).2 rfl)]
    simp [h0]
  rw [isZero_false hZ', if_neg Bool.false_ne_true]
  have key : P = Q ↔ p.Z / p.X = q.Z / q.X ∧ p.Z / p.Y = q.Z / q.Y := by
    constructor
    · rintro rfl
      exact edwPt_inj h2 hc hpt hpt'
    · rintro ⟨e1, e2⟩
      obtain ⟨-, -, -, t, rfl⟩ := hpt
      obtain ⟨-, -, -, t', rfl⟩ := hpt'
      simp only [Point.some.injEq, e1, e2, and_self]
  rw [key, div_eq_div_iff hX hX', div_eq_div_iff hY hY']
  have c1 : p.X * q.Z = q.X * p.Z ↔ p.Z * q.X = q.Z * p.X := by
    rw [mul_comm p.X, mul_comm q.X, eq_comm]
  have c2 : p.Y * q.Z = q.Y * p.Z ↔ p.Z * q.Y = q.Z * p.Y := by
    rw [mul_comm p.Y, mul_comm q.Y, eq_comm]
  rw [← c1, ← c2]
  by_cases e1 : p.X * q.Z = q.X * p.Z <;> by_cases e2 : p.Y * q.Z = q.Y * p.Z <;> simp [e1, e2]

theorem isWellFormed_iff (hA : ∀ x, mulA x = a * x) (hD : ∀ x, mulD x = d * x) {p : Coord3 K}
    (hX : p.X ≠ 0) (hY : p.Y ≠ 0) (hZ : p.Z ≠ 0) :
    isWellFormed mulA mulD p = true ↔ EdwOn a d (p.Z / p.X) (p.Z / p.Y) := by
  simp only [isWellFormed, isZero_false hZ, LawfulSquared.squared_eq, Bool.false_eq_true, if_false,
    decide_eq_true_eq, hA, hD, EdwOn]
  constructor
  · intro h
    field_simp
    apply mul_left_cancel₀ (pow_ne_zero 2 hZ)
    linear_combination p.Z ^ 2 * h
  · intro h
    field_simp at h
    linear_combination h

theorem isWellFormed_rep (hA : ∀ x, mulA x = a * x) (hD : ∀ x, mulD x = d * x) {p : Coord3 K}
    {P : (edwW a d).Point} (hp : EdwRep p P) : isWellFormed mulA mulD p = true := by
  have hp' := hp
  rw [edwRep_iff] at hp'
  rcases hp' with ⟨rfl, h, h'⟩ | ⟨h0, hX, hY, hZ, hpt⟩
  · rw [isWellFormed, if_pos ((isZero_rep hp).2 rfl)]
  · exact (isWellFormed_iff hA hD hX hY hZ).2 hpt.2.2.1

/-- The operations of `edwards_G2`, as the generic algorithms use them. -/
@[reducible] def ops (mulA mulD : K → K) : GroupOps (Coord3 K) :=
  ⟨zero, plus mulA mulD, sub mulA mulD, dbl mulA mulD⟩

/-- The operations of `edwards_G1`. -/
@[reducible] def ops1 (mulD : K → K) : GroupOps (Coord3 K) :=
  ⟨zero, plus (fun x => x) mulD, sub (fun x => x) mulD, dbl1 mulD⟩

omit [Squared K] [LawfulSquared K] in
theorem zero_rep : EdwRep zero (0 : (edwW a d).Point) := ⟨rfl, by simp [zero, ofAffine]⟩

theorem implementsRel (hA : ∀ x, mulA x = a * x) (hD : ∀ x, mulD x = d * x) (h2 : (2 : K) ≠ 0)
    (hc : a - d ≠ 0) (hH : NoTwoTorsion H) : @ImplementsRel _ _ (ops mulA mulD) _ (EdwRepIn H) :=
  letI : GroupOps (Coord3 K) := ops mulA mulD
  { unique := fun h h' => rep_unique h.2 h'.2
    zero := ⟨H.zero_mem, zero_rep⟩
    add := fun h h' => ⟨H.add_mem h.1 h'.1, plus_rep hA hD h2 hc hH h.2 h'.2 h.1 h'.1⟩
    sub := fun h h' => ⟨H.sub_mem h.1 h'.1, sub_rep hA hD h2 hc hH h.2 h'.2 h.1 h'.1⟩
    dbl := fun h => ⟨H.add_mem h.1 h.1, dbl_rep hA hD h2 hc hH h.2 h.1⟩ }

theorem implementsRel1 {H : AddSubgroup (edwW 1 d).Point} (hD : ∀ x, mulD x = d * x) (h2 : (2 : K) ≠ 0)
    (hc : 1 - d ≠ 0) (hH : NoTwoTorsion H) : @ImplementsRel _ _ (ops1 mulD) _ (EdwRepIn H) :=
  letI : GroupOps (Coord3 K) := ops1 mulD
  have hA : ∀ x : K, (fun x => x) x = 1 * x := fun x => (one_mul x).symm
  { unique := fun h h' => rep_unique h.2 h'.2
    zero := ⟨H.zero_mem, zero_rep⟩
    add := fun h h' => ⟨H.add_mem h.1 h'.1, plus_rep hA hD h2 hc hH h.2 h'.2 h.1 h'.1⟩
    sub := fun h h' => ⟨H.sub_mem h.1 h'.1, sub_rep hA hD h2 hc hH h.2 h'.2 h.1 h'.1⟩
    dbl := fun {g _} h => ⟨H.add_mem h.1 h.1, by
      change EdwRep (dbl1 mulD g) _
      rw [dbl1_eq]
      exact dbl_rep hA hD h2 hc hH h.2 h.1⟩ }

variable [InverseO K] [LawfulInverse K]

omit [Squared K] [LawfulSquared K] in
theorem toAffine_rep {p : Coord3 K} {P : (edwW a d).Point} (hp : EdwRep p P) :
    (P = 0 ∧ toAffine p = .ok ⟨0, 1, 1⟩) ∨
      (P ≠ 0 ∧ toAffine p = .ok ⟨p.Z / p.X, p.Z / p.Y, 1⟩ ∧ EdwPt (p.Z / p.X) (p.Z / p.Y) P) := by
  have hp' := hp
  rw [edwRep_iff] at hp'
  rcases hp' with ⟨rfl, h, h'⟩ | ⟨h0, hX, hY, hZ, hpt⟩
  · exact Or.inl ⟨rfl, by rw [toAffine, if_pos ((isZero_rep hp).2 rfl)]⟩
  · refine Or.inr ⟨h0, ?_, hpt⟩
    simp only [toAffine, isZero_false hZ, Bool.false_eq_true, if_false,
      LawfulInverse.inverseO_ne _ (mul_ne_zero hX hY), Outcome.map_ok, Outcome.ok.injEq, Coord3.mk.injEq,
      and_true]
    constructor <;> field_simp

omit [Squared K] [LawfulSquared K] in
theorem scale_rep {p : Coord3 K} {P : (edwW a d).Point} (hp : EdwRep p P) (h0 : P ≠ 0) :
    EdwRep ⟨p.X * p.Z⁻¹, p.Y * p.Z⁻¹, 1⟩ P := by
  rw [edwRep_iff] at hp ⊢
  rcases hp with ⟨rfl, -⟩ | ⟨-, hX, hY, hZ, hpt⟩
  · exact absurd rfl h0
  · refine Or.inr ⟨h0, mul_ne_zero hX (inv_ne_zero hZ), mul_ne_zero hY (inv_ne_zero hZ), one_ne_zero, ?_⟩
    have e1 : 1 / (p.X * p.Z⁻¹) = p.Z / p.X := by field_simp
    have e2 : 1 / (p.Y * p.Z⁻¹) = p.Z / p.Y := by field_simp
    simpa only [e1, e2] using hpt

omit [Squared K] [LawfulSquared K] in
theorem toSpecial_spec (h2 : (2 : K) ≠ 0) (hc : a - d ≠ 0) (debug : Bool) {p : Coord3 K} {P : (edwW a d).Point}
    (hp : EdwRep p P) : ∃ r, toSpecial debug p = .ok r ∧ EdwRep r P ∧ isSpecial r = true := by
  by_cases h0 : P = 0
  · refine ⟨p, ?_, hp, ?_⟩
    · rw [h0] at hp
      rw [toSpecial, if_pos hp.2]
    · simp [isSpecial, (isZero_rep hp).2 h0]
  · have hr := scale_rep hp h0
    refine ⟨_, ?_, hr, by simp [isSpecial]⟩
    have hp' := hp
    rw [edwRep_iff] at hp'
    rcases hp' with ⟨h, -⟩ | ⟨-, hX, hY, hZ, hpt⟩
    · exact absurd h h0
    · rw [toSpecial, if_neg hZ, LawfulInverse.inverseO_ne _ hZ, Outcome.bind_ok]
      simp only
      rw [(eq_rep h2 hc hr hp).2 rfl]
      simp

omit [Squared K] [LawfulSquared K] in
theorem batchToSpecialNZ_rep (debug : Bool) (vec : List (Coord3 K)) (Ps : List (edwW a d).Point)
    (h : List.Forall₂ EdwRep vec Ps) (hnz : ∀ P ∈ Ps, P ≠ 0) :
    ∃ l, batchToSpecialNZ debug vec = .ok l ∧ List.Forall₂ EdwRep l Ps ∧ ∀ p ∈ l, isSpecial p = true := by
  have hz : ∀ z ∈ vec.map (·.Z), z ≠ 0 := by
    clear debug
    induction h with
    | nil => simp
    | @cons p P ps Ps hp _ ih =>
      intro z hz
      rcases List.mem_cons.1 hz with rfl | hz
      · rw [edwRep_iff] at hp
        rcases hp with ⟨rfl, -⟩ | ⟨-, -, -, hZ, -⟩
        · exact absurd rfl (hnz _ List.mem_cons_self)
        · exact hZ
      · exact ih (fun Q hQ => hnz Q (List.mem_cons_of_mem _ hQ)) z hz
  refine ⟨scaleAll vec ((vec.map (·.Z)).map (·⁻¹)), by simp only [batchToSpecialNZ, batchInvert_ok debug _ hz, Outcome.map_ok], ?_, ?_⟩
  · clear hz
    induction h with
    | nil => exact List.Forall₂.nil
    | @cons p P ps Ps hp _ ih =>
      exact List.Forall₂.cons (scale_rep hp (hnz P List.mem_cons_self))
        (ih (fun Q hQ => hnz Q (List.mem_cons_of_mem _ hQ)))
  · clear hz hnz h
    induction vec with
    | nil => simp [scaleAll]
    | cons p ps ih =>
      intro q hq
      rcases List.mem_cons.1 hq with rfl | hq
      · simp [isSpecial]
      · exact ih q hq

end Edw
end Libff
