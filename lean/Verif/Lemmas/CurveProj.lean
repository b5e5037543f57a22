import Verif.Lemmas.Curve

/-!
# The projective formulas compute the group law
-/
namespace Libff
open WeierstrassCurve Affine

variable {K : Type*} [Field K] [DecidableEq K] [Squared K] [LawfulSquared K] {a b : K} {mulA : K → K}

namespace Proj

omit [Squared K] [LawfulSquared K] in
theorem isZero_iff (p : Coord3 K) : isZero p = true ↔ p.X = 0 ∧ p.Z = 0 := by simp [isZero]

omit [Squared K] [LawfulSquared K] in
theorem isZero_rep {p : Coord3 K} {P : (sw a b).Point} (h : ProjRep p P) : isZero p = true ↔ P = 0 := by
  rw [isZero_iff]
  rcases P with _ | ⟨x, y, hP⟩
  · exact ⟨fun _ => rfl, fun _ => h⟩
  · exact ⟨fun h0 => absurd h0.2 h.1, fun h0 => absurd h0 (Point.some_ne_zero hP)⟩

omit [Squared K] [LawfulSquared K] in
theorem isZero_false {p : Coord3 K} (h : p.Z ≠ 0) : isZero p = false := by simp [isZero, h]

omit [DecidableEq K] [Squared K] [LawfulSquared K] in
theorem rep_zero {p : Coord3 K} (h : p.X = 0) (h' : p.Z = 0) : ProjRep p (0 : (sw a b).Point) := ⟨h, h'⟩

theorem dblFormula_rep (hA : ∀ x, mulA x = a * x) (h2 : (2 : K) ≠ 0) {p : Coord3 K} {x y : K}
    {hP : (sw a b).Nonsingular x y} (h : ProjRep p (Point.some x y hP)) :
    ProjRep (dblFormula mulA p) (Point.some x y hP + Point.some x y hP) := by
  obtain ⟨hZ, hX, hY⟩ := h
  rcases p with ⟨X, Y, Z⟩
  dsimp only at hZ hX hY
  subst hX hY
  simp only [dblFormula, LawfulSquared.squared_eq, hA]
  by_cases hy : y = 0
  · rw [weier_add_inv (by simp [hy])]
    apply rep_zero <;> simp [hy]
  · obtain ⟨h3, e3⟩ := weier_dbl h2 (h := hP) (h' := hP) hy rfl rfl
    rw [e3]
    refine ⟨?_, ?_, ?_⟩
    · intro h0
      have h0 : (2 * y * Z ^ 2) ^ 3 = 0 := by linear_combination h0
      exact (pow_ne_zero 3 (mul_ne_zero (mul_ne_zero h2 hy) (pow_ne_zero 2 hZ))) h0
    · dsimp only
      field_simp
      ring
    · dsimp only
      field_simp
      ring

theorem dbl_rep (hA : ∀ x, mulA x = a * x) (h2 : (2 : K) ≠ 0) {p : Coord3 K} {P : (sw a b).Point}
    (h : ProjRep p P) : ProjRep (dbl mulA p) (P + P) := by
  rcases P with _ | ⟨x, y, hP⟩
  · have hz : isZero p = true := (isZero_iff p).2 h
    have : dbl mulA p = p := by simp [dbl, hz]
    rw [this]
    exact h
  · have : dbl mulA p = dblFormula mulA p := by simp [dbl, isZero_false h.1]
    rw [this]
    exact dblFormula_rep hA h2 h

omit [DecidableEq K] [Squared K] [LawfulSquared K] in
theorem cross_iff {X₁ X₂ Z₁ Z₂ x₁ x₂ : K} (h₁ : Z₁ ≠ 0) (h₂ : Z₂ ≠ 0) (e₁ : X₁ = x₁ * Z₁) (e₂ : X₂ = x₂ * Z₂) :
    X₁ * Z₂ = Z₁ * X₂ ↔ x₁ = x₂ := by
  rw [e₁, e₂]
  constructor
  · intro h
    have : (x₁ - x₂) * (Z₁ * Z₂) = 0 := by linear_combination h
    exact sub_eq_zero.1 ((mul_eq_zero.1 this).resolve_right (mul_ne_zero h₁ h₂))
  · rintro rfl; ring

theorem plus_rep (hA : ∀ x, mulA x = a * x) (h2 : (2 : K) ≠ 0) {p q : Coord3 K} {P Q : (sw a b).Point}
    (hp : ProjRep p P) (hq : ProjRep q Q) : ProjRep (plus mulA p q) (P + Q) := by
  rcases P with _ | ⟨x₁, y₁, hP⟩
  · have hz : isZero p = true := (isZero_iff p).2 hp
    simp only [plus, hz, if_true]
    rw [← Point.zero_def, zero_add]
    exact hq
  have hz1 : isZero p = false := isZero_false hp.1
  rcases Q with _ | ⟨x₂, y₂, hQ⟩
  · have hz : isZero q = true := (isZero_iff q).2 hq
    simp only [plus, hz1, hz, if_true, Bool.false_eq_true, if_false]
    rw [← Point.zero_def, add_zero]
    exact hp
  have hz2 : isZero q = false := isZero_false hq.1
  have hd := dblFormula_rep hA h2 hp
  obtain ⟨hZ1, hX1, hY1⟩ := hp
  obtain ⟨hZ2, hX2, hY2⟩ := hq
  have hU := cross_iff hZ1 hZ2 hX1 hX2
  have hS := cross_iff hZ1 hZ2 hY1 hY2
  simp only [plus, hz1, hz2, LawfulSquared.squared_eq, Bool.false_eq_true, if_false, hU, hS]
  by_cases hx : x₁ = x₂
  · subst hx
    by_cases hy : y₁ = y₂
    · subst hy
      simpa using hd
    · simp only [hy, and_false, if_false]
      rw [weier_add_inv (weier_y_of_x hP hQ hy)]
      apply rep_zero <;> dsimp only <;> rw [hX1, hX2] <;> ring
  · simp only [hx, false_and, if_false]
    obtain ⟨h3, e3⟩ := weier_add_of_ne (h₁ := hP) (h₂ := hQ) hx rfl rfl
    rw [e3]
    have hx' : x₂ - x₁ ≠ 0 := sub_ne_zero.2 (Ne.symm hx)
    rcases p with ⟨X1, Y1, Z1⟩
    rcases q with ⟨X2, Y2, Z2⟩
    dsimp only at hZ1 hX1 hY1 hZ2 hX2 hY2
    subst hX1 hY1 hX2 hY2
    refine ⟨?_, ?_, ?_⟩
    · intro h0
      have h0 : (x₂ - x₁) ^ 3 * (Z1 ^ 4 * Z2 ^ 4) = 0 := by linear_combination h0
      exact (mul_ne_zero (pow_ne_zero 3 hx') (mul_ne_zero (pow_ne_zero 4 hZ1) (pow_ne_zero 4 hZ2))) h0
    · dsimp only
      field_simp
      ring
    · dsimp only
      field_simp
      ring

omit [DecidableEq K] [Squared K] [LawfulSquared K] in
theorem neg_rep {p : Coord3 K} {P : (sw a b).Point} (h : ProjRep p P) : ProjRep (neg p) (-P) := by
  rcases P with _ | ⟨x, y, hP⟩
  · exact h
  · obtain ⟨h', e⟩ := weier_neg hP
    rw [e]
    obtain ⟨hZ, hX, hY⟩ := h
    exact ⟨hZ, hX, by simp only [neg]; rw [hY]; ring⟩

theorem sub_rep (hA : ∀ x, mulA x = a * x) (h2 : (2 : K) ≠ 0) {p q : Coord3 K} {P Q : (sw a b).Point}
    (hp : ProjRep p P) (hq : ProjRep q Q) : ProjRep (sub mulA p q) (P - Q) := by
  rw [sub_eq_add_neg]
  exact plus_rep hA h2 hp (neg_rep hq)

omit [Squared K] [LawfulSquared K] in
theorem eq_rep {p q : Coord3 K} {P Q : (sw a b).Point} (hp : ProjRep p P) (hq : ProjRep q Q) :
    eq p q = true ↔ P = Q := by
  rcases P with _ | ⟨x₁, y₁, h₁⟩
  · have hz : isZero p = true := (isZero_iff p).2 hp
    simp only [eq, hz, if_true]
    rw [isZero_rep hq]
    exact eq_comm
  have hz1 : isZero p = false := isZero_false hp.1
  rcases Q with _ | ⟨x₂, y₂, h₂⟩
  · have hz : isZero q = true := (isZero_iff q).2 hq
    simp [eq, hz1, hz]
  have hz2 : isZero q = false := isZero_false hq.1
  obtain ⟨hZ1, hX1, hY1⟩ := hp
  obtain ⟨hZ2, hX2, hY2⟩ := hq
  have hU := cross_iff hZ1 hZ2 hX1 hX2
  have hS := cross_iff hZ1 hZ2 hY1 hY2
  rw [mul_comm p.Z] at hU hS
  simp only [eq, hz1, hz2, Bool.false_eq_true, if_false, ne_eq, hU, hS, Point.some.injEq]
  by_cases hx : x₁ = x₂ <;> simp [hx]

/-- `add` and `operator+` agree on every pair of well formed points, coordinate by coordinate. -/
theorem add_eq_plus {p q : Coord3 K} {P Q : (sw a b).Point} (hp : ProjRep p P) (hq : ProjRep q Q) :
    add mulA p q = plus mulA p q := by
  unfold add plus
  by_cases hz1 : isZero p = true
  · simp [hz1]
  by_cases hz2 : isZero q = true
  · simp [hz1, hz2]
  have hiff : eq p q = true ↔ p.X * q.Z = p.Z * q.X ∧ p.Y * q.Z = p.Z * q.Y := by
    simp only [eq, hz1, hz2, Bool.false_eq_true, if_false, ne_eq, ite_not, mul_comm p.Z]
    split
    · rename_i h1
      split
      · rename_i h2; simp [h1, h2]
      · rename_i h2; simp [h2]
    · rename_i h1
      simp [h1]
  simp only [hz1, hz2, hiff, Bool.false_eq_true, if_false]
  split
  · simp [dbl, hz1]
  · ext <;> dsimp only <;> simp only [mul_comm p.Z]

theorem mixedAdd_rep (hA : ∀ x, mulA x = a * x) (h2 : (2 : K) ≠ 0) (debug : Bool) {p q : Coord3 K}
    {P Q : (sw a b).Point} (hp : ProjRep p P) (hq : ProjRep q Q) (hs : isSpecial q = true) :
    ∃ r, mixedAdd mulA debug p q = .ok r ∧ ProjRep r (P + Q) := by
  by_cases hz1 : isZero p = true
  · have := (isZero_rep hp).1 hz1
    refine ⟨q, by simp [mixedAdd, hz1], ?_⟩
    rw [this, zero_add]
    exact hq
  by_cases hz2 : isZero q = true
  · have := (isZero_rep hq).1 hz2
    refine ⟨p, by simp [mixedAdd, hz1, hz2], ?_⟩
    rw [this, add_zero]
    exact hp
  have hZ : q.Z = 1 := by simpa [isSpecial, hz2] using hs
  refine ⟨plus mulA p q, ?_, plus_rep hA h2 hp hq⟩
  simp only [mixedAdd, plus, hz1, hz2, hs, hZ, mul_one, Bool.false_eq_true, if_false, Bool.not_true,
    Bool.and_false]
  split
  · simp [dbl, hz1]
  · congr 2 <;> ring

omit [Squared K] [LawfulSquared K] in
theorem rep_unique {p : Coord3 K} {P Q : (sw a b).Point} (hP : ProjRep p P) (hQ : ProjRep p Q) : P = Q := by
  rcases P with _ | ⟨x₁, y₁, h₁⟩
  · exact ((isZero_rep hQ).1 ((isZero_iff p).2 hP)).symm
  rcases Q with _ | ⟨x₂, y₂, h₂⟩
  · exact (isZero_rep hP).1 ((isZero_iff p).2 hQ)
  obtain ⟨z, a1, a2⟩ := hP
  obtain ⟨_, b1, b2⟩ := hQ
  have ex : x₁ = x₂ := mul_right_cancel₀ z (a1.symm.trans b1)
  have ey : y₁ = y₂ := mul_right_cancel₀ z (a2.symm.trans b2)
  subst ex ey
  rfl

theorem isWellFormed_iff (hΔ : (sw a b).Δ ≠ 0) (p : Coord3 K) :
    isWellFormed a b p = true ↔ ∃ P : (sw a b).Point, ProjRep p P := by
  by_cases hz : isZero p = true
  · simp only [isWellFormed, hz, if_true, true_iff]
    exact ⟨0, (isZero_iff p).1 hz⟩
  · simp only [isWellFormed, hz, LawfulSquared.squared_eq, Bool.false_eq_true, if_false, decide_eq_true_eq]
    constructor
    · intro h
      have hZ : p.Z ≠ 0 := by
        intro h0
        rw [h0] at h
        have hx : p.X ^ 3 = 0 := by linear_combination -h
        exact hz ((isZero_iff p).2 ⟨pow_eq_zero_iff (by decide) |>.1 hx, h0⟩)
      refine ⟨.some (p.X / p.Z) (p.Y / p.Z) ((weier_nonsingular hΔ).2 ?_), hZ, ?_, ?_⟩
      · field_simp
        linear_combination h
      · field_simp
      · field_simp
    · rintro ⟨_ | ⟨x, y, hP⟩, h⟩
      · exact absurd ((isZero_iff p).2 h) hz
      · obtain ⟨_, hX, hY⟩ := h
        have e := weier_equation.1 hP.1
        rw [hX, hY]
        linear_combination (p.Z ^ 3) * e

variable [InverseO K] [LawfulInverse K]

omit [Squared K] [LawfulSquared K] in
theorem toAffine_rep {p : Coord3 K} {P : (sw a b).Point} (h : ProjRep p P) :
    (P = 0 ∧ toAffine p = .ok ⟨0, 1, 0⟩) ∨
      ∃ x y hP, P = Point.some x y hP ∧ toAffine p = .ok ⟨x, y, 1⟩ := by
  rcases P with _ | ⟨x, y, hP⟩
  · left
    have hz : isZero p = true := (isZero_iff p).2 h
    exact ⟨rfl, by simp [toAffine, hz]⟩
  · right
    refine ⟨x, y, hP, rfl, ?_⟩
    obtain ⟨hZ, hX, hY⟩ := h
    simp only [toAffine, isZero_false hZ, Bool.false_eq_true, if_false, LawfulInverse.inverseO_ne _ hZ,
      Outcome.map_ok]
    rw [hX, hY]
    congr 2 <;> field_simp

end Proj
end Libff
