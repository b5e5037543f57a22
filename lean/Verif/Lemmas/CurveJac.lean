import Verif.Lemmas.Curve

/-!
# The Jacobian formulas compute the group law
-/
namespace Libff
open WeierstrassCurve Affine

variable {K : Type*} [Field K] [DecidableEq K] [Squared K] [LawfulSquared K] {b : K}

namespace Jac

omit [Squared K] [LawfulSquared K] in
theorem isZero_iff (p : Coord3 K) : isZero p = true ↔ p.Z = 0 := by simp [isZero]

omit [Squared K] [LawfulSquared K] in
theorem isZero_rep {p : Coord3 K} {P : (sw 0 b).Point} (h : JacRep p P) : isZero p = true ↔ P = 0 := by
  rw [isZero_iff]
  rcases P with _ | ⟨x, y, hP⟩
  · exact ⟨fun _ => rfl, fun _ => h⟩
  · exact ⟨fun h0 => absurd h0 h.1, fun h0 => absurd h0 (Point.some_ne_zero hP)⟩

omit [DecidableEq K] [Squared K] [LawfulSquared K] in
theorem rep_zero {p : Coord3 K} (h : p.Z = 0) : JacRep p (0 : (sw 0 b).Point) := h

omit [Squared K] [LawfulSquared K] in
theorem rep_of_Z {p : Coord3 K} {P : (sw 0 b).Point} (h : JacRep p P) (hz : p.Z = 0) : P = 0 :=
  (isZero_rep h).1 ((isZero_iff p).2 hz)

theorem dbl_rep (h2 : (2 : K) ≠ 0) {p : Coord3 K} {P : (sw 0 b).Point} (h : JacRep p P) :
    JacRep (dbl p) (P + P) := by
  rcases P with _ | ⟨x, y, hP⟩
  · have hz : isZero p = true := (isZero_iff p).2 h
    have : dbl p = p := by simp [dbl, hz]
    rw [this]
    exact h
  · obtain ⟨hZ, hX, hY⟩ := h
    have hz : isZero p = false := by simpa [isZero] using hZ
    rcases p with ⟨X, Y, Z⟩
    dsimp only at hZ hX hY
    subst hX hY
    simp only [dbl, hz, LawfulSquared.squared_eq, Bool.false_eq_true, if_false]
    by_cases hy : y = 0
    · rw [weier_add_inv (by simp [hy])]
      apply rep_zero
      simp [hy]
    · obtain ⟨h3, e3⟩ := weier_dbl h2 (h := hP) (h' := hP) hy rfl rfl
      rw [e3]
      refine ⟨?_, ?_, ?_⟩
      · intro h0
        have h0 : 2 * y * Z ^ 4 = 0 := by linear_combination h0
        exact (mul_ne_zero (mul_ne_zero h2 hy) (pow_ne_zero 4 hZ)) h0
      · dsimp only
        field_simp
        ring
      · dsimp only
        field_simp
        ring

theorem add_rep (h2 : (2 : K) ≠ 0) {p q : Coord3 K} {P Q : (sw 0 b).Point} (hp : JacRep p P)
    (hq : JacRep q Q) : JacRep (add p q) (P + Q) := by
  rcases P with _ | ⟨x₁, y₁, hP⟩
  · have hz : isZero p = true := (isZero_iff p).2 hp
    simp only [add, hz, if_true]
    rw [← Point.zero_def, zero_add]
    exact hq
  have hz1 : isZero p = false := by simpa [isZero] using hp.1
  rcases Q with _ | ⟨x₂, y₂, hQ⟩
  · have hz : isZero q = true := (isZero_iff q).2 hq
    simp only [add, hz1, hz, if_true, Bool.false_eq_true, if_false]
    rw [← Point.zero_def, add_zero]
    exact hp
  have hz2 : isZero q = false := by simpa [isZero] using hq.1
  have hd := dbl_rep h2 hp
  obtain ⟨hZ1, hX1, hY1⟩ := hp
  obtain ⟨hZ2, hX2, hY2⟩ := hq
  have hU : p.X * (q.Z * q.Z) = q.X * (p.Z * p.Z) ↔ x₁ = x₂ := by
    rw [hX1, hX2]
    constructor
    · intro h
      have : (x₁ - x₂) * (p.Z ^ 2 * q.Z ^ 2) = 0 := by linear_combination h
      exact sub_eq_zero.1 ((mul_eq_zero.1 this).resolve_right
        (mul_ne_zero (pow_ne_zero 2 hZ1) (pow_ne_zero 2 hZ2)))
    · rintro rfl; ring
  have hS : p.Y * (q.Z * (q.Z * q.Z)) = q.Y * (p.Z * (p.Z * p.Z)) ↔ y₁ = y₂ := by
    rw [hY1, hY2]
    constructor
    · intro h
      have : (y₁ - y₂) * (p.Z ^ 3 * q.Z ^ 3) = 0 := by linear_combination h
      exact sub_eq_zero.1 ((mul_eq_zero.1 this).resolve_right
        (mul_ne_zero (pow_ne_zero 3 hZ1) (pow_ne_zero 3 hZ2)))
    · rintro rfl; ring
  simp only [add, hz1, hz2, LawfulSquared.squared_eq, Bool.false_eq_true, if_false, hU, hS]
  by_cases hx : x₁ = x₂
  · subst hx
    by_cases hy : y₁ = y₂
    · subst hy
      simpa using hd
    · simp only [hy, and_false, if_false]
      rw [weier_add_inv (weier_y_of_x hP hQ hy)]
      apply rep_zero
      dsimp only
      rw [hX1, hX2]
      ring
  · simp only [hx, false_and, if_false]
    obtain ⟨h3, e3⟩ := weier_add_of_ne (h₁ := hP) (h₂ := hQ) hx rfl rfl
    rw [e3]
    have hx' : x₂ - x₁ ≠ 0 := sub_ne_zero.2 (Ne.symm hx)
    rcases p with ⟨X1, Y1, Z1⟩
    rcases q with ⟨X2, Y2, Z2⟩
    dsimp only at hZ1 hX1 hY1 hZ2 hX2 hY2
    subst hX1 hY1 hX2 hY2
    refine ⟨?_, ?_, ?_⟩
    · intro h0
      have h0 : 2 * (x₂ - x₁) * (Z1 ^ 3 * Z2 ^ 3) = 0 := by linear_combination h0
      exact (mul_ne_zero (mul_ne_zero h2 hx') (mul_ne_zero (pow_ne_zero 3 hZ1) (pow_ne_zero 3 hZ2))) h0
    · dsimp only
      field_simp
      ring
    · dsimp only
      field_simp
      ring

omit [DecidableEq K] [Squared K] [LawfulSquared K] in
theorem neg_rep {p : Coord3 K} {P : (sw 0 b).Point} (h : JacRep p P) : JacRep (neg p) (-P) := by
  rcases P with _ | ⟨x, y, hP⟩
  · exact h
  · obtain ⟨h', e⟩ := weier_neg hP
    rw [e]
    obtain ⟨hZ, hX, hY⟩ := h
    exact ⟨hZ, hX, by simp only [neg]; rw [hY]; ring⟩

theorem sub_rep (h2 : (2 : K) ≠ 0) {p q : Coord3 K} {P Q : (sw 0 b).Point} (hp : JacRep p P)
    (hq : JacRep q Q) : JacRep (sub p q) (P - Q) := by
  rw [sub_eq_add_neg]
  exact add_rep h2 hp (neg_rep hq)

theorem mixedAddRelease_eq {p q : Coord3 K} (hq : q.Z = 1) (h2 : (2 : K) ≠ 0) (hz : p.Z ≠ 0) :
    mixedAddRelease p q = add p q := by
  have hz1 : isZero p = false := by simpa [isZero] using hz
  have hz2 : isZero q = false := by simp [isZero, hq]
  simp only [add, mixedAddRelease, hz1, hz2, LawfulSquared.squared_eq, Bool.false_eq_true, if_false, hq, mul_one]
  split
  · rfl
  · ext
    · dsimp only; ring
    · dsimp only; ring
    · dsimp only; ring

theorem mixedAdd_rep (h2 : (2 : K) ≠ 0) (debug : Bool) {p q : Coord3 K} {P Q : (sw 0 b).Point} (hp : JacRep p P)
    (hq : JacRep q Q) (hs : isSpecial q = true) : ∃ r, mixedAdd debug p q = .ok r ∧ JacRep r (P + Q) := by
  refine ⟨mixedAddRelease p q, by simp [mixedAdd, hs], ?_⟩
  by_cases hz1 : isZero p = true
  · have := (isZero_rep hp).1 hz1
    simp only [mixedAddRelease, hz1, if_true, this, zero_add]
    exact hq
  by_cases hz2 : isZero q = true
  · have := (isZero_rep hq).1 hz2
    simp only [mixedAddRelease, hz1, hz2, if_true, this, add_zero, if_false, Bool.false_eq_true]
    exact hp
  have hZ : q.Z = 1 := by simpa [isSpecial, hz2] using hs
  rw [mixedAddRelease_eq hZ h2 (fun h => hz1 ((isZero_iff p).2 h))]
  exact add_rep h2 hp hq

omit [Squared K] [LawfulSquared K] in
/-- A triple denotes at most one point. -/
theorem rep_unique {p : Coord3 K} {P Q : (sw 0 b).Point} (hP : JacRep p P) (hQ : JacRep p Q) : P = Q := by
  rcases P with _ | ⟨x₁, y₁, h₁⟩
  · exact (rep_of_Z hQ hP).symm
  rcases Q with _ | ⟨x₂, y₂, h₂⟩
  · exact rep_of_Z hP hQ
  obtain ⟨z, a1, a2⟩ := hP
  obtain ⟨_, b1, b2⟩ := hQ
  have ex : x₁ = x₂ := mul_right_cancel₀ (pow_ne_zero 2 z) (a1.symm.trans b1)
  have ey : y₁ = y₂ := mul_right_cancel₀ (pow_ne_zero 3 z) (a2.symm.trans b2)
  subst ex ey
  rfl

theorem eq_rep {p q : Coord3 K} {P Q : (sw 0 b).Point} (hp : JacRep p P) (hq : JacRep q Q) :
    eq p q = true ↔ P = Q := by
  rcases P with _ | ⟨x₁, y₁, h₁⟩
  · have hz : isZero p = true := (isZero_iff p).2 hp
    simp only [eq, hz, if_true]
    rw [isZero_rep hq]
    exact eq_comm
  have hz1 : isZero p = false := by simpa [isZero] using hp.1
  rcases Q with _ | ⟨x₂, y₂, h₂⟩
  · have hz : isZero q = true := (isZero_iff q).2 hq
    simp [eq, hz1, hz]
  have hz2 : isZero q = false := by simpa [isZero] using hq.1
  obtain ⟨hZ1, hX1, hY1⟩ := hp
  obtain ⟨hZ2, hX2, hY2⟩ := hq
  have hU : p.X * (q.Z * q.Z) = q.X * (p.Z * p.Z) ↔ x₁ = x₂ := by
    rw [hX1, hX2]
    constructor
    · intro h
      have : (x₁ - x₂) * (p.Z ^ 2 * q.Z ^ 2) = 0 := by linear_combination h
      exact sub_eq_zero.1 ((mul_eq_zero.1 this).resolve_right
        (mul_ne_zero (pow_ne_zero 2 hZ1) (pow_ne_zero 2 hZ2)))
    · rintro rfl; ring
  have hS : p.Y * (q.Z * (q.Z * q.Z)) = q.Y * (p.Z * (p.Z * p.Z)) ↔ y₁ = y₂ := by
    rw [hY1, hY2]
    constructor
    · intro h
      have : (y₁ - y₂) * (p.Z ^ 3 * q.Z ^ 3) = 0 := by linear_combination h
      exact sub_eq_zero.1 ((mul_eq_zero.1 this).resolve_right
        (mul_ne_zero (pow_ne_zero 3 hZ1) (pow_ne_zero 3 hZ2)))
    · rintro rfl; ring
  simp only [eq, hz1, hz2, LawfulSquared.squared_eq, Bool.false_eq_true, if_false, ne_eq, hU, hS, Point.some.injEq]
  by_cases hx : x₁ = x₂ <;> simp [hx]

theorem isWellFormed_iff (hΔ : (sw 0 b).Δ ≠ 0) (p : Coord3 K) :
    isWellFormed b p = true ↔ ∃ P : (sw 0 b).Point, JacRep p P := by
  by_cases hz : p.Z = 0
  · have : isZero p = true := (isZero_iff p).2 hz
    simp only [isWellFormed, this, if_true, true_iff]
    exact ⟨0, hz⟩
  · have hz' : isZero p = false := by simpa [isZero] using hz
    simp only [isWellFormed, hz', LawfulSquared.squared_eq, Bool.false_eq_true, if_false, decide_eq_true_eq]
    constructor
    · intro h
      refine ⟨.some (p.X / p.Z ^ 2) (p.Y / p.Z ^ 3) ((weier_nonsingular hΔ).2 ?_), hz, ?_, ?_⟩
      · field_simp
        linear_combination h
      · field_simp
      · field_simp
    · rintro ⟨_ | ⟨x, y, hP⟩, h⟩
      · exact absurd h hz
      · obtain ⟨_, hX, hY⟩ := h
        have e := weier_equation.1 hP.1
        rw [hX, hY]
        linear_combination (p.Z ^ 6) * e

variable [InverseO K] [LawfulInverse K]

theorem toAffine_rep {p : Coord3 K} {P : (sw 0 b).Point} (h : JacRep p P) :
    (P = 0 ∧ toAffine p = .ok ⟨0, 1, 0⟩) ∨
      ∃ x y hP, P = Point.some x y hP ∧ toAffine p = .ok ⟨x, y, 1⟩ := by
  rcases P with _ | ⟨x, y, hP⟩
  · left
    have hz : isZero p = true := (isZero_iff p).2 h
    exact ⟨rfl, by simp [toAffine, hz]⟩
  · right
    refine ⟨x, y, hP, rfl, ?_⟩
    obtain ⟨hZ, hX, hY⟩ := h
    have hz : isZero p = false := by simpa [isZero] using hZ
    simp only [toAffine, hz, Bool.false_eq_true, if_false, LawfulInverse.inverseO_ne _ hZ, Outcome.map_ok,
      LawfulSquared.squared_eq]
    rw [hX, hY]
    congr 2 <;> field_simp

end Jac
end Libff
