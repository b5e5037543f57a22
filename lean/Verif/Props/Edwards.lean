import Verif.Lemmas.CurveEdwRep
import Verif.Lemmas.Witness

/-!
# Properties of Edwards curve points (C37, C38, C33)

`EdwRep p P` (`Verif/Spec/Curve.lean`): the inverted coordinates `p` denote the point `P`.  The group is that of
the Weierstrass form, so that addition is Mathlib's chord and tangent law; `C37_affine_law` says the same in
terms of the Edwards addition formula.

Inverted coordinates cannot represent the points of order two and four, and the classes treat the point
`(0, -1)` of order two as zero (`C37_order_two_wrong`).  The group theorems are therefore about a subgroup `H`
without elements of order two; `C37_subgroup` instantiates it to the points killed by an odd number, such as
the prime order of the library's group.
-/
namespace Libff
open WeierstrassCurve Affine Witness

variable {K : Type*} [Field K] [DecidableEq K] [Squared K] [LawfulSquared K] {a d : K} {mulA mulD : K → K}

omit [DecidableEq K] in
/-- **C37.** `operator+` on coordinates of `(x₁, y₁)`, `(x₂, y₂)`, all nonzero: the affine coordinates of the
result are those of the Edwards addition law, whenever these exist and are nonzero. -/
theorem C37_affine_law (hA : ∀ x, mulA x = a * x) (hD : ∀ x, mulD x = d * x) {p q : Coord3 K}
    (hpX : p.X ≠ 0) (hpY : p.Y ≠ 0) (hpZ : p.Z ≠ 0) (hqX : q.X ≠ 0) (hqY : q.Y ≠ 0) (hqZ : q.Z ≠ 0)
    {x₁ y₁ x₂ y₂ : K} (h1 : x₁ = p.Z / p.X) (h2 : y₁ = p.Z / p.Y) (h3 : x₂ = q.Z / q.X) (h4 : y₂ = q.Z / q.Y)
    (hn : 1 + d * x₁ * x₂ * y₁ * y₂ ≠ 0) (hn' : 1 - d * x₁ * x₂ * y₁ * y₂ ≠ 0)
    (hs : x₁ * y₂ + y₁ * x₂ ≠ 0) (hm : y₁ * y₂ - a * x₁ * x₂ ≠ 0) :
    let r := Edw.add mulA mulD p q
    r.X ≠ 0 ∧ r.Y ≠ 0 ∧ r.Z ≠ 0 ∧
      r.Z / r.X = (x₁ * y₂ + y₁ * x₂) / (1 + d * x₁ * x₂ * y₁ * y₂) ∧
      r.Z / r.Y = (y₁ * y₂ - a * x₁ * x₂) / (1 - d * x₁ * x₂ * y₁ * y₂) := by
  obtain ⟨E, A, hE, hA0, e1, e2, e3⟩ := Edw.add_affine hA hD hpX hpY hpZ hqX hqY hqZ _ _ _ _ h1 h2 h3 h4
  have hk : E * E / A ≠ 0 := div_ne_zero (mul_ne_zero hE hE) hA0
  simp only
  rw [e1, e2, e3]
  refine ⟨mul_ne_zero hk (mul_ne_zero hn hm), mul_ne_zero hk (mul_ne_zero hn' hs),
    mul_ne_zero hk (mul_ne_zero hm hs), ?_, ?_⟩
  · rw [mul_div_mul_left _ _ hk, mul_comm (1 + _) (_ - _), mul_div_mul_left _ _ hm]
  · rw [mul_div_mul_left _ _ hk, mul_div_mul_right _ _ hs]

section
variable {H : AddSubgroup (edwW a d).Point}

omit [Squared K] [LawfulSquared K] in
/-- **C37.** `zero`, `is_zero`. -/
theorem C37_zero : EdwRep Edw.zero (0 : (edwW a d).Point) ∧
    ∀ {p : Coord3 K} {P : (edwW a d).Point}, EdwRep p P → (Edw.isZero p = true ↔ P = 0) :=
  ⟨Edw.zero_rep, Edw.isZero_rep⟩

omit [Squared K] [LawfulSquared K] in
/-- **C37.** The public constructor from affine coordinates: every pair of nonzero coordinates on the curve
denotes a point of the group, and different pairs different points. -/
theorem C37_of_affine (h2 : (2 : K) ≠ 0) (hc : a - d ≠ 0) {x y : K} (hx : x ≠ 0) (hy : y ≠ 0)
    (h : EdwOn a d x y) : ∃ P : (edwW a d).Point, P ≠ 0 ∧ EdwRep (Edw.ofAffine x y) P ∧
      ∀ x' y', x' ≠ 0 → y' ≠ 0 → EdwRep (Edw.ofAffine x' y') P → x' = x ∧ y' = y := by
  obtain ⟨P, h0, hP⟩ := edwPt_exists h2 hc hx hy h
  refine ⟨P, h0, ?_, ?_⟩
  · rw [edwRep_iff]
    refine Or.inr ⟨h0, hy, hx, mul_ne_zero hx hy, ?_⟩
    simp only [Edw.ofAffine, mul_div_cancel_right₀ _ hy, mul_div_cancel_left₀ _ hx]
    exact hP
  · intro x' y' hx' hy' h'
    rw [edwRep_iff] at h'
    rcases h' with ⟨h, -⟩ | ⟨-, -, -, -, h'⟩
    · exact absurd h h0
    · simp only [Edw.ofAffine, mul_div_cancel_right₀ _ hy', mul_div_cancel_left₀ _ hx'] at h'
      exact edwPt_inj h2 hc h' hP

/-- **C37.** `operator+` computes the group sum, for all pairs of points of the subgroup. -/
theorem C37_add (hA : ∀ x, mulA x = a * x) (hD : ∀ x, mulD x = d * x) (h2 : (2 : K) ≠ 0) (hc : a - d ≠ 0)
    (hH : NoTwoTorsion H) {p q : Coord3 K} {P Q : (edwW a d).Point} (hp : EdwRepIn H p P) (hq : EdwRepIn H q Q) :
    EdwRepIn H (Edw.plus mulA mulD p q) (P + Q) :=
  ⟨H.add_mem hp.1 hq.1, Edw.plus_rep hA hD h2 hc hH hp.2 hq.2 hp.1 hq.1⟩

/-- **C37.** `dbl` of the twisted class. -/
theorem C37_dbl (hA : ∀ x, mulA x = a * x) (hD : ∀ x, mulD x = d * x) (h2 : (2 : K) ≠ 0) (hc : a - d ≠ 0)
    (hH : NoTwoTorsion H) {p : Coord3 K} {P : (edwW a d).Point} (hp : EdwRepIn H p P) :
    EdwRepIn H (Edw.dbl mulA mulD p) (P + P) :=
  ⟨H.add_mem hp.1 hp.1, Edw.dbl_rep hA hD h2 hc hH hp.2 hp.1⟩

/-- **C37.** `dbl` of the class with `a = 1`. -/
theorem C37_dbl1 {H : AddSubgroup (edwW 1 d).Point} (hD : ∀ x, mulD x = d * x) (h2 : (2 : K) ≠ 0)
    (hc : 1 - d ≠ 0) (hH : NoTwoTorsion H) {p : Coord3 K} {P : (edwW 1 d).Point} (hp : EdwRepIn H p P) :
    EdwRepIn H (Edw.dbl1 mulD p) (P + P) :=
  @ImplementsRel.dbl _ _ (Edw.ops1 mulD) _ _ (Edw.implementsRel1 hD h2 hc hH) _ _ hp

/-- **C37.** Unary and binary minus. -/
theorem C37_sub (hA : ∀ x, mulA x = a * x) (hD : ∀ x, mulD x = d * x) (h2 : (2 : K) ≠ 0) (hc : a - d ≠ 0)
    (hH : NoTwoTorsion H) {p q : Coord3 K} {P Q : (edwW a d).Point} (hp : EdwRepIn H p P) (hq : EdwRepIn H q Q) :
    EdwRepIn H (Edw.neg p) (-P) ∧ EdwRepIn H (Edw.sub mulA mulD p q) (P - Q) :=
  ⟨⟨H.neg_mem hp.1, Edw.neg_rep hp.2⟩,
    H.sub_mem hp.1 hq.1, Edw.sub_rep hA hD h2 hc hH hp.2 hq.2 hp.1 hq.1⟩

/-- **C37.** `mixed_add` with a special right operand; in debug builds the assertion does not fire. -/
theorem C37_mixed_add (hA : ∀ x, mulA x = a * x) (hD : ∀ x, mulD x = d * x) (h2 : (2 : K) ≠ 0) (hc : a - d ≠ 0)
    (hH : NoTwoTorsion H) (debug : Bool) {p q : Coord3 K} {P Q : (edwW a d).Point} (hp : EdwRepIn H p P)
    (hq : EdwRepIn H q Q) (hs : Edw.isSpecial q = true) :
    ∃ r, Edw.mixedAdd mulA mulD debug p q = .ok r ∧ EdwRepIn H r (P + Q) := by
  obtain ⟨r, h, h'⟩ := Edw.mixedAdd_rep hA hD h2 hc hH debug hp.2 hq.2 hp.1 hq.1 hs
  exact ⟨r, h, H.add_mem hp.1 hq.1, h'⟩

omit [Squared K] [LawfulSquared K] in
/-- **C37.** `==` decides equality of the points, whatever the representations. -/
theorem C37_eq (h2 : (2 : K) ≠ 0) (hc : a - d ≠ 0) {p q : Coord3 K} {P Q : (edwW a d).Point} (hp : EdwRep p P)
    (hq : EdwRep q Q) : Edw.eq p q = true ↔ P = Q := Edw.eq_rep h2 hc hp hq

omit [Squared K] [LawfulSquared K] in
/-- **C37.** `to_affine_coordinates` succeeds; it leaves the affine coordinates `(x, y)` of the point in `X` and
`Y` — they are on the curve, and constructing a point from them gives the point back. -/
theorem C37_to_affine [InverseO K] [LawfulInverse K] {p : Coord3 K} {P : (edwW a d).Point} (hp : EdwRep p P) :
    ∃ x y, Edw.toAffine p = .ok ⟨x, y, 1⟩ ∧ EdwOn a d x y ∧ EdwRep (Edw.ofAffine x y) P ∧
      (P = 0 → x = 0 ∧ y = 1) := by
  rcases Edw.toAffine_rep hp with ⟨rfl, e⟩ | ⟨h0, e, h⟩
  · exact ⟨0, 1, e, by simp [EdwOn], Edw.zero_rep, fun _ => ⟨rfl, rfl⟩⟩
  · refine ⟨_, _, e, h.2.2.1, ?_, fun h => absurd h h0⟩
    have hx := h.1
    have hy := h.2.1
    rw [edwRep_iff]
    refine Or.inr ⟨h0, hy, hx, mul_ne_zero hx hy, ?_⟩
    simp only [Edw.ofAffine, mul_div_cancel_right₀ _ hy, mul_div_cancel_left₀ _ hx]
    exact h

omit [Squared K] [LawfulSquared K] in
/-- **C37.** `to_special` succeeds, keeps the point and makes it special. -/
theorem C37_to_special [InverseO K] [LawfulInverse K] (h2 : (2 : K) ≠ 0) (hc : a - d ≠ 0) (debug : Bool)
    {p : Coord3 K} {P : (edwW a d).Point} (hp : EdwRep p P) :
    ∃ r, Edw.toSpecial debug p = .ok r ∧ EdwRep r P ∧ Edw.isSpecial r = true := Edw.toSpecial_spec h2 hc debug hp

/-- **C37.** `edwards_G2` implements the subgroup on its objects, so all generic algorithms
(C25, C27–C32) apply to it. -/
theorem C37_implements (hA : ∀ x, mulA x = a * x) (hD : ∀ x, mulD x = d * x) (h2 : (2 : K) ≠ 0) (hc : a - d ≠ 0)
    (hH : NoTwoTorsion H) : @ImplementsRel _ _ (Edw.ops mulA mulD) _ (EdwRepIn H) :=
  Edw.implementsRel hA hD h2 hc hH

/-- **C37.** The same for `edwards_G1`. -/
theorem C37_implements1 {H : AddSubgroup (edwW 1 d).Point} (hD : ∀ x, mulD x = d * x) (h2 : (2 : K) ≠ 0)
    (hc : 1 - d ≠ 0) (hH : NoTwoTorsion H) : @ImplementsRel _ _ (Edw.ops1 mulD) _ (EdwRepIn H) :=
  Edw.implementsRel1 hD h2 hc hH

/-- **C37.** `bigint * point` and `Fp * point`. -/
theorem C37_scalar_mul (hA : ∀ x, mulA x = a * x) (hD : ∀ x, mulD x = d * x) (h2 : (2 : K) ≠ 0)
    (hc : a - d ≠ 0) (hH : NoTwoTorsion H) {p : Coord3 K} {P : (edwW a d).Point} (hp : EdwRepIn H p P)
    (e : List Limb) : EdwRepIn H (@scalarMul _ (Edw.ops mulA mulD) p e) (val e • P) :=
  @scalarMul_rel _ _ (Edw.ops mulA mulD) _ _ (Edw.implementsRel hA hD h2 hc hH) _ _ hp e

/-- **C37.** The same for `edwards_G1`. -/
theorem C37_scalar_mul1 {H : AddSubgroup (edwW 1 d).Point} (hD : ∀ x, mulD x = d * x) (h2 : (2 : K) ≠ 0)
    (hc : 1 - d ≠ 0) (hH : NoTwoTorsion H) {p : Coord3 K} {P : (edwW 1 d).Point} (hp : EdwRepIn H p P)
    (e : List Limb) : EdwRepIn H (@scalarMul _ (Edw.ops1 mulD) p e) (val e • P) :=
  @scalarMul_rel _ _ (Edw.ops1 mulD) _ _ (Edw.implementsRel1 hD h2 hc hH) _ _ hp e

omit [Squared K] [LawfulSquared K] in
/-- **C37.** The points killed by an odd number `r` form such a subgroup. -/
theorem C37_subgroup (r : Nat) (hr : r % 2 = 1) : NoTwoTorsion (torsionSub r : AddSubgroup (edwW a d).Point) ∧
    ∀ P : (edwW a d).Point, P ∈ (torsionSub r : AddSubgroup (edwW a d).Point) ↔ r • P = 0 :=
  ⟨noTwoTorsion_torsionSub r hr, fun _ => Iff.rfl⟩

end

omit [DecidableEq K] [Squared K] [LawfulSquared K] in
/-- **C37.** `mul_by_a` and `mul_by_d` of the twist are multiplication by the twist coefficients `ω` and
`d ω` (`ω` the generator of the extension), so `hA` and `hD` above hold for `edwards_G2`. -/
theorem C37_mul_by (β d : K) (x : Cubic K (mulConst β)) :
    edwardsMulByA x = edwardsTwistA * x ∧ edwardsMulByD d x = edwardsTwistD d * x ∧
    (edwardsTwistA : Cubic K (mulConst β)) = ⟨0, 1, 0⟩ ∧
    (edwardsTwistD d : Cubic K (mulConst β)) = ⟨d, 0, 0⟩ * ⟨0, 1, 0⟩ := by
  refine ⟨?_, ?_, ?_, ?_⟩
  · ext <;> simp [edwardsMulByA, edwardsTwistA, edwardsTwist, Cubic.scale]
  · ext <;> simp [edwardsMulByD, edwardsTwistD, edwardsTwist, Cubic.scale]; ring
  · ext <;> simp [edwardsTwistA, edwardsTwist, Cubic.scale]
  · ext <;> simp [edwardsTwistD, edwardsTwist, Cubic.scale]

/-! A concrete case: `x² + y² = 1 + 6 x² y²` over `ZMod 13`; `(2, 5)` has order three. -/

/-- The toy curve. -/
abbrev toyEdw : Affine (ZMod 13) := edwW 1 6

theorem toyEdw_ns : toyEdw.Nonsingular 1 1 := by
  rw [nonsingular_iff]
  exact ⟨weier_equation.2 (by decide), Or.inr (by decide)⟩

/-- `(2, 5)` in inverted coordinates, scaled by 3. -/
theorem toyEdw_rep : EdwRep (⟨15, 6, 30⟩ : Coord3 (ZMod 13)) (Point.some 1 1 toyEdw_ns) :=
  ⟨by decide, by decide, by decide, by unfold EdwOn; decide +kernel, by decide +kernel, by decide +kernel⟩

theorem toyEdw_order : Point.some 1 1 toyEdw_ns ∈ (torsionSub 3 : AddSubgroup toyEdw.Point) := by
  change 3 • Point.some 1 1 toyEdw_ns = 0
  rw [succ_nsmul, two_nsmul]
  obtain ⟨h, e⟩ := weier_dbl (x₃ := 1) (y₃ := -1) (by decide) (h := toyEdw_ns) (h' := toyEdw_ns) (by decide)
    (by decide +kernel) (by decide +kernel)
  rw [e]
  exact weier_add_inv (by decide)

example : EdwRepIn (torsionSub 3) (Edw.plus (fun x => 1 * x) (fun x => 6 * x) (⟨15, 6, 30⟩ : Coord3 (ZMod 13)) ⟨5, 2, 10⟩)
    (Point.some 1 1 toyEdw_ns + Point.some 1 1 toyEdw_ns) :=
  C37_add (fun _ => rfl) (fun _ => rfl) (by decide) (by decide) (C37_subgroup 3 rfl).1 ⟨toyEdw_order, toyEdw_rep⟩
    ⟨toyEdw_order, ⟨by decide, by decide, by decide, by unfold EdwOn; decide +kernel, by decide +kernel, by decide +kernel⟩⟩
example : Edw.eq (Edw.plus (fun x => 1 * x) (fun x => 6 * x) (⟨15, 6, 30⟩ : Coord3 (ZMod 13)) ⟨5, 2, 10⟩)
    (Edw.neg ⟨5, 2, 10⟩) = true := by decide
example : Edw.toAffine (⟨15, 6, 30⟩ : Coord3 (ZMod 13)) = .ok ⟨2, 5, 1⟩ := by decide +kernel

omit [LawfulSquared K] in
/-- **C37.** The limits of the representation: in every field of odd characteristic the point `(0, -1)` of
order two, built by the public constructor, is a well formed object different from the coordinates of zero
that the class identifies with zero. -/
theorem C37_order_two_wrong (h2 : (2 : K) ≠ 0) :
    EdwOn a d 0 (-1) ∧ ((0 : K), (-1 : K)) ≠ (0, 1) ∧ Edw.isWellFormed mulA mulD (Edw.ofAffine (0 : K) (-1)) = true ∧
      Edw.isZero (Edw.ofAffine (0 : K) (-1)) = true ∧ Edw.eq (Edw.ofAffine (0 : K) (-1)) Edw.zero = true := by
  refine ⟨by simp [EdwOn], ?_, ?_, ?_, ?_⟩
  · intro h
    have h1 : (-1 : K) = 1 := (Prod.mk.inj h).2
    exact h2 (by linear_combination -h1)
  · simp [Edw.isWellFormed, Edw.isZero, Edw.ofAffine]
  · simp [Edw.isZero, Edw.ofAffine]
  · simp [Edw.eq, Edw.isZero, Edw.ofAffine, Edw.zero]

/-! ## C38: membership test -/

/-- **C38.** Edwards `is_well_formed` on coordinates none of which is zero: exactly the curve equation for the
affine coordinates, that is exactly the coordinates denoting a point. -/
theorem C38_edwards_partial (hA : ∀ x, mulA x = a * x) (hD : ∀ x, mulD x = d * x) (h2 : (2 : K) ≠ 0)
    (hc : a - d ≠ 0) (p : Coord3 K) (hX : p.X ≠ 0) (hY : p.Y ≠ 0) (hZ : p.Z ≠ 0) :
    (Edw.isWellFormed mulA mulD p = true ↔ EdwOn a d (p.Z / p.X) (p.Z / p.Y)) ∧
    (Edw.isWellFormed mulA mulD p = true ↔ ∃ P : (edwW a d).Point, EdwRep p P) := by
  refine ⟨Edw.isWellFormed_iff hA hD hX hY hZ, fun h => ?_, fun ⟨P, hP⟩ => Edw.isWellFormed_rep hA hD hP⟩
  obtain ⟨P, h0, hP⟩ := edwPt_exists h2 hc (div_ne_zero hZ hX) (div_ne_zero hZ hY)
    ((Edw.isWellFormed_iff hA hD hX hY hZ).1 h)
  exact ⟨P, edwRep_iff.2 (Or.inr ⟨h0, hX, hY, hZ, hP⟩)⟩

/-- **C38.** Everything that denotes a point is accepted, zero included. -/
theorem C38_edwards_complete (hA : ∀ x, mulA x = a * x) (hD : ∀ x, mulD x = d * x) {p : Coord3 K}
    {P : (edwW a d).Point} (hp : EdwRep p P) : Edw.isWellFormed mulA mulD p = true := Edw.isWellFormed_rep hA hD hp

/-- **C38.** Exactness fails for the Edwards classes: over every field the triples `(0, Y, 0)` with `Y ≠ 0` are
accepted, although they denote no point, are not zero, and `to_affine_coordinates` (hence output) aborts on
them. -/
theorem C38_edwards_wrong [InverseO K] [LawfulInverse K] (y : K) (hy : y ≠ 0) :
    Edw.isWellFormed mulA mulD ⟨0, y, 0⟩ = true ∧ (¬ ∃ P : (edwW a d).Point, EdwRep (⟨0, y, 0⟩ : Coord3 K) P) ∧
      Edw.isZero (⟨0, y, 0⟩ : Coord3 K) = false ∧ Edw.toAffine (⟨0, y, 0⟩ : Coord3 K) = .abort := by
  have hz : Edw.isZero (⟨0, y, 0⟩ : Coord3 K) = false := by simp [Edw.isZero, hy]
  refine ⟨?_, ?_, hz, ?_⟩
  · simp [Edw.isWellFormed, hz, LawfulSquared.squared_eq]
  · rintro ⟨P, hP⟩
    rw [edwRep_iff] at hP
    rcases hP with ⟨-, h, -⟩ | ⟨-, h, -⟩
    · exact hy h
    · exact h rfl
  · rw [Edw.toAffine, hz]
    simp [LawfulInverse.inverseO_zero, Outcome.map]

/-- **C38.** The operators preserve well-formedness: Edwards, on the subgroup. -/
theorem C38_edwards_closed {H : AddSubgroup (edwW a d).Point} (hA : ∀ x, mulA x = a * x)
    (hD : ∀ x, mulD x = d * x) (h2 : (2 : K) ≠ 0) (hc : a - d ≠ 0) (hH : NoTwoTorsion H) {p q : Coord3 K}
    {P Q : (edwW a d).Point} (hp : EdwRepIn H p P) (hq : EdwRepIn H q Q) :
    Edw.isWellFormed mulA mulD (Edw.plus mulA mulD p q) = true ∧
    Edw.isWellFormed mulA mulD (Edw.sub mulA mulD p q) = true ∧
    Edw.isWellFormed mulA mulD (Edw.dbl mulA mulD p) = true ∧
    Edw.isWellFormed mulA mulD (Edw.neg p) = true ∧
    ∀ e, Edw.isWellFormed mulA mulD (@scalarMul _ (Edw.ops mulA mulD) p e) = true :=
  ⟨Edw.isWellFormed_rep hA hD (C37_add hA hD h2 hc hH hp hq).2,
   Edw.isWellFormed_rep hA hD (C37_sub hA hD h2 hc hH hp hq).2.2,
   Edw.isWellFormed_rep hA hD (C37_dbl hA hD h2 hc hH hp).2,
   Edw.isWellFormed_rep hA hD (C37_sub hA hD h2 hc hH hp hq).1.2,
   fun e => Edw.isWellFormed_rep hA hD (C37_scalar_mul hA hD h2 hc hH hp e).2⟩

example : Edw.isWellFormed (fun x => 1 * x) (fun x => 6 * x) (⟨15, 6, 30⟩ : Coord3 (ZMod 13)) = true ∧
    Edw.isWellFormed (fun x => 1 * x) (fun x => 6 * x) (⟨15, 8, 30⟩ : Coord3 (ZMod 13)) = false := by decide

/-! ## C33: batch normalisation -/

omit [LawfulSquared K] in
/-- **C33.** `batch_to_special` on a vector of Edwards points, zeros included. -/
theorem C33_edwards [InverseO K] [LawfulInverse K] (h2 : (2 : K) ≠ 0) (hc : a - d ≠ 0) (debug : Bool)
    (vec : List (Coord3 K)) (Ps : List (edwW a d).Point) (h : List.Forall₂ EdwRep vec Ps) :
    ∃ l, @batchToSpecial _ (Edw.ops mulA mulD) Edw.isZero (Edw.toSpecial debug) (Edw.batchToSpecialNZ debug) vec
        = .ok l ∧
      List.Forall₂ EdwRep l Ps ∧ ∀ p ∈ l, Edw.isSpecial p = true :=
  letI : GroupOps (Coord3 K) := Edw.ops mulA mulD
  batchToSpecial_rel (Rep := EdwRep (a := a) (d := d)) (fun p => Edw.isSpecial p = true) Edw.isZero Edw.isZero_rep
    (Edw.toSpecial debug) (Edw.toSpecial_spec h2 hc debug (Edw.zero_rep (a := a) (d := d))) _
    (Edw.batchToSpecialNZ_rep debug) vec Ps h

example : List.Forall₂ EdwRep [⟨15, 6, 30⟩, (⟨1, 0, 0⟩ : Coord3 (ZMod 13))] [Point.some 1 1 toyEdw_ns, 0] :=
  .cons toyEdw_rep (.cons ⟨rfl, rfl⟩ .nil)

end Libff
