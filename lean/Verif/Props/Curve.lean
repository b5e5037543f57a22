import Verif.Lemmas.CurveBatch
import Verif.Lemmas.Witness

/-!
# Properties of Weierstrass curve points (C35, C36, C38, C33)

`JacRep p P` / `ProjRep p P` (`Verif/Spec/Curve.lean`): the coordinates `p` denote the point `P` of Mathlib's
group of points of the curve.  `h2` excludes characteristic two.  All points are covered: the neutral
element in any representation, equal points, opposite points and points of order two.
-/
namespace Libff
open WeierstrassCurve Affine Witness

/-- The curve `y² = x³ + 3` over `ZMod 13`, for the examples. -/
abbrev toyCurve : Affine (ZMod 13) := sw 0 3

/-- `(1, 2)` is on it. -/
theorem toy_12 : toyCurve.Nonsingular 1 2 :=
  (weier_nonsingular (by rw [sw_disc]; decide)).2 (by decide)

/-- `(0, 4)` is on it. -/
theorem toy_04 : toyCurve.Nonsingular 0 4 :=
  (weier_nonsingular (by rw [sw_disc]; decide)).2 (by decide)

/-- `(4 : 3 : 2)` denotes `(1, 2)`: Jacobian. -/
theorem toy_jac : JacRep (⟨4, 3, 2⟩ : Coord3 (ZMod 13)) (Point.some 1 2 toy_12) :=
  ⟨by decide, by decide, by decide⟩

/-- `(2 : 4 : 2)` denotes `(1, 2)`: projective. -/
theorem toy_proj : ProjRep (⟨2, 4, 2⟩ : Coord3 (ZMod 13)) (Point.some 1 2 toy_12) :=
  ⟨by decide, by decide, by decide⟩

variable {K : Type*} [Field K] [DecidableEq K] [Squared K] [LawfulSquared K]

/-! ## C35: Jacobian coordinates -/

section
variable {b : K}

/-- **C35.** `zero`, `is_zero`. -/
theorem C35_zero : JacRep Jac.zero (0 : (sw 0 b).Point) ∧
    ∀ {p : Coord3 K} {P : (sw 0 b).Point}, JacRep p P → (Jac.isZero p = true ↔ P = 0) :=
  ⟨rfl, Jac.isZero_rep⟩

/-- **C35.** `operator+` and `add` compute the group sum, for all pairs of points. -/
theorem C35_add (h2 : (2 : K) ≠ 0) {p q : Coord3 K} {P Q : (sw 0 b).Point} (hp : JacRep p P) (hq : JacRep q Q) :
    JacRep (Jac.add p q) (P + Q) := Jac.add_rep h2 hp hq

/-- **C35.** `dbl`. -/
theorem C35_dbl (h2 : (2 : K) ≠ 0) {p : Coord3 K} {P : (sw 0 b).Point} (hp : JacRep p P) :
    JacRep (Jac.dbl p) (P + P) := Jac.dbl_rep h2 hp

/-- **C35.** Unary and binary minus. -/
theorem C35_sub (h2 : (2 : K) ≠ 0) {p q : Coord3 K} {P Q : (sw 0 b).Point} (hp : JacRep p P) (hq : JacRep q Q) :
    JacRep (Jac.neg p) (-P) ∧ JacRep (Jac.sub p q) (P - Q) := ⟨Jac.neg_rep hp, Jac.sub_rep h2 hp hq⟩

/-- **C35.** `mixed_add` with a special right operand; in debug builds the assertion does not fire. -/
theorem C35_mixed_add (h2 : (2 : K) ≠ 0) (debug : Bool) {p q : Coord3 K} {P Q : (sw 0 b).Point}
    (hp : JacRep p P) (hq : JacRep q Q) (hs : Jac.isSpecial q = true) :
    ∃ r, Jac.mixedAdd debug p q = .ok r ∧ JacRep r (P + Q) := Jac.mixedAdd_rep h2 debug hp hq hs

/-- **C35.** `==` decides equality of the points, whatever the representations. -/
theorem C35_eq {p q : Coord3 K} {P Q : (sw 0 b).Point} (hp : JacRep p P) (hq : JacRep q Q) :
    Jac.eq p q = true ↔ P = Q := Jac.eq_rep hp hq

/-- **C35.** `to_affine_coordinates` and `to_special` succeed, keep the point, and give its canonical
coordinates: two equal points end up with identical coordinates. -/
theorem C35_to_affine [InverseO K] [LawfulInverse K] {p q : Coord3 K} {P Q : (sw 0 b).Point} (hp : JacRep p P)
    (hq : JacRep q Q) : ∃ r s, Jac.toAffine p = .ok r ∧ Jac.toAffine q = .ok s ∧ JacRep r P ∧
      Jac.isSpecial r = true ∧ (r = s ↔ P = Q) := by
  rcases Jac.toAffine_rep hp with ⟨rfl, e⟩ | ⟨x, y, hP, rfl, e⟩ <;>
    rcases Jac.toAffine_rep hq with ⟨rfl, e'⟩ | ⟨x', y', hQ, rfl, e'⟩ <;>
    refine ⟨_, _, e, e', ?_, ?_, ?_⟩
  · rfl
  · simp [Jac.isSpecial, Jac.isZero]
  · simp
  · rfl
  · simp [Jac.isSpecial, Jac.isZero]
  · simp [Point.zero_def]
  · exact ⟨one_ne_zero, by simp, by simp⟩
  · simp [Jac.isSpecial]
  · simp
  · exact ⟨one_ne_zero, by simp, by simp⟩
  · simp [Jac.isSpecial]
  · simp

/-- **C35.** A Jacobian class implements the group of points on its well formed objects, so all generic
algorithms (C25, C27–C32) apply to it. -/
theorem C35_implements (h2 : (2 : K) ≠ 0) :
    @ImplementsRel _ _ Jac.ops _ (JacRep (W := sw 0 b)) ∧
    @ImplementsGroup _ _ (@ImplementsRel.validOps _ _ Jac.ops _ _ (Jac.implementsRel (b := b) h2)) _ (denote (Rep := JacRep (W := sw 0 b))) :=
  ⟨Jac.implementsRel h2, @ImplementsRel.implements _ _ Jac.ops _ _ (Jac.implementsRel h2)⟩

/-- **C35.** `bigint * point` and `Fp * point`. -/
theorem C35_scalar_mul (h2 : (2 : K) ≠ 0) {p : Coord3 K} {P : (sw 0 b).Point} (hp : JacRep p P)
    (e : List Limb) : JacRep (@scalarMul _ Jac.ops p e) (val e • P) :=
  @scalarMul_rel _ _ Jac.ops _ _ (Jac.implementsRel h2) _ _ hp e

end

example : JacRep (Jac.add (⟨4, 3, 2⟩ : Coord3 (ZMod 13)) ⟨0, 4, 1⟩)
    (Point.some 1 2 toy_12 + Point.some 0 4 toy_04) :=
  C35_add (by decide) toy_jac ⟨by decide, by decide, by decide⟩
example : Jac.add (⟨4, 3, 2⟩ : Coord3 (ZMod 13)) ⟨0, 4, 1⟩ ≠ Jac.zero := by decide
example : Jac.eq (⟨4, 3, 2⟩ : Coord3 (ZMod 13)) ⟨1, 2, 1⟩ = true := by decide
example : Jac.isZero (Jac.add (⟨4, 3, 2⟩ : Coord3 (ZMod 13)) ⟨1, -2, 1⟩) = true := by decide
/-- Two-torsion: `(-1, 0)` on `y² = x³ + 1`. -/
example : Jac.isZero (Jac.add (⟨-1, 0, 1⟩ : Coord3 (ZMod 13)) ⟨-1, 0, 1⟩) = true ∧
    Jac.isWellFormed (1 : ZMod 13) ⟨-1, 0, 1⟩ = true := by decide

/-! ## C36: projective coordinates -/

section
variable {a b : K} {mulA : K → K}

omit [Squared K] [LawfulSquared K] in
/-- **C36.** `zero`, `is_zero`. -/
theorem C36_zero : ProjRep Proj.zero (0 : (sw a b).Point) ∧
    ∀ {p : Coord3 K} {P : (sw a b).Point}, ProjRep p P → (Proj.isZero p = true ↔ P = 0) :=
  ⟨⟨rfl, rfl⟩, Proj.isZero_rep⟩

/-- **C36.** `operator+` and the separate member function `add` compute the group sum, for all pairs of
points. `mulA` is multiplication by the coefficient (`coeff_a * x` or `mul_by_a(x)`, see
`C36_mul_by_a`). -/
theorem C36_add (hA : ∀ x, mulA x = a * x) (h2 : (2 : K) ≠ 0) {p q : Coord3 K} {P Q : (sw a b).Point}
    (hp : ProjRep p P) (hq : ProjRep q Q) :
    ProjRep (Proj.plus mulA p q) (P + Q) ∧ ProjRep (Proj.add mulA p q) (P + Q) :=
  ⟨Proj.plus_rep hA h2 hp hq, by rw [Proj.add_eq_plus hp hq]; exact Proj.plus_rep hA h2 hp hq⟩

/-- **C36.** `dbl`. -/
theorem C36_dbl (hA : ∀ x, mulA x = a * x) (h2 : (2 : K) ≠ 0) {p : Coord3 K} {P : (sw a b).Point}
    (hp : ProjRep p P) : ProjRep (Proj.dbl mulA p) (P + P) := Proj.dbl_rep hA h2 hp

/-- **C36.** Unary and binary minus. -/
theorem C36_sub (hA : ∀ x, mulA x = a * x) (h2 : (2 : K) ≠ 0) {p q : Coord3 K} {P Q : (sw a b).Point}
    (hp : ProjRep p P) (hq : ProjRep q Q) :
    ProjRep (Proj.neg p) (-P) ∧ ProjRep (Proj.sub mulA p q) (P - Q) :=
  ⟨Proj.neg_rep hp, Proj.sub_rep hA h2 hp hq⟩

/-- **C36.** `mixed_add` with a special right operand; in debug builds the assertion does not fire. -/
theorem C36_mixed_add (hA : ∀ x, mulA x = a * x) (h2 : (2 : K) ≠ 0) (debug : Bool) {p q : Coord3 K}
    {P Q : (sw a b).Point} (hp : ProjRep p P) (hq : ProjRep q Q) (hs : Proj.isSpecial q = true) :
    ∃ r, Proj.mixedAdd mulA debug p q = .ok r ∧ ProjRep r (P + Q) := Proj.mixedAdd_rep hA h2 debug hp hq hs

omit [Squared K] [LawfulSquared K] in
/-- **C36.** `==` decides equality of the points. -/
theorem C36_eq {p q : Coord3 K} {P Q : (sw a b).Point} (hp : ProjRep p P) (hq : ProjRep q Q) :
    Proj.eq p q = true ↔ P = Q := Proj.eq_rep hp hq

omit [Squared K] [LawfulSquared K] in
/-- **C36.** `to_affine_coordinates` and `to_special`: as `C35_to_affine`. -/
theorem C36_to_affine [InverseO K] [LawfulInverse K] {p q : Coord3 K} {P Q : (sw a b).Point} (hp : ProjRep p P)
    (hq : ProjRep q Q) : ∃ r s, Proj.toAffine p = .ok r ∧ Proj.toAffine q = .ok s ∧ ProjRep r P ∧
      Proj.isSpecial r = true ∧ (r = s ↔ P = Q) := by
  rcases Proj.toAffine_rep hp with ⟨rfl, e⟩ | ⟨x, y, hP, rfl, e⟩ <;>
    rcases Proj.toAffine_rep hq with ⟨rfl, e'⟩ | ⟨x', y', hQ, rfl, e'⟩ <;>
    refine ⟨_, _, e, e', ?_, ?_, ?_⟩
  · exact ⟨rfl, rfl⟩
  · simp [Proj.isSpecial, Proj.isZero]
  · simp
  · exact ⟨rfl, rfl⟩
  · simp [Proj.isSpecial, Proj.isZero]
  · simp [Point.zero_def]
  · exact ⟨one_ne_zero, by simp, by simp⟩
  · simp [Proj.isSpecial]
  · simp
  · exact ⟨one_ne_zero, by simp, by simp⟩
  · simp [Proj.isSpecial]
  · simp

/-- **C36.** A projective class implements the group of points on its well formed objects, so all generic
algorithms (C25, C27–C32) apply to it. -/
theorem C36_implements (hA : ∀ x, mulA x = a * x) (h2 : (2 : K) ≠ 0) :
    @ImplementsRel _ _ (Proj.ops mulA) _ (ProjRep (W := sw a b)) ∧
    @ImplementsGroup _ _ (@ImplementsRel.validOps _ _ (Proj.ops mulA) _ _ (Proj.implementsRel (b := b) hA h2)) _
      (denote (Rep := ProjRep (W := sw a b))) :=
  ⟨Proj.implementsRel hA h2, @ImplementsRel.implements _ _ (Proj.ops mulA) _ _ (Proj.implementsRel hA h2)⟩

/-- **C36.** `bigint * point` and `Fp * point`. -/
theorem C36_scalar_mul (hA : ∀ x, mulA x = a * x) (h2 : (2 : K) ≠ 0) {p : Coord3 K} {P : (sw a b).Point}
    (hp : ProjRep p P) (e : List Limb) : ProjRep (@scalarMul _ (Proj.ops mulA) p e) (val e • P) :=
  @scalarMul_rel _ _ (Proj.ops mulA) _ _ (Proj.implementsRel hA h2) _ _ hp e

end

example : ProjRep (Proj.plus (fun x => 0 * x) (⟨2, 4, 2⟩ : Coord3 (ZMod 13)) ⟨0, 8, 2⟩)
    (Point.some 1 2 toy_12 + Point.some 0 4 toy_04) :=
  (C36_add (P := Point.some 1 2 toy_12) (Q := Point.some 0 4 toy_04) (fun _ => rfl) (by decide) toy_proj
    ⟨by decide, by decide, by decide⟩).1
example : Proj.isZero (Proj.plus (fun x => 5 * x) (⟨2, 4, 2⟩ : Coord3 (ZMod 13)) ⟨1, -2, 1⟩) = true := by decide

/-- **C36.** `mul_by_a` and `mul_by_b` of the twists are multiplication by the twist coefficients `a ω²` and
`b ω³` (`ω` the generator of the extension), so `hA` above holds for `mnt4_G2` and `mnt6_G2`. -/
theorem C36_mul_by_a (β a b : K) :
    (∀ x : Quad K (mulConst β), mnt4MulByA a x = mnt4TwistA a * x ∧ mnt4MulByB b x = mnt4TwistB b * x) ∧
    (∀ x : Cubic K (mulConst β), mnt6MulByA a x = mnt6TwistA a * x ∧ mnt6MulByB b x = mnt6TwistB b * x) ∧
    (mnt4TwistA a : Quad K (mulConst β)) = ⟨a, 0⟩ * ⟨0, 1⟩ ^ 2 ∧
    (mnt4TwistB b : Quad K (mulConst β)) = ⟨b, 0⟩ * ⟨0, 1⟩ ^ 3 ∧
    (mnt6TwistA a : Cubic K (mulConst β)) = ⟨a, 0, 0⟩ * ⟨0, 1, 0⟩ ^ 2 ∧
    (mnt6TwistB b : Cubic K (mulConst β)) = ⟨b, 0, 0⟩ * ⟨0, 1, 0⟩ ^ 3 := by
  refine ⟨fun x => ⟨?_, ?_⟩, fun x => ⟨?_, ?_⟩, ?_, ?_, ?_, ?_⟩
  · ext <;> simp [mnt4MulByA, mnt4TwistA]
  · ext <;> simp [mnt4MulByB, mnt4TwistB, LawfulSquared.squared_eq]; ring
  · ext <;> simp [mnt6MulByA, mnt6TwistA] <;> ring
  · ext <;> simp [mnt6MulByB, mnt6TwistB]
  · ext <;> simp [mnt4TwistA, pow_succ]
  · ext <;> simp [mnt4TwistB, pow_succ]
  · ext <;> simp [mnt6TwistA, pow_succ]
  · ext <;> simp [mnt6TwistB, pow_succ]

/-! ## C38: membership test -/

/-- **C38.** Jacobian `is_well_formed` accepts exactly the coordinates that denote a point of the curve. -/
theorem C38_jacobian {b : K} (h2 : (2 : K) ≠ 0) (h3 : (3 : K) ≠ 0) (hb : b ≠ 0) (p : Coord3 K) :
    Jac.isWellFormed b p = true ↔ ∃ P : (sw 0 b).Point, JacRep p P := by
  apply Jac.isWellFormed_iff
  rw [sw_disc]
  have : (-16 : K) * (4 * 0 ^ 3 + 27 * b ^ 2) = -((2 ^ 2 * 2 ^ 2) * (3 * 3 ^ 2 * b ^ 2)) := by ring
  rw [this]
  exact neg_ne_zero.2 (mul_ne_zero (mul_ne_zero (pow_ne_zero 2 h2) (pow_ne_zero 2 h2))
    (mul_ne_zero (mul_ne_zero h3 (pow_ne_zero 2 h3)) (pow_ne_zero 2 hb)))

/-- **C38.** In terms of the curve equation: a triple with `Z ≠ 0` is accepted exactly if
`(X/Z², Y/Z³)` satisfies `y² = x³ + b`. -/
theorem C38_jacobian_equation {b : K} (p : Coord3 K) (hz : p.Z ≠ 0) :
    Jac.isWellFormed b p = true ↔ (p.Y / p.Z ^ 3) ^ 2 = (p.X / p.Z ^ 2) ^ 3 + b := by
  have hz' : Jac.isZero p = false := by simpa [Jac.isZero] using hz
  simp only [Jac.isWellFormed, hz', LawfulSquared.squared_eq, Bool.false_eq_true, if_false, decide_eq_true_eq]
  constructor
  · intro h
    field_simp
    linear_combination h
  · intro h
    field_simp at h
    linear_combination h

/-- **C38.** Projective `is_well_formed` accepts exactly the coordinates that denote a point of the curve. -/
theorem C38_projective {a b : K} (h2 : (2 : K) ≠ 0) (hd : 4 * a ^ 3 + 27 * b ^ 2 ≠ 0) (p : Coord3 K) :
    Proj.isWellFormed a b p = true ↔ ∃ P : (sw a b).Point, ProjRep p P := by
  apply Proj.isWellFormed_iff
  rw [sw_disc]
  have : (-16 : K) * (4 * a ^ 3 + 27 * b ^ 2) = -((2 ^ 2 * 2 ^ 2) * (4 * a ^ 3 + 27 * b ^ 2)) := by ring
  rw [this]
  exact neg_ne_zero.2 (mul_ne_zero (mul_ne_zero (pow_ne_zero 2 h2) (pow_ne_zero 2 h2)) hd)

/-- **C38.** In terms of the curve equation. -/
theorem C38_projective_equation {a b : K} (p : Coord3 K) (hz : p.Z ≠ 0) :
    Proj.isWellFormed a b p = true ↔ (p.Y / p.Z) ^ 2 = (p.X / p.Z) ^ 3 + a * (p.X / p.Z) + b := by
  simp only [Proj.isWellFormed, Proj.isZero_false hz, LawfulSquared.squared_eq, Bool.false_eq_true, if_false,
    decide_eq_true_eq]
  constructor
  · intro h
    field_simp
    linear_combination h
  · intro h
    field_simp at h
    linear_combination h

/-- **C38.** All operators preserve well-formedness: Jacobian. -/
theorem C38_jacobian_closed {b : K} (h2 : (2 : K) ≠ 0) (h3 : (3 : K) ≠ 0) (hb : b ≠ 0) (p q : Coord3 K)
    (hp : Jac.isWellFormed b p = true) (hq : Jac.isWellFormed b q = true) :
    Jac.isWellFormed b (Jac.add p q) = true ∧ Jac.isWellFormed b (Jac.sub p q) = true ∧
      Jac.isWellFormed b (Jac.dbl p) = true ∧ Jac.isWellFormed b (Jac.neg p) = true ∧
      ∀ e, Jac.isWellFormed b (@scalarMul _ Jac.ops p e) = true := by
  simp only [C38_jacobian h2 h3 hb] at *
  obtain ⟨P, hP⟩ := hp
  obtain ⟨Q, hQ⟩ := hq
  exact ⟨⟨_, C35_add h2 hP hQ⟩, ⟨_, (C35_sub h2 hP hQ).2⟩, ⟨_, C35_dbl h2 hP⟩, ⟨_, (C35_sub h2 hP hQ).1⟩,
    fun e => ⟨_, C35_scalar_mul h2 hP e⟩⟩

/-- **C38.** All operators preserve well-formedness: projective. -/
theorem C38_projective_closed {a b : K} {mulA : K → K} (hA : ∀ x, mulA x = a * x) (h2 : (2 : K) ≠ 0)
    (hd : 4 * a ^ 3 + 27 * b ^ 2 ≠ 0) (p q : Coord3 K)
    (hp : Proj.isWellFormed a b p = true) (hq : Proj.isWellFormed a b q = true) :
    Proj.isWellFormed a b (Proj.plus mulA p q) = true ∧ Proj.isWellFormed a b (Proj.sub mulA p q) = true ∧
      Proj.isWellFormed a b (Proj.dbl mulA p) = true ∧ Proj.isWellFormed a b (Proj.neg p) = true ∧
      ∀ e, Proj.isWellFormed a b (@scalarMul _ (Proj.ops mulA) p e) = true := by
  simp only [C38_projective h2 hd] at *
  obtain ⟨P, hP⟩ := hp
  obtain ⟨Q, hQ⟩ := hq
  exact ⟨⟨_, (C36_add hA h2 hP hQ).1⟩, ⟨_, (C36_sub hA h2 hP hQ).2⟩, ⟨_, C36_dbl hA h2 hP⟩,
    ⟨_, (C36_sub hA h2 hP hQ).1⟩, fun e => ⟨_, C36_scalar_mul hA h2 hP e⟩⟩

example : Jac.isWellFormed (3 : ZMod 13) ⟨4, 3, 2⟩ = true ∧ Jac.isWellFormed (3 : ZMod 13) ⟨4, 3, 1⟩ = false := by
  decide
example : Proj.isWellFormed (0 : ZMod 13) 3 ⟨2, 4, 2⟩ = true ∧
    Proj.isWellFormed (0 : ZMod 13) 3 ⟨2, 4, 1⟩ = false ∧ Proj.isWellFormed (0 : ZMod 13) 3 ⟨2, 4, 0⟩ = false := by
  decide

/-! ## C33: batch normalisation of points -/

/-- **C33.** `batch_to_special` on a vector of Jacobian points, zeros included: the i-th result denotes the
i-th point and is special. -/
theorem C33_jacobian [InverseO K] [LawfulInverse K] {b : K} (debug : Bool) (vec : List (Coord3 K))
    (Ps : List (sw 0 b).Point) (h : List.Forall₂ JacRep vec Ps) :
    ∃ l, @batchToSpecial _ Jac.ops Jac.isZero Jac.toAffine (Jac.batchToSpecialNZ debug) vec = .ok l ∧
      List.Forall₂ JacRep l Ps ∧ ∀ p ∈ l, Jac.isSpecial p = true :=
  letI : GroupOps (Coord3 K) := Jac.ops
  batchToSpecial_rel (Rep := JacRep (W := sw 0 b)) (fun p => Jac.isSpecial p = true) Jac.isZero Jac.isZero_rep
    Jac.toAffine (Jac.toAffine_spec (b := b) (P := 0) rfl) _ (Jac.batchToSpecialNZ_rep debug) vec Ps h

omit [LawfulSquared K] in
/-- **C33.** `batch_to_special` on a vector of projective points. -/
theorem C33_projective [InverseO K] [LawfulInverse K] {a b : K} (mulA : K → K) (debug : Bool)
    (vec : List (Coord3 K)) (Ps : List (sw a b).Point) (h : List.Forall₂ ProjRep vec Ps) :
    ∃ l, @batchToSpecial _ (Proj.ops mulA) Proj.isZero Proj.toAffine (Proj.batchToSpecialNZ debug) vec = .ok l ∧
      List.Forall₂ ProjRep l Ps ∧ ∀ p ∈ l, Proj.isSpecial p = true :=
  letI : GroupOps (Coord3 K) := Proj.ops mulA
  batchToSpecial_rel (Rep := ProjRep (W := sw a b)) (fun p => Proj.isSpecial p = true) Proj.isZero
    Proj.isZero_rep Proj.toAffine (Proj.toAffine_spec (a := a) (b := b) (P := 0) ⟨rfl, rfl⟩) _
    (Proj.batchToSpecialNZ_rep debug) vec Ps h

example : List.Forall₂ JacRep [⟨4, 3, 2⟩, ⟨5, 6, 0⟩, (⟨0, 4, 1⟩ : Coord3 (ZMod 13))]
    [Point.some 1 2 toy_12, 0, Point.some 0 4 toy_04] :=
  .cons toy_jac (.cons rfl (.cons ⟨by decide, by decide, by decide⟩ .nil))
example : @batchToSpecial _ Jac.ops Jac.isZero Jac.toAffine (Jac.batchToSpecialNZ true)
    [⟨4, 3, 2⟩, ⟨5, 6, 0⟩, (⟨0, 4, 1⟩ : Coord3 (ZMod 13))] = .ok [⟨1, 2, 1⟩, ⟨0, 1, 0⟩, ⟨0, 4, 1⟩] := by
  decide +kernel

end Libff
