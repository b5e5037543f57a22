import Verif.Lemmas.CurveEdwOrder
import Verif.Props.Curve
import Verif.Props.Edwards

/-!
# Checking a generator by computation
-/
namespace Libff
open WeierstrassCurve Affine

variable {K L : Type} [Zero K] [One K] [Add K] [Sub K] [Neg K] [Mul K] [Squared K] [DecidableEq K]
  [Field L] [Squared L] [LawfulSquared L] [DecidableEq L] {R : K → L → Prop}

theorem RelOps.two_ne (h : RelOps R) (hk : (1 + 1 : K) ≠ 0) : (2 : L) ≠ 0 := by
  rw [← one_add_one_eq_two]
  exact fun h' => hk ((h.eq (h.add h.one h.one) h.zero).2 h')

theorem RelOps.three_ne (h : RelOps R) (hk : (1 + 1 + 1 : K) ≠ 0) : (3 : L) ≠ 0 := by
  rw [← two_add_one_eq_three, ← one_add_one_eq_two]
  exact fun h' => hk ((h.eq (h.add (h.add h.one h.one) h.one) h.zero).2 h')

/-- All conditions on the generator of a group in Jacobian coordinates. -/
def Jac.genCheck (b : K) (g : Coord3 K) (e : List Limb) : Bool :=
  (1 + 1 : K) ≠ 0 ∧ (1 + 1 + 1 : K) ≠ 0 ∧ b ≠ 0 ∧ Jac.isWellFormed b g = true ∧ Jac.isZero g = false ∧
    Jac.isZero (@scalarMul _ Jac.opsNM g e) = true

theorem Jac.genCheck_sound (h : RelOps R) {b : K} {b' : L} (hb : R b b') {g : Coord3 K} {g' : Coord3 L}
    (hg : Coord3.Rel R g g') {e : List Limb} (he : (val e).Prime) (hc : Jac.genCheck b g e = true) :
    (2 : L) ≠ 0 ∧ (3 : L) ≠ 0 ∧ b' ≠ 0 ∧ Jac.isWellFormed b' g' = true ∧
      ∃ P : (sw 0 b').Point, JacRep g' P ∧ addOrderOf P = val e := by
  simp only [Jac.genCheck, decide_eq_true_eq] at hc
  obtain ⟨h2, h3, hb0, hw, h0, h1⟩ := hc
  have h2 := h.two_ne h2
  have h3 := h.three_ne h3
  have hb0 : b' ≠ 0 := fun h' => hb0 ((h.eq hb h.zero).2 h')
  have hw := (Jac.isWellFormed_relates h hb hg).symm.trans hw
  obtain ⟨P, hP⟩ := (C38_jacobian h2 h3 hb0 g').1 hw
  exact ⟨h2, h3, hb0, hw, P, hP, Jac.order_of_check h h2 hg hP he h0 h1⟩

/-- `4 a³ + 27 b²`. -/
def discK (a b : K) : K :=
  let t := a * a * a
  let n := 1 + 1 + 1
  t + t + (t + t) + n * n * n * (b * b)

/-- All conditions on the generator of a group in projective coordinates. -/
def Proj.genCheck (mA : K → K) (a b : K) (g : Coord3 K) (e : List Limb) : Bool :=
  (1 + 1 : K) ≠ 0 ∧ discK a b ≠ 0 ∧ Proj.isWellFormed a b g = true ∧ Proj.isZero g = false ∧
    Proj.isZero (@scalarMul _ (Proj.opsNM mA) g e) = true

theorem Proj.genCheck_sound (h : RelOps R) {mA : K → K} {mA' : L → L} {a b : K} {a' b' : L} (ha : R a a')
    (hb : R b b') (hA : ∀ {x y}, R x y → R (mA x) (mA' y)) (hA' : ∀ x, mA' x = a' * x) {g : Coord3 K}
    {g' : Coord3 L} (hg : Coord3.Rel R g g') {e : List Limb} (he : (val e).Prime)
    (hc : Proj.genCheck mA a b g e = true) :
    (2 : L) ≠ 0 ∧ 4 * a' ^ 3 + 27 * b' ^ 2 ≠ 0 ∧ Proj.isWellFormed a' b' g' = true ∧
      ∃ P : (sw a' b').Point, ProjRep g' P ∧ addOrderOf P = val e := by
  simp only [Proj.genCheck, decide_eq_true_eq] at hc
  obtain ⟨h2, hd, hw, h0, h1⟩ := hc
  have h2 := h.two_ne h2
  have hd : 4 * a' ^ 3 + 27 * b' ^ 2 ≠ 0 := by
    have t := h.mul (h.mul ha ha) ha
    have n := h.add (h.add h.one h.one) h.one
    have hR := h.add (h.add (h.add t t) (h.add t t)) (h.mul (h.mul (h.mul n n) n) (h.mul hb hb))
    intro h'
    refine hd ((h.eq hR h.zero).2 ?_)
    linear_combination h'
  have hw := (Proj.isWellFormed_relates h ha hb hg).symm.trans hw
  obtain ⟨P, hP⟩ := (C38_projective h2 hd g').1 hw
  exact ⟨h2, hd, hw, P, hP, Proj.order_of_check h h2 hA hA' hg hP he h0 h1⟩

/-- All conditions on the generator of a group in inverted Edwards coordinates. -/
def Edw.genCheck (mA mD : K → K) (a d : K) (x y : K) (e : List Limb) : Bool :=
  (1 + 1 : K) ≠ 0 ∧ a - d ≠ 0 ∧ x ≠ 0 ∧ y ≠ 0 ∧ x * y ≠ 0 ∧ Edw.isWellFormed mA mD (Edw.ofAffine x y) = true ∧
    Edw.goodLoop (Edw.opsNM mA mD) (Edw.ofAffine x y) e (bigintMaxBits e) (false, Edw.zero) = true ∧
    Edw.eq (@scalarMul _ (Edw.opsNM mA mD) (Edw.ofAffine x y) e) (Edw.neg (Edw.ofAffine x y)) = true

theorem Edw.genCheck_sound (h : RelOps R) {mA mD : K → K} {mA' mD' : L → L} {a d x y : K} {a' d' x' y' : L}
    (ha : R a a') (hd : R d d') (hx : R x x') (hy : R y y') (hA : ∀ {x y}, R x y → R (mA x) (mA' y))
    (hA' : ∀ x, mA' x = a' * x) (hD : ∀ {x y}, R x y → R (mD x) (mD' y)) (hD' : ∀ x, mD' x = d' * x)
    {e : List Limb} (he : (val e + 1).Prime) (hc : Edw.genCheck mA mD a d x y e = true) :
    (2 : L) ≠ 0 ∧ a' - d' ≠ 0 ∧ Edw.isWellFormed mA' mD' (Edw.ofAffine x' y') = true ∧
      ∃ P : (edwW a' d').Point, EdwRep (Edw.ofAffine x' y') P ∧ addOrderOf P = val e + 1 := by
  simp only [Edw.genCheck, decide_eq_true_eq] at hc
  obtain ⟨h2, hne, hx0, hy0, hxy, hw, h1, h3⟩ := hc
  have h2 := h.two_ne h2
  have hne : a' - d' ≠ 0 := fun h' => hne ((h.eq (h.sub ha hd) h.zero).2 h')
  have hx0 : x' ≠ 0 := fun h' => hx0 ((h.eq hx h.zero).2 h')
  have hy0 : y' ≠ 0 := fun h' => hy0 ((h.eq hy h.zero).2 h')
  have hg : Coord3.Rel R (Edw.ofAffine x y) (Edw.ofAffine x' y') := ⟨hy, hx, h.mul hx hy⟩
  have hw := (Edw.isWellFormed_relates h hA hD hg).symm.trans hw
  obtain ⟨P, hP⟩ := (C38_edwards_partial hA' hD' h2 hne (Edw.ofAffine x' y') hy0 hx0 (mul_ne_zero hx0 hy0)).2.1 hw
  refine ⟨h2, hne, hw, P, hP, Edw.order_of_check h h2 hne hA hA' hD hD' hg hP he ?_ h1 h3⟩
  simp [Edw.isZero, Edw.ofAffine, hxy]

end Libff
