import Verif.Lemmas.Curve
import Verif.Lemmas.CurveEdwRep
import Verif.Model.MulByQ
import Verif.Spec.TwistEndo
import Verif.Lemmas.CurveOrder
import Verif.Lemmas.CurveEdwOrder
import Verif.Props.Curve
import Verif.Props.Edwards
import Mathlib.Algebra.CharP.Frobenius

/-!
# Twisted Frobenius maps are endomorphisms of the curve
-/
namespace Libff
open WeierstrassCurve Affine

variable {K : Type*} [Field K] [DecidableEq K] {a₂ a₄ a₆ : K}

/-- The conditions under which `(x, y) ↦ (cx σ(x), cy σ(y))` preserves the curve `y² = x³ + a₂ x² + a₄ x + a₆`. -/
structure TwistFrob (σ : K →+* K) (a₂ a₄ a₆ cx cy : K) : Prop where
  ne : cx ≠ 0
  sq : cy ^ 2 = cx ^ 3
  e₂ : cx * σ a₂ = a₂
  e₄ : cx ^ 2 * σ a₄ = a₄
  e₆ : cx ^ 3 * σ a₆ = a₆

namespace TwistFrob
variable {σ : K →+* K} {cx cy : K} (h : TwistFrob σ a₂ a₄ a₆ cx cy)
include h

omit [DecidableEq K] in
theorem cy_ne : cy ≠ 0 := fun h0 => pow_ne_zero 3 h.ne (by rw [← h.sq, h0]; ring)

omit [DecidableEq K] in
theorem nonsingular {x y : K} (hP : (weier a₂ a₄ a₆).Nonsingular x y) :
    (weier a₂ a₄ a₆).Nonsingular (cx * σ x) (cy * σ y) := by
  rw [nonsingular_iff] at hP ⊢
  obtain ⟨h1, h2⟩ := hP
  constructor
  · rw [weier_equation] at h1 ⊢
    have h1 := congrArg σ h1
    simp only [map_pow, map_add, map_mul] at h1
    have := h.e₂; have := h.e₄; have := h.e₆
    linear_combination σ y ^ 2 * h.sq + cx ^ 3 * h1 + (σ x) ^ 2 * cx ^ 2 * h.e₂ + σ x * cx * h.e₄ + h.e₆
  · simp only [weier, zero_mul, sub_zero] at h2 ⊢
    refine h2.imp (fun h3 h4 => h3 ?_) (fun h3 h4 => h3 ?_)
    · have h5 : cx ^ 2 * σ (3 * x ^ 2 + 2 * a₂ * x + a₄) = 0 := by
        simp only [map_pow, map_add, map_mul, map_ofNat]
        linear_combination h.e₄ + 2 * σ x * cx * h.e₂ - h4
      have := (mul_eq_zero.1 h5).resolve_left (pow_ne_zero 2 h.ne)
      exact ((map_eq_zero σ).1 this).symm
    · have h5 : cy * σ (y + y) = 0 := by
        simp only [map_add]
        linear_combination h4
      have := (map_eq_zero σ).1 ((mul_eq_zero.1 h5).resolve_left h.cy_ne)
      linear_combination this

/-- The map on points. -/
def map : (weier a₂ a₄ a₆).Point → (weier a₂ a₄ a₆).Point
  | .zero => 0
  | .some x y hP => .some (cx * σ x) (cy * σ y) (h.nonsingular hP)

omit [DecidableEq K] in
theorem map_zero : h.map 0 = 0 := rfl

omit [DecidableEq K] in
theorem map_some {x y : K} (hP) : h.map (.some x y hP) = .some (cx * σ x) (cy * σ y) (h.nonsingular hP) := rfl

theorem map_add (h2 : (2 : K) ≠ 0) (P Q : (weier a₂ a₄ a₆).Point) : h.map (P + Q) = h.map P + h.map Q := by
  rcases P with _ | ⟨x₁, y₁, h₁⟩
  · change h.map (0 + Q) = h.map 0 + h.map Q
    rw [zero_add, h.map_zero, zero_add]
  rcases Q with _ | ⟨x₂, y₂, h₂⟩
  · change h.map (Point.some x₁ y₁ h₁ + 0) = h.map (Point.some x₁ y₁ h₁) + h.map 0
    rw [add_zero, h.map_zero, add_zero]
  have hcx := h.ne
  have hcy := h.cy_ne
  have hl : cy / cx * (cy / cx) = cx := by
    field_simp
    linear_combination h.sq
  by_cases hx : x₁ = x₂
  · subst hx
    by_cases hy : y₂ = -y₁
    · rw [weier_add_inv hy, h.map_zero, h.map_some, h.map_some, weier_add_inv]
      rw [hy, _root_.map_neg]; ring
    · have hyy : y₁ = y₂ := by
        by_contra hne
        exact hy (weier_y_of_x h₁ h₂ hne)
      subst hyy
      have hy0 : y₁ ≠ 0 := fun h0 => hy (by rw [h0, neg_zero])
      obtain ⟨h3, e3⟩ := weier_dbl h2 (h := h₁) (h' := h₂) hy0 rfl rfl
      have hs0 : σ y₁ ≠ 0 := (map_ne_zero σ).2 hy0
      have hs : (3 * (cx * σ x₁) ^ 2 + 2 * a₂ * (cx * σ x₁) + a₄) / (2 * (cy * σ y₁)) =
          cy / cx * ((3 * σ x₁ ^ 2 + 2 * σ a₂ * σ x₁ + σ a₄) / (2 * σ y₁)) := by
        rw [div_mul_div_comm, div_eq_div_iff (by simp [h2, hs0, hcy]) (by simp [h2, hs0, hcx])]
        have e2 := h.e₂; have e4 := h.e₄
        linear_combination (-2 * σ y₁ * (3 * σ x₁ ^ 2 + 2 * σ a₂ * σ x₁ + σ a₄)) * h.sq
          - 4 * σ y₁ * cx ^ 2 * σ x₁ * h.e₂ - 2 * σ y₁ * cx * h.e₄
      rw [e3, h.map_some, h.map_some]
      symm
      refine (weier_dbl h2 (mul_ne_zero hcy hs0) ?_ ?_).choose_spec
      · rw [hs, mul_pow, pow_two (cy / cx), hl]
        simp only [_root_.map_sub, map_pow, map_div₀, _root_.map_add, map_mul, map_ofNat]
        linear_combination - h.e₂
      · rw [hs]
        simp only [_root_.map_sub, map_pow, map_div₀, _root_.map_add, map_mul, map_ofNat]
        have : cy = cy / cx * cx := by field_simp
        generalize cy / cx = t at this
        rw [this]; ring
  · have hsx : σ x₁ ≠ σ x₂ := fun h0 => hx (σ.injective h0)
    have hsx' : σ x₂ - σ x₁ ≠ 0 := sub_ne_zero.2 hsx.symm
    obtain ⟨h3, e3⟩ := weier_add_of_ne (h₁ := h₁) (h₂ := h₂) hx rfl rfl
    rw [e3, h.map_some, h.map_some, h.map_some]
    have hs : (cy * σ y₂ - cy * σ y₁) / (cx * σ x₂ - cx * σ x₁) = cy / cx * ((σ y₂ - σ y₁) / (σ x₂ - σ x₁)) := by
      rw [← mul_sub, ← mul_sub, mul_div_mul_comm]
    symm
    refine (weier_add_of_ne (fun h0 => hsx (mul_left_cancel₀ hcx h0)) ?_ ?_).choose_spec
    · rw [hs, mul_pow, pow_two (cy / cx), hl]
      simp only [_root_.map_sub, map_pow, map_div₀]
      linear_combination - h.e₂
    · rw [hs]
      simp only [_root_.map_sub, map_pow, map_div₀, map_mul]
      have : cy = cy / cx * cx := by field_simp
      generalize cy / cx = t at this
      rw [this]; ring

/-- The endomorphism. -/
def hom (h2 : (2 : K) ≠ 0) : (weier a₂ a₄ a₆).Point →+ (weier a₂ a₄ a₆).Point where
  toFun := h.map
  map_zero' := rfl
  map_add' := h.map_add h2

end TwistFrob

theorem Jac.mulByQ_rep {σ : K →+* K} {b cx cy : K} (h : TwistFrob σ 0 0 b cx cy) {f mX mY : K → K}
    (hf : ∀ x, f x = σ x) (hX : ∀ x, mX x = cx * x) (hY : ∀ x, mY x = cy * x) {p : Coord3 K}
    {P : (sw 0 b).Point} (hp : JacRep p P) : JacRep (Coord3.mulByQ f mX mY p) (h.map P) := by
  rcases P with _ | ⟨x, y, hP⟩
  · have hp : p.Z = 0 := hp
    change f p.Z = 0
    rw [hp, hf, _root_.map_zero]
  · obtain ⟨hZ, h1, h2⟩ := hp
    refine ⟨?_, ?_, ?_⟩
    · change f p.Z ≠ 0
      rw [hf]; exact (map_ne_zero σ).2 hZ
    · change mX (f p.X) = cx * σ x * (f p.Z) ^ 2
      rw [hX, hf, hf, h1, map_mul, map_pow, mul_assoc]
    · change mY (f p.Y) = cy * σ y * (f p.Z) ^ 3
      rw [hY, hf, hf, h2, map_mul, map_pow, mul_assoc]

theorem Proj.mulByQ_rep {σ : K →+* K} {a b cx cy : K} (h : TwistFrob σ 0 a b cx cy) {f mX mY : K → K}
    (hf : ∀ x, f x = σ x) (hX : ∀ x, mX x = cx * x) (hY : ∀ x, mY x = cy * x) {p : Coord3 K}
    {P : (sw a b).Point} (hp : ProjRep p P) : ProjRep (Coord3.mulByQ f mX mY p) (h.map P) := by
  rcases P with _ | ⟨x, y, hP⟩
  · have hp : p.X = 0 ∧ p.Z = 0 := hp
    change mX (f p.X) = 0 ∧ f p.Z = 0
    rw [hp.1, hp.2, hX, hf, _root_.map_zero, mul_zero]
    exact ⟨rfl, rfl⟩
  · obtain ⟨hZ, h1, h2⟩ := hp
    refine ⟨?_, ?_, ?_⟩
    · change f p.Z ≠ 0
      rw [hf]; exact (map_ne_zero σ).2 hZ
    · change mX (f p.X) = cx * σ x * (f p.Z)
      rw [hX, hf, hf, h1, map_mul, mul_assoc]
    · change mY (f p.Y) = cy * σ y * (f p.Z)
      rw [hY, hf, hf, h2, map_mul, mul_assoc]

omit [DecidableEq K] in
theorem Edw.twistFrob {σ : K →+* K} {a d c : K} (hc : c ≠ 0) (ha : a * c ^ 2 = σ a) (hd : d * c ^ 2 = σ d) :
    TwistFrob σ (2 * (a + d)) ((a - d) ^ 2) 0 (c⁻¹ ^ 2) (c⁻¹ ^ 3) where
  ne := pow_ne_zero 2 (inv_ne_zero hc)
  sq := by ring
  e₂ := by
    rw [map_mul, _root_.map_add, map_ofNat, ← ha, ← hd]
    field_simp
  e₄ := by
    rw [map_pow, _root_.map_sub, ← ha, ← hd]
    field_simp
  e₆ := by rw [_root_.map_zero, mul_zero]

theorem Edw.mulByQ_rep {σ : K →+* K} {a d c : K} (hc : c ≠ 0) (ha : a * c ^ 2 = σ a) (hd : d * c ^ 2 = σ d)
    {f mY mZ : K → K} (hf : ∀ x, f x = σ x) (hY : ∀ x, mY x = c * x) (hZ : ∀ x, mZ x = c * x)
    {p : Coord3 K} {P : (edwW a d).Point} (hp : EdwRep p P) :
    EdwRep (Edw.mulByQ f mY mZ p) ((Edw.twistFrob hc ha hd).map P) := by
  rcases P with _ | ⟨u, v, hP⟩
  · have hp : p.Y = 0 ∧ p.Z = 0 := hp
    change mY (f p.Y) = 0 ∧ mZ (f p.Z) = 0
    rw [hp.1, hp.2, hY, hZ, hf, _root_.map_zero, mul_zero]
    exact ⟨rfl, rfl⟩
  · obtain ⟨hX, hY0, hZ0, h1, h2, h3⟩ := hp
    have sX := (map_ne_zero σ).2 hX
    have sY := (map_ne_zero σ).2 hY0
    have sZ := (map_ne_zero σ).2 hZ0
    have eX : mZ (f p.Z) / f p.X = c * σ (p.Z / p.X) := by
      rw [hZ, hf, hf, map_div₀, mul_div_assoc]
    have eY : mZ (f p.Z) / mY (f p.Y) = σ (p.Z / p.Y) := by
      rw [hZ, hY, hf, hf, map_div₀, mul_div_mul_left _ _ hc]
    have hu : c⁻¹ ^ 2 * σ u = (a - d) * (1 + σ (p.Z / p.Y)) / (1 - σ (p.Z / p.Y)) := by
      rw [h2, map_div₀, map_mul, _root_.map_sub, _root_.map_add, _root_.map_sub, map_one, ← ha, ← hd]
      rw [← mul_div_assoc]
      congr 1
      field_simp
    refine ⟨?_, ?_, ?_, ?_, ?_, ?_⟩
    · change f p.X ≠ 0
      rw [hf]; exact sX
    · change mY (f p.Y) ≠ 0
      rw [hY, hf]; exact mul_ne_zero hc sY
    · change mZ (f p.Z) ≠ 0
      rw [hZ, hf]; exact mul_ne_zero hc sZ
    · change EdwOn a d (mZ (f p.Z) / f p.X) (mZ (f p.Z) / mY (f p.Y))
      rw [eX, eY]
      unfold EdwOn at h1 ⊢
      have h1 := congrArg σ h1
      simp only [_root_.map_add, map_mul, map_pow, map_one, ← ha, ← hd] at h1
      linear_combination h1
    · change _ = (a - d) * (1 + mZ (f p.Z) / mY (f p.Y)) / (1 - mZ (f p.Z) / mY (f p.Y))
      rw [eY]; exact hu
    · change c⁻¹ ^ 3 * σ v = 2 * (c⁻¹ ^ 2 * σ u) / (mZ (f p.Z) / f p.X)
      rw [eX, h3, map_div₀, map_mul, map_ofNat]
      have : σ (p.Z / p.X) ≠ 0 := (map_ne_zero σ).2 (div_ne_zero hZ0 hX)
      field_simp

section generic
variable {G : Type} {A : Type*} [ops : GroupOps G] [AddCommGroup A] {Rep : G → A → Prop}

theorem twistEndo_of_rel (h : ImplementsRel Rep) {eq : G → G → Bool} {isWf : G → Bool} {valid : G → Prop}
    (heq : ∀ {g g' a a'}, Rep g a → Rep g' a' → (eq g g' = true ↔ a = a'))
    (hv : ∀ {g}, valid g ↔ ∃ a, Rep g a) (hw : ∀ {g a}, Rep g a → isWf g = true) {one : G} {a : A}
    (ha : Rep one a) {m : G → G} (ψ : A →+ A) (hm : ∀ {g a}, Rep g a → Rep (m g) (ψ a)) {q : List Limb}
    (hq : eq (m one) (scalarMul one q) = true) : TwistEndo ops eq isWf valid one q m where
  valid_map hg := by
    obtain ⟨a, ha⟩ := hv.1 hg
    exact hv.2 ⟨_, hm ha⟩
  wellFormed hg := by
    obtain ⟨a, ha⟩ := hv.1 hg
    exact hw (hm ha)
  zero := (heq (hm h.zero) h.zero).2 ψ.map_zero
  add hg hg' := by
    obtain ⟨a, ha⟩ := hv.1 hg
    obtain ⟨b, hb⟩ := hv.1 hg'
    exact (heq (hm (h.add ha hb)) (h.add (hm ha) (hm hb))).2 (ψ.map_add _ _)
  sub hg hg' := by
    obtain ⟨a, ha⟩ := hv.1 hg
    obtain ⟨b, hb⟩ := hv.1 hg'
    exact (heq (hm (h.sub ha hb)) (h.sub (hm ha) (hm hb))).2 (ψ.map_sub _ _)
  dbl hg := by
    obtain ⟨a, ha⟩ := hv.1 hg
    exact (heq (hm (h.dbl ha)) (h.dbl (hm ha))).2 (ψ.map_add _ _)
  scalar hg k := by
    obtain ⟨a, ha⟩ := hv.1 hg
    exact (heq (hm (scalarMul_rel h ha k)) (scalarMul_rel h (hm ha) k)).2 (ψ.map_nsmul _ _)
  mul_q k := by
    have h1 : ψ a = val q • a := (heq (hm ha) (scalarMul_rel h ha q)).1 hq
    have h2 := scalarMul_rel h ha k
    refine (heq (hm h2) (scalarMul_rel h h2 q)).2 ?_
    rw [ψ.map_nsmul, h1, smul_comm]

end generic

theorem Quad.scale_eq_ofBase {F : Type*} [Field F] {β : F} (c : F) (x : Fp2 F β) :
    Quad.scale (· * ·) c x = Quad.ofBase c * x := by
  refine Quad.ext ?_ ?_ <;> simp [Quad.scale]

theorem Cubic.scale_eq_ofBase {F : Type*} [Field F] {β : F} (c : F) (x : Fp3 F β) :
    Cubic.scale (· * ·) c x = Cubic.ofBase c * x := by
  refine Cubic.ext ?_ ?_ ?_ <;> simp [Cubic.scale]

section checks
variable {K L : Type} [DecidableEq K] [Zero K] [One K] [Add K] [Sub K] [Neg K] [Mul K] [Squared K] [Field L]
  [DecidableEq L] [Squared L] [LawfulSquared L] {R : K → L → Prop}

theorem Jac.eq_relates (h : RelOps R) {p p' : Coord3 K} {q q' : Coord3 L} (hp : Coord3.Rel R p q)
    (hp' : Coord3.Rel R p' q') : Jac.eq p p' = Jac.eq q q' := by
  unfold Jac.eq
  refine rel_ite (S := Eq) (Jac.isZero_relates h hp) (fun _ _ => ?_) (fun _ _ => ?_)
  · exact Bool.eq_iff_iff.2 (Jac.isZero_relates h hp')
  refine rel_ite (S := Eq) (Jac.isZero_relates h hp') (fun _ _ => rfl) (fun _ _ => ?_)
  refine rel_ite (S := Eq) (not_congr (h.eq (h.mul hp.1 (h.squared hp'.2.2)) (h.mul hp'.1 (h.squared hp.2.2))))
    (fun _ _ => rfl) (fun _ _ => ?_)
  exact decide_eq_decide.2 (not_congr (not_congr (h.eq (h.mul hp.2.1 (h.mul hp'.2.2 (h.squared hp'.2.2)))
    (h.mul hp'.2.1 (h.mul hp.2.2 (h.squared hp.2.2))))))

theorem Proj.eq_relates (h : RelOps R) {p p' : Coord3 K} {q q' : Coord3 L} (hp : Coord3.Rel R p q)
    (hp' : Coord3.Rel R p' q') : Proj.eq p p' = Proj.eq q q' := by
  unfold Proj.eq
  refine rel_ite (S := Eq) (Proj.isZero_relates h hp) (fun _ _ => ?_) (fun _ _ => ?_)
  · exact Bool.eq_iff_iff.2 (Proj.isZero_relates h hp')
  refine rel_ite (S := Eq) (Proj.isZero_relates h hp') (fun _ _ => rfl) (fun _ _ => ?_)
  refine rel_ite (S := Eq) (not_congr (h.eq (h.mul hp.1 hp'.2.2) (h.mul hp'.1 hp.2.2))) (fun _ _ => rfl) (fun _ _ => ?_)
  exact rel_ite (S := Eq) (not_congr (h.eq (h.mul hp.2.1 hp'.2.2) (h.mul hp'.2.1 hp.2.2))) (fun _ _ => rfl) (fun _ _ => rfl)

/-- The conditions on the stored constants, Jacobian coordinates. -/
def Jac.qCheck (f : K → K) (b cx cy : K) (g : Coord3 K) (q : List Limb) : Bool :=
  (1 + 1 : K) ≠ 0 ∧ (1 + 1 + 1 : K) ≠ 0 ∧ b ≠ 0 ∧ Jac.isWellFormed b g = true ∧ cx ≠ 0 ∧ cy * cy = cx * cx * cx ∧
    cx * cx * cx * f b = b ∧
    Jac.eq (Coord3.mulByQ f (cx * ·) (cy * ·) g) (@scalarMul _ Jac.opsNM g q) = true

theorem Jac.qCheck_sound (h : RelOps R) {p : ℕ} [Fact p.Prime] [CharP L p] {f : K → K} {f' : L → L}
    (hf : ∀ {x y}, R x y → R (f x) (f' y)) (hf' : ∀ x, f' x = x ^ p ^ 1) {b cx cy : K} {b' cx' cy' : L}
    (hb : R b b') (hx : R cx cx') (hy : R cy cy') {mX mY : L → L} (hmX : ∀ x, mX x = cx' * x)
    (hmY : ∀ x, mY x = cy' * x) {g : Coord3 K} {g' : Coord3 L} (hg : Coord3.Rel R g g') {q : List Limb}
    (hc : Jac.qCheck f b cx cy g q = true) :
    TwistEndo Jac.ops Jac.eq (Jac.isWellFormed b') (fun p => Jac.isWellFormed b' p = true) g' q
      (Coord3.mulByQ f' mX mY) := by
  simp only [Jac.qCheck, decide_eq_true_eq] at hc
  obtain ⟨h2, h3, hb0, hw, hcx, hsq, he, hq⟩ := hc
  have h2 := h.two_ne h2
  have h3 := h.three_ne h3
  have hb0 : b' ≠ 0 := fun h0 => hb0 ((h.eq hb h.zero).2 h0)
  have hf'' : ∀ x, f' x = frobenius L p x := fun x => by rw [hf', pow_one, frobenius_def]
  have ht : TwistFrob (frobenius L p) 0 0 b' cx' cy' :=
    { ne := fun h0 => hcx ((h.eq hx h.zero).2 h0)
      sq := by
        have := (h.eq (h.mul hy hy) (h.mul (h.mul hx hx) hx)).1 hsq
        linear_combination this
      e₂ := by rw [_root_.map_zero, mul_zero]
      e₄ := by rw [_root_.map_zero, mul_zero]
      e₆ := by
        have := (h.eq (h.mul (h.mul (h.mul hx hx) hx) (hf hb)) hb).1 he
        rw [hf''] at this
        linear_combination this }
  have hw' : Jac.isWellFormed b' g' = true := (Jac.isWellFormed_relates h hb hg).symm.trans hw
  obtain ⟨P, hP⟩ := (C38_jacobian h2 h3 hb0 g').1 hw'
  have hq' : Jac.eq (Coord3.mulByQ f' mX mY g') (@scalarMul _ Jac.ops g' q) = true := by
    rw [← hq]
    refine (Jac.eq_relates h ?_ ((Jac.relGroup h).scalarMul hg q)).symm
    refine ⟨?_, ?_, hf hg.2.2⟩
    · change R _ (mX (f' g'.X)); rw [hmX]; exact h.mul hx (hf hg.1)
    · change R _ (mY (f' g'.Y)); rw [hmY]; exact h.mul hy (hf hg.2.1)
  exact @twistEndo_of_rel _ _ Jac.ops _ _ (Jac.implementsRel (b := b') h2) _ _ _ Jac.eq_rep
    (fun {g} => C38_jacobian h2 h3 hb0 g) (fun {g a} hg => (C38_jacobian h2 h3 hb0 g).2 ⟨a, hg⟩) _ _ hP _ (ht.hom h2)
    (fun hg => Jac.mulByQ_rep ht hf'' hmX hmY hg) _ hq'

/-- The conditions on the stored constants, projective coordinates. -/
def Proj.qCheck (f mA : K → K) (a b cx cy : K) (g : Coord3 K) (q : List Limb) : Bool :=
  (1 + 1 : K) ≠ 0 ∧ discK a b ≠ 0 ∧ Proj.isWellFormed a b g = true ∧ cx ≠ 0 ∧ cy * cy = cx * cx * cx ∧
    cx * cx * f a = a ∧ cx * cx * cx * f b = b ∧
    Proj.eq (Coord3.mulByQ f (cx * ·) (cy * ·) g) (@scalarMul _ (Proj.opsNM mA) g q) = true

theorem discK_ne (h : RelOps R) {a b : K} {a' b' : L} (ha : R a a') (hb : R b b') (hd : discK a b ≠ 0) :
    4 * a' ^ 3 + 27 * b' ^ 2 ≠ 0 := by
  have hr : R (discK a b) (discK a' b') := by
    have ht := h.mul (h.mul ha ha) ha
    have hn := h.add (h.add h.one h.one) h.one
    exact h.add (h.add (h.add ht ht) (h.add ht ht)) (h.mul (h.mul (h.mul hn hn) hn) (h.mul hb hb))
  have : discK a' b' = 4 * a' ^ 3 + 27 * b' ^ 2 := by
    simp only [discK]; ring
  rw [← this]
  exact fun h0 => hd ((h.eq hr h.zero).2 h0)

theorem Proj.qCheck_sound (h : RelOps R) {p : ℕ} [Fact p.Prime] [CharP L p] {f : K → K} {f' : L → L}
    (hf : ∀ {x y}, R x y → R (f x) (f' y)) (hf' : ∀ x, f' x = x ^ p ^ 1) {mA : K → K} {mA' : L → L}
    {a b cx cy : K} {a' b' cx' cy' : L} (hA : ∀ {x y}, R x y → R (mA x) (mA' y)) (hA' : ∀ x, mA' x = a' * x)
    (ha : R a a') (hb : R b b') (hx : R cx cx') (hy : R cy cy') {mX mY : L → L} (hmX : ∀ x, mX x = cx' * x)
    (hmY : ∀ x, mY x = cy' * x) {g : Coord3 K} {g' : Coord3 L} (hg : Coord3.Rel R g g') {q : List Limb}
    (hc : Proj.qCheck f mA a b cx cy g q = true) :
    TwistEndo (Proj.ops mA') Proj.eq (Proj.isWellFormed a' b') (fun p => Proj.isWellFormed a' b' p = true) g' q
      (Coord3.mulByQ f' mX mY) := by
  simp only [Proj.qCheck, decide_eq_true_eq] at hc
  obtain ⟨h2, hd, hw, hcx, hsq, hea, he, hq⟩ := hc
  have h2 := h.two_ne h2
  have hd := discK_ne h ha hb hd
  have hf'' : ∀ x, f' x = frobenius L p x := fun x => by rw [hf', pow_one, frobenius_def]
  have ht : TwistFrob (frobenius L p) 0 a' b' cx' cy' :=
    { ne := fun h0 => hcx ((h.eq hx h.zero).2 h0)
      sq := by
        have := (h.eq (h.mul hy hy) (h.mul (h.mul hx hx) hx)).1 hsq
        linear_combination this
      e₂ := by rw [_root_.map_zero, mul_zero]
      e₄ := by
        have := (h.eq (h.mul (h.mul hx hx) (hf ha)) ha).1 hea
        rw [hf''] at this
        linear_combination this
      e₆ := by
        have := (h.eq (h.mul (h.mul (h.mul hx hx) hx) (hf hb)) hb).1 he
        rw [hf''] at this
        linear_combination this }
  have hw' : Proj.isWellFormed a' b' g' = true := (Proj.isWellFormed_relates h ha hb hg).symm.trans hw
  obtain ⟨P, hP⟩ := (C38_projective h2 hd g').1 hw'
  have hq' : Proj.eq (Coord3.mulByQ f' mX mY g') (@scalarMul _ (Proj.ops mA') g' q) = true := by
    rw [← hq]
    refine (Proj.eq_relates h ?_ ((Proj.relGroup h hA).scalarMul hg q)).symm
    refine ⟨?_, ?_, hf hg.2.2⟩
    · change R _ (mX (f' g'.X)); rw [hmX]; exact h.mul hx (hf hg.1)
    · change R _ (mY (f' g'.Y)); rw [hmY]; exact h.mul hy (hf hg.2.1)
  exact @twistEndo_of_rel _ _ (Proj.ops mA') _ _ (Proj.implementsRel (b := b') hA' h2) _ _ _ Proj.eq_rep
    (fun {g} => C38_projective h2 hd g) (fun {g a} hg => (C38_projective h2 hd g).2 ⟨a, hg⟩) _ _ hP _ (ht.hom h2)
    (fun hg => Proj.mulByQ_rep ht hf'' hmX hmY hg) _ hq'

/-- The conditions on the stored constants, Edwards. -/
def Edw.qCheck (f mA mD : K → K) (a d c : K) (g : Coord3 K) (q : List Limb) : Bool :=
  (1 + 1 : K) ≠ 0 ∧ a - d ≠ 0 ∧ c ≠ 0 ∧ a * (c * c) = f a ∧ d * (c * c) = f d ∧
    Edw.eq (Edw.mulByQ f (c * ·) (c * ·) g) (@scalarMul _ (Edw.opsNM mA mD) g q) = true

theorem Edw.qCheck_sound (h : RelOps R) {p : ℕ} [Fact p.Prime] [CharP L p] {f : K → K} {f' : L → L}
    (hf : ∀ {x y}, R x y → R (f x) (f' y)) (hf' : ∀ x, f' x = x ^ p ^ 1) {mA mD : K → K} {mA' mD' : L → L}
    {a d c : K} {a' d' c' : L} (hA : ∀ {x y}, R x y → R (mA x) (mA' y)) (hA' : ∀ x, mA' x = a' * x)
    (hD : ∀ {x y}, R x y → R (mD x) (mD' y)) (hD' : ∀ x, mD' x = d' * x)
    (ha : R a a') (hd : R d d') (hc' : R c c') {mY mZ : L → L} (hmY : ∀ x, mY x = c' * x)
    (hmZ : ∀ x, mZ x = c' * x) {g : Coord3 K} {g' : Coord3 L} (hg : Coord3.Rel R g g') {q : List Limb}
    {r : ℕ} (hr : r % 2 = 1) {P : (edwW a' d').Point} (hP : EdwRep g' P) (hPr : addOrderOf P = r)
    (hc : Edw.qCheck f mA mD a d c g q = true) :
    TwistEndo (Edw.ops mA' mD') Edw.eq (Edw.isWellFormed mA' mD')
      (fun p => ∃ Q : (edwW a' d').Point, EdwRepIn (torsionSub r) p Q) g' q (Edw.mulByQ f' mY mZ) := by
  simp only [Edw.qCheck, decide_eq_true_eq] at hc
  obtain ⟨h2, hne, hc0, hea, hed, hq⟩ := hc
  have h2 := h.two_ne h2
  have hne : a' - d' ≠ 0 := fun h0 => hne ((h.eq (h.sub ha hd) h.zero).2 h0)
  have hc0 : c' ≠ 0 := fun h0 => hc0 ((h.eq hc' h.zero).2 h0)
  have hf'' : ∀ x, f' x = frobenius L p x := fun x => by rw [hf', pow_one, frobenius_def]
  have ea : a' * c' ^ 2 = frobenius L p a' := by
    rw [← hf'', pow_two]; exact (h.eq (h.mul ha (h.mul hc' hc')) (hf ha)).1 hea
  have ed : d' * c' ^ 2 = frobenius L p d' := by
    rw [← hf'', pow_two]; exact (h.eq (h.mul hd (h.mul hc' hc')) (hf hd)).1 hed
  have hq' : Edw.eq (Edw.mulByQ f' mY mZ g') (@scalarMul _ (Edw.ops mA' mD') g' q) = true := by
    rw [← hq]
    refine (Edw.eq_relates h ?_ ((Edw.relGroup h hA hD).scalarMul hg q)).symm
    refine ⟨hf hg.1, ?_, ?_⟩
    · change R _ (mY (f' g'.Y)); rw [hmY]; exact h.mul hc' (hf hg.2.1)
    · change R _ (mZ (f' g'.Z)); rw [hmZ]; exact h.mul hc' (hf hg.2.2)
  have hPm : P ∈ (torsionSub r : AddSubgroup (edwW a' d').Point) := by
    change r • P = 0
    rw [← hPr, addOrderOf_nsmul_eq_zero]
  refine @twistEndo_of_rel _ _ (Edw.ops mA' mD') _ _
    (Edw.implementsRel hA' hD' h2 hne (noTwoTorsion_torsionSub r hr)) _ _ _ (fun h h' => Edw.eq_rep h2 hne h.2 h'.2)
    (fun {g} => Iff.rfl) (fun {g a} hg => C38_edwards_complete hA' hD' hg.2) _ _ ⟨hPm, hP⟩ _
    ((Edw.twistFrob hc0 ea ed).hom h2) (fun {g a} hg => ⟨?_, Edw.mulByQ_rep hc0 ea ed hf'' hmY hmZ hg.2⟩) _ hq'
  change r • (Edw.twistFrob hc0 ea ed).hom h2 a = 0
  rw [← map_nsmul]
  have : r • a = 0 := hg.1
  rw [this, _root_.map_zero]

end checks
end Libff
