import Verif.Lemmas.GroupOrder

/-!
# Bounds and parity of the number of points
-/
namespace Libff
open WeierstrassCurve Affine

section bound
variable {F : Type*} [Field F] {a₂ a₄ a₆ : F}

/-- A square root of the right hand side, where there is one. -/
noncomputable def someRoot (a₂ a₄ a₆ x : F) : F :=
  haveI := Classical.dec (∃ y, y ^ 2 = x ^ 3 + a₂ * x ^ 2 + a₄ * x + a₆)
  if h : ∃ y, y ^ 2 = x ^ 3 + a₂ * x ^ 2 + a₄ * x + a₆ then h.choose else 0

theorem root_cases {x y : F} (h : y ^ 2 = x ^ 3 + a₂ * x ^ 2 + a₄ * x + a₆) :
    y = someRoot a₂ a₄ a₆ x ∨ y = - someRoot a₂ a₄ a₆ x := by
  have hs : someRoot a₂ a₄ a₆ x ^ 2 = y ^ 2 := by
    have he : ∃ y, y ^ 2 = x ^ 3 + a₂ * x ^ 2 + a₄ * x + a₆ := ⟨y, h⟩
    rw [someRoot, dif_pos he, he.choose_spec, h]
  exact sq_eq_sq_iff_eq_or_eq_neg.1 hs.symm

/-- A point as an abscissa and a bit. -/
noncomputable def pointCode : (weier a₂ a₄ a₆).Point → Option (F × Bool)
  | .zero => none
  | .some x y _ => some (x, @decide (y = someRoot a₂ a₄ a₆ x) (Classical.dec _))

theorem pointCode_injective : Function.Injective (pointCode (a₂ := a₂) (a₄ := a₄) (a₆ := a₆)) := by
  rintro (_ | ⟨x, y, h⟩) (_ | ⟨x', y', h'⟩) he
  · rfl
  · cases he
  · cases he
  · simp only [pointCode, Option.some.injEq, Prod.mk.injEq, decide_eq_decide] at he
    obtain ⟨rfl, he⟩ := he
    have e1 := root_cases (weier_equation.1 h.1)
    have e2 := root_cases (weier_equation.1 h'.1)
    have : y = y' := by
      by_cases hy : y = someRoot a₂ a₄ a₆ x
      · rw [hy, he.1 hy]
      · rw [e1.resolve_left hy, e2.resolve_left (fun h => hy (he.2 h))]
    subst this; rfl

theorem point_finite [Finite F] : Finite (weier a₂ a₄ a₆).Point := Finite.of_injective _ pointCode_injective

/-- A curve over a finite field `F` has at most `2 |F| + 1` points. -/
theorem point_card_le [Finite F] : Nat.card (weier a₂ a₄ a₆).Point ≤ 2 * Nat.card F + 1 := by
  refine (Nat.card_le_card_of_injective _ pointCode_injective).trans ?_
  rw [Finite.card_option, Nat.card_prod, Nat.card_eq_fintype_card (α := Bool), Fintype.card_bool, mul_comm]

/-- Without a root of the cubic there is no point of order two. -/
theorem point_card_odd [Finite F] [DecidableEq F] (h2 : (2 : F) ≠ 0)
    (hr : ∀ x, x ^ 3 + a₂ * x ^ 2 + a₄ * x + a₆ ≠ 0) : Nat.card (weier a₂ a₄ a₆).Point % 2 = 1 := by
  by_contra hne
  have hd : 2 ∣ Nat.card (weier a₂ a₄ a₆).Point := Nat.dvd_of_mod_eq_zero (by omega)
  have := point_finite (F := F) (a₂ := a₂) (a₄ := a₄) (a₆ := a₆)
  have := Fact.mk Nat.prime_two
  obtain ⟨P, hP⟩ := exists_prime_addOrderOf_dvd_card' 2 hd
  have h0 : P ≠ 0 := fun h0 => by rw [h0, addOrderOf_zero] at hP; omega
  have hn : P = -P := by
    have := addOrderOf_nsmul_eq_zero P
    rw [hP, two_smul] at this
    exact eq_neg_of_add_eq_zero_left this
  rcases P with _ | ⟨x, y, h⟩
  · exact h0 rfl
  · rw [Point.neg_some] at hn
    have hy : y = (weier a₂ a₄ a₆).negY x y := (Point.some.inj hn).2
    simp only [negY, weier, zero_mul, sub_zero] at hy
    have hy0 : y = 0 := by
      have : 2 * y = 0 := by linear_combination hy
      exact (mul_eq_zero.1 this).resolve_left h2
    have he := weier_equation.1 h.1
    rw [hy0] at he
    exact hr x (by rw [← he]; ring)

end bound

/-! ## Testing for a root -/
section rootless
variable {K : Type} [Zero K] [One K] [Add K] [Sub K] [Neg K] [Mul K] [Squared K] [DecidableEq K]

/-- Product of two polynomials of degree below three modulo `x³ + a x + b`. -/
def polyMul (a b : K) (u v : Coord3 K) : Coord3 K :=
  let d3 := u.Y * v.Z + u.Z * v.Y
  let d4 := u.Z * v.Z
  ⟨u.X * v.X - b * d3, u.X * v.Y + u.Y * v.X - a * d3 - b * d4, u.X * v.Z + u.Y * v.Y + u.Z * v.X - a * d4⟩

/-- Power of a polynomial modulo `x³ + a x + b`. -/
def polyPow (a b : K) : Nat → Coord3 K → Nat → Coord3 K
  | 0, _, _ => ⟨1, 0, 0⟩
  | fuel + 1, u, e =>
    if e = 0 then ⟨1, 0, 0⟩
    else
      let r := polyPow a b fuel (polyMul a b u u) (e / 2)
      if e % 2 = 1 then polyMul a b u r else r

/-- `u` is the inverse of `x^N - x` modulo `x³ + a x + b`. -/
def rootlessCheck (a b : K) (fuel N : Nat) (u : Coord3 K) : Bool :=
  let w := polyPow a b fuel ⟨0, 1, 0⟩ N
  let r := polyMul a b u ⟨w.X, w.Y - 1, w.Z⟩
  decide (N < 2 ^ fuel) && (decide (r.X = 1) && (decide (r.Y = 0) && decide (r.Z = 0)))

variable {L : Type} [Field L] [Squared L] [LawfulSquared L] {R : K → L → Prop}

/-- `u` has the value `t` at `x`. -/
def ValAt (R : K → L → Prop) (x : L) (u : Coord3 K) (t : L) : Prop :=
  ∃ v : Coord3 L, Coord3.Rel R u v ∧ v.X + v.Y * x + v.Z * x ^ 2 = t

omit [DecidableEq K] [LawfulSquared L] in
theorem polyMul_val (h : RelOps R) {a b : K} {a' b' x : L} (ha : R a a') (hb : R b b') (hx : x ^ 3 + a' * x + b' = 0)
    {u v : Coord3 K} {s t : L} (hu : ValAt R x u s) (hv : ValAt R x v t) : ValAt R x (polyMul a b u v) (s * t) := by
  obtain ⟨u', hu, rfl⟩ := hu
  obtain ⟨v', hv, rfl⟩ := hv
  have d3 := h.add (h.mul hu.2.1 hv.2.2) (h.mul hu.2.2 hv.2.1)
  have d4 := h.mul hu.2.2 hv.2.2
  refine ⟨polyMul a' b' u' v', ⟨h.sub (h.mul hu.1 hv.1) (h.mul hb d3),
    h.sub (h.sub (h.add (h.mul hu.1 hv.2.1) (h.mul hu.2.1 hv.1)) (h.mul ha d3)) (h.mul hb d4),
    h.sub (h.add (h.add (h.mul hu.1 hv.2.2) (h.mul hu.2.1 hv.2.1)) (h.mul hu.2.2 hv.1)) (h.mul ha d4)⟩, ?_⟩
  simp only [polyMul]
  linear_combination (-(u'.Y * v'.Z + u'.Z * v'.Y) - u'.Z * v'.Z * x) * hx

omit [DecidableEq K] [LawfulSquared L] in
theorem polyPow_val (h : RelOps R) {a b : K} {a' b' x : L} (ha : R a a') (hb : R b b') (hx : x ^ 3 + a' * x + b' = 0)
    (fuel : Nat) {u : Coord3 K} {s : L} (hu : ValAt R x u s) (e : Nat) (he : e < 2 ^ fuel) :
    ValAt R x (polyPow a b fuel u e) (s ^ e) := by
  have h1 : ValAt R x (⟨1, 0, 0⟩ : Coord3 K) 1 := ⟨⟨1, 0, 0⟩, ⟨h.one, h.zero, h.zero⟩, by simp⟩
  induction fuel generalizing u s e with
  | zero =>
    have : e = 0 := by simpa using he
    rw [this, pow_zero]; exact h1
  | succ fuel ih =>
    rw [polyPow]
    by_cases h0 : e = 0
    · rw [if_pos h0, h0, pow_zero]; exact h1
    · rw [if_neg h0]
      have := ih (polyMul_val h ha hb hx hu hu) (e / 2) (by rw [pow_succ] at he; omega)
      rw [← pow_two, ← pow_mul] at this
      by_cases h2 : e % 2 = 1
      · rw [if_pos h2]
        have h3 := polyMul_val h ha hb hx hu this
        rwa [← pow_succ', show 2 * (e / 2) + 1 = e by omega] at h3
      · rw [if_neg h2]
        rwa [show 2 * (e / 2) = e by omega] at this

omit [LawfulSquared L] in
theorem rootlessCheck_sound [Finite L] (h : RelOps R) {a b : K} {a' b' : L} (ha : R a a') (hb : R b b') {fuel : Nat} {N : Nat}
    (hN : Nat.card L = N) {u : Coord3 K} {u' : Coord3 L} (hu : Coord3.Rel R u u')
    (hc : rootlessCheck a b fuel N u = true) (x : L) : x ^ 3 + 0 * x ^ 2 + a' * x + b' ≠ 0 := by
  intro hx
  have hx : x ^ 3 + a' * x + b' = 0 := by rw [← hx]; ring
  simp only [rootlessCheck, Bool.and_eq_true, decide_eq_true_eq] at hc
  obtain ⟨hb0, h1, h2, h3⟩ := hc
  have hX : ValAt R x (⟨0, 1, 0⟩ : Coord3 K) x := ⟨⟨0, 1, 0⟩, ⟨h.zero, h.one, h.zero⟩, by simp⟩
  have hw := polyPow_val h ha hb hx fuel hX N hb0
  have hxN : x ^ N = x := by
    have := Fintype.ofFinite L
    rw [← hN, Nat.card_eq_fintype_card]; exact FiniteField.pow_card x
  rw [hxN] at hw
  obtain ⟨w, hw, hw'⟩ := hw
  obtain ⟨r, hr, hr'⟩ := polyMul_val h ha hb hx (u := u) (v := ⟨(polyPow a b fuel ⟨0, 1, 0⟩ N).X,
      (polyPow a b fuel ⟨0, 1, 0⟩ N).Y - 1, (polyPow a b fuel ⟨0, 1, 0⟩ N).Z⟩) (s := u'.X + u'.Y * x + u'.Z * x ^ 2) (t := 0) ⟨u', hu, rfl⟩
    ⟨⟨w.X, w.Y - 1, w.Z⟩, ⟨hw.1, h.sub hw.2.1 h.one, hw.2.2⟩, by linear_combination hw'⟩
  have e1 := (h.eq hr.1 h.one).1 h1
  have e2 := (h.eq hr.2.1 h.zero).1 h2
  have e3 := (h.eq hr.2.2 h.zero).1 h3
  rw [e1, e2, e3] at hr'
  simp at hr'

end rootless

/-! ## Objects over `K` that denote points -/
section reps
variable {K L : Type} [DecidableEq K] [Zero K] [One K] [Add K] [Sub K] [Neg K] [Mul K] [Squared K] [Field L]
  [DecidableEq L] [Squared L] [LawfulSquared L] {R : K → L → Prop}

/-- The computed object `g` denotes `P`. -/
def JacNM (R : K → L → Prop) {W : Affine L} (g : Coord3 K) (P : W.Point) : Prop := ∃ g', Coord3.Rel R g g' ∧ JacRep g' P

/-- The computed object `g` denotes `P`. -/
def ProjNM (R : K → L → Prop) {W : Affine L} (g : Coord3 K) (P : W.Point) : Prop := ∃ g', Coord3.Rel R g g' ∧ ProjRep g' P

theorem Coord3.Rel.unique (h : RelOps R) {g : Coord3 K} {g' g'' : Coord3 L} (h1 : Coord3.Rel R g g')
    (h2 : Coord3.Rel R g g'') : g' = g'' := by
  obtain ⟨x, y, z⟩ := g'
  obtain ⟨x', y', z'⟩ := g''
  obtain ⟨e1, e2, e3⟩ := h1
  obtain ⟨f1, f2, f3⟩ := h2
  rw [show x = x' from (h.eq e1 f1).1 rfl, show y = y' from (h.eq e2 f2).1 rfl, show z = z' from (h.eq e3 f3).1 rfl]

theorem Jac.sub_relates (h : RelOps R) {p p' : Coord3 K} {q q' : Coord3 L} (hp : Coord3.Rel R p q)
    (hp' : Coord3.Rel R p' q') : Coord3.Rel R (Jac.sub p p') (Jac.sub q q') :=
  Jac.add_relates h hp ⟨hp'.1, h.neg hp'.2.1, hp'.2.2⟩

theorem Proj.sub_relates (h : RelOps R) {mA : K → K} {mA' : L → L} (hA : ∀ {x y}, R x y → R (mA x) (mA' y))
    {p p' : Coord3 K} {q q' : Coord3 L} (hp : Coord3.Rel R p q)
    (hp' : Coord3.Rel R p' q') : Coord3.Rel R (Proj.sub mA p p') (Proj.sub mA' q q') :=
  Proj.plus_relates h hA hp ⟨hp'.1, h.neg hp'.2.1, hp'.2.2⟩

theorem JacNM.implements (h : RelOps R) (h2 : (2 : L) ≠ 0) {b : L} :
    @ImplementsRel _ _ Jac.opsNM _ (JacNM R (W := sw 0 b)) :=
  have hi := Jac.implementsRel (b := b) h2
  have hr := Jac.relGroup h
  letI := @Jac.opsNM K _ _ _ _ _ _ _ _
  { unique := by
      rintro g a c ⟨g', h1, h2⟩ ⟨g'', h3, h4⟩
      rw [Coord3.Rel.unique h h3 h1] at h4
      exact @ImplementsRel.unique _ _ Jac.ops _ _ hi _ _ _ h2 h4
    zero := ⟨_, hr.zero, @ImplementsRel.zero _ _ Jac.ops _ _ hi⟩
    add := by
      rintro g g' a a' ⟨_, h1, h2⟩ ⟨_, h3, h4⟩
      exact ⟨_, hr.add h1 h3, @ImplementsRel.add _ _ Jac.ops _ _ hi _ _ _ _ h2 h4⟩
    sub := by
      rintro g g' a a' ⟨_, h1, h2⟩ ⟨_, h3, h4⟩
      exact ⟨_, Jac.sub_relates h h1 h3, @ImplementsRel.sub _ _ Jac.ops _ _ hi _ _ _ _ h2 h4⟩
    dbl := by
      rintro g a ⟨_, h1, h2⟩
      exact ⟨_, hr.dbl h1, @ImplementsRel.dbl _ _ Jac.ops _ _ hi _ _ h2⟩ }

theorem ProjNM.implements (h : RelOps R) (h2 : (2 : L) ≠ 0) {mA : K → K} {mA' : L → L} {a b : L}
    (hA : ∀ {x y}, R x y → R (mA x) (mA' y)) (hA' : ∀ x, mA' x = a * x) :
    @ImplementsRel _ _ (Proj.opsNM mA) _ (ProjNM R (W := sw a b)) :=
  have hi := Proj.implementsRel (b := b) hA' h2
  have hr := Proj.relGroup h hA
  letI := Proj.opsNM mA
  { unique := by
      rintro g a c ⟨g', h1, h2⟩ ⟨g'', h3, h4⟩
      rw [Coord3.Rel.unique h h3 h1] at h4
      exact @ImplementsRel.unique _ _ (Proj.ops mA') _ _ hi _ _ _ h2 h4
    zero := ⟨_, hr.zero, @ImplementsRel.zero _ _ (Proj.ops mA') _ _ hi⟩
    add := by
      rintro g g' a a' ⟨_, h1, h2⟩ ⟨_, h3, h4⟩
      exact ⟨_, hr.add h1 h3, @ImplementsRel.add _ _ (Proj.ops mA') _ _ hi _ _ _ _ h2 h4⟩
    sub := by
      rintro g g' a a' ⟨_, h1, h2⟩ ⟨_, h3, h4⟩
      exact ⟨_, Proj.sub_relates h hA h1 h3, @ImplementsRel.sub _ _ (Proj.ops mA') _ _ hi _ _ _ _ h2 h4⟩
    dbl := by
      rintro g a ⟨_, h1, h2⟩
      exact ⟨_, hr.dbl h1, @ImplementsRel.dbl _ _ (Proj.ops mA') _ _ hi _ _ h2⟩ }

theorem JacNM.eq (h : RelOps R) {b : L} {g g' : Coord3 K} {P P' : (sw 0 b).Point} (hg : JacNM R g P)
    (hg' : JacNM R g' P') : Jac.eq g g' = true ↔ P = P' := by
  obtain ⟨_, h1, h2⟩ := hg
  obtain ⟨_, h3, h4⟩ := hg'
  rw [Jac.eq_relates h h1 h3]
  exact Jac.eq_rep h2 h4

theorem JacNM.isZero (h : RelOps R) {b : L} {g : Coord3 K} {P : (sw 0 b).Point} (hg : JacNM R g P) :
    Jac.isZero g = true ↔ P = 0 := by
  obtain ⟨_, h1, h2⟩ := hg
  rw [Jac.isZero_relates h h1]
  exact Jac.isZero_rep h2

theorem ProjNM.eq (h : RelOps R) {a b : L} {g g' : Coord3 K} {P P' : (sw a b).Point} (hg : ProjNM R g P)
    (hg' : ProjNM R g' P') : Proj.eq g g' = true ↔ P = P' := by
  obtain ⟨_, h1, h2⟩ := hg
  obtain ⟨_, h3, h4⟩ := hg'
  rw [Proj.eq_relates h h1 h3]
  exact Proj.eq_rep h2 h4

theorem ProjNM.isZero (h : RelOps R) {a b : L} {g : Coord3 K} {P : (sw a b).Point} (hg : ProjNM R g P) :
    Proj.isZero g = true ↔ P = 0 := by
  obtain ⟨_, h1, h2⟩ := hg
  rw [Proj.isZero_relates h h1]
  exact Proj.isZero_rep h2

theorem JacNM.of_check (h : RelOps R) (h2 : (2 : L) ≠ 0) (h3 : (3 : L) ≠ 0) {b : K} {b' : L} (hb : R b b')
    (hb0 : b' ≠ 0) {g : Coord3 K} {g' : Coord3 L} (hg : Coord3.Rel R g g') (hw : Jac.isWellFormed b g = true) :
    ∃ P : (sw 0 b').Point, JacNM R g P := by
  obtain ⟨P, hP⟩ := (C38_jacobian h2 h3 hb0 g').1 ((Jac.isWellFormed_relates h hb hg).symm.trans hw)
  exact ⟨P, g', hg, hP⟩

theorem ProjNM.of_check (h : RelOps R) (h2 : (2 : L) ≠ 0) {a b : K} {a' b' : L} (ha : R a a') (hb : R b b')
    (hd : 4 * a' ^ 3 + 27 * b' ^ 2 ≠ 0) {g : Coord3 K} {g' : Coord3 L} (hg : Coord3.Rel R g g')
    (hw : Proj.isWellFormed a b g = true) : ∃ P : (sw a' b').Point, ProjNM R g P := by
  obtain ⟨P, hP⟩ := (C38_projective h2 hd g').1 ((Proj.isWellFormed_relates h ha hb hg).symm.trans hw)
  exact ⟨P, g', hg, hP⟩

/-- The conditions of `TwistFrob`. -/
def endoCheck (f : K → K) (a b cx cy : K) : Bool :=
  decide (cx ≠ 0) && (decide (cy * cy = cx * cx * cx) && (decide (cx * cx * f a = a) && decide (cx * cx * cx * f b = b)))

omit [DecidableEq L] [LawfulSquared L] in
theorem endoCheck_sound (h : RelOps R) {σ : L →+* L} {f : K → K} (hf : ∀ {x y}, R x y → R (f x) (σ y)) {a b cx cy : K}
    {a' b' cx' cy' : L} (ha : R a a') (hb : R b b') (hx : R cx cx') (hy : R cy cy')
    (hc : endoCheck f a b cx cy = true) : TwistFrob σ 0 a' b' cx' cy' := by
  simp only [endoCheck, Bool.and_eq_true, decide_eq_true_eq] at hc
  obtain ⟨hcx, hsq, hea, heb⟩ := hc
  exact
    { ne := fun h0 => hcx ((h.eq hx h.zero).2 h0)
      sq := by
        have := (h.eq (h.mul hy hy) (h.mul (h.mul hx hx) hx)).1 hsq
        linear_combination this
      e₂ := by rw [_root_.map_zero, mul_zero]
      e₄ := by
        have := (h.eq (h.mul (h.mul hx hx) (hf ha)) ha).1 hea
        linear_combination this
      e₆ := by
        have := (h.eq (h.mul (h.mul (h.mul hx hx) hx) (hf hb)) hb).1 heb
        linear_combination this }

theorem JacNM.endo (h : RelOps R) (h2 : (2 : L) ≠ 0) {σ : L →+* L} {f : K → K} (hf : ∀ {x y}, R x y → R (f x) (σ y))
    {cx cy : K} {b' cx' cy' : L} (hx : R cx cx') (hy : R cy cy') (ht : TwistFrob σ 0 0 b' cx' cy') {g : Coord3 K}
    {P : (sw 0 b').Point} (hg : JacNM R g P) : JacNM R (Coord3.mulByQ f (cx * ·) (cy * ·) g) (ht.hom h2 P) := by
  obtain ⟨g', h1, h2⟩ := hg
  exact ⟨Coord3.mulByQ σ (cx' * ·) (cy' * ·) g', ⟨h.mul hx (hf h1.1), h.mul hy (hf h1.2.1), hf h1.2.2⟩,
    Jac.mulByQ_rep ht (fun _ => rfl) (fun _ => rfl) (fun _ => rfl) h2⟩

theorem ProjNM.endo (h : RelOps R) (h2 : (2 : L) ≠ 0) {σ : L →+* L} {f : K → K} (hf : ∀ {x y}, R x y → R (f x) (σ y))
    {cx cy : K} {a' b' cx' cy' : L} (hx : R cx cx') (hy : R cy cy') (ht : TwistFrob σ 0 a' b' cx' cy') {g : Coord3 K}
    {P : (sw a' b').Point} (hg : ProjNM R g P) : ProjNM R (Coord3.mulByQ f (cx * ·) (cy * ·) g) (ht.hom h2 P) := by
  obtain ⟨g', h1, h2⟩ := hg
  exact ⟨Coord3.mulByQ σ (cx' * ·) (cy' * ·) g', ⟨h.mul hx (hf h1.1), h.mul hy (hf h1.2.1), hf h1.2.2⟩,
    Proj.mulByQ_rep ht (fun _ => rfl) (fun _ => rfl) (fun _ => rfl) h2⟩

/-- All tests for a group in Jacobian coordinates. -/
def Jac.ordCheck {W : Type} (f : K → K) (b cx cy : K) (bnd : W → Bool) (dec : W → Coord3 K) (ts : List (OrdTest W)) :
    Bool :=
  decide ((1 + 1 : K) ≠ 0 ∧ (1 + 1 + 1 : K) ≠ 0 ∧ b ≠ 0) && (endoCheck f 0 b cx cy &&
    @OrdTest.runAll W _ Jac.opsNM Jac.eq Jac.isZero (Coord3.mulByQ f (cx * ·) (cy * ·))
      (fun w => bnd w && Jac.isWellFormed b (dec w)) dec ts)

theorem Jac.ordCheck_dvd {W : Type} [Finite L] (h : RelOps R) {σ : L →+* L} {f : K → K}
    (hf : ∀ {x y}, R x y → R (f x) (σ y)) {b cx cy : K} {b' cx' cy' : L} (hb : R b b') (hx : R cx cx') (hy : R cy cy')
    {bnd : W → Bool} {dec : W → Coord3 K} (hdec : ∀ w, bnd w = true → ∃ g', Coord3.Rel R (dec w) g')
    (ts : List (OrdTest W)) (hp : ∀ t ∈ ts, t.prime.Prime) (hc : Jac.ordCheck f b cx cy bnd dec ts = true) :
    (ts.map OrdTest.factor).prod ∣ Nat.card (sw 0 b').Point := by
  simp only [Jac.ordCheck, Bool.and_eq_true, decide_eq_true_eq] at hc
  obtain ⟨⟨h2, h3, hb0⟩, he, hr⟩ := hc
  have h2 := h.two_ne h2
  have h3 := h.three_ne h3
  have hb0 : b' ≠ 0 := fun h' => hb0 ((h.eq hb h.zero).2 h')
  have ht := endoCheck_sound h hf h.zero hb hx hy he
  letI := @Jac.opsNM K _ _ _ _ _ _ _ _
  haveI : Finite (sw 0 b').Point := point_finite
  refine OrdTest.runAll_dvd (JacNM.implements (b := b') h h2) (JacNM.eq h) (JacNM.isZero h) (ht.hom h2)
    (JacNM.endo h h2 hf hx hy ht) (fun w hw => ?_) ts hp hr
  simp only [Bool.and_eq_true] at hw
  obtain ⟨g', hg⟩ := hdec w hw.1
  exact JacNM.of_check h h2 h3 hb hb0 hg hw.2

/-- All tests for a group in projective coordinates. -/
def Proj.ordCheck {W : Type} (f mA : K → K) (a b cx cy : K) (bnd : W → Bool) (dec : W → Coord3 K)
    (ts : List (OrdTest W)) : Bool :=
  decide ((1 + 1 : K) ≠ 0 ∧ discK a b ≠ 0) && (endoCheck f a b cx cy &&
    @OrdTest.runAll W _ (Proj.opsNM mA) Proj.eq Proj.isZero (Coord3.mulByQ f (cx * ·) (cy * ·))
      (fun w => bnd w && Proj.isWellFormed a b (dec w)) dec ts)

theorem Proj.ordCheck_dvd {W : Type} [Finite L] (h : RelOps R) {σ : L →+* L} {f : K → K}
    (hf : ∀ {x y}, R x y → R (f x) (σ y)) {mA : K → K} {mA' : L → L} {a b cx cy : K} {a' b' cx' cy' : L}
    (hA : ∀ {x y}, R x y → R (mA x) (mA' y)) (hA' : ∀ x, mA' x = a' * x) (ha : R a a') (hb : R b b') (hx : R cx cx')
    (hy : R cy cy') {bnd : W → Bool} {dec : W → Coord3 K} (hdec : ∀ w, bnd w = true → ∃ g', Coord3.Rel R (dec w) g')
    (ts : List (OrdTest W)) (hp : ∀ t ∈ ts, t.prime.Prime) (hc : Proj.ordCheck f mA a b cx cy bnd dec ts = true) :
    (ts.map OrdTest.factor).prod ∣ Nat.card (sw a' b').Point := by
  simp only [Proj.ordCheck, Bool.and_eq_true, decide_eq_true_eq] at hc
  obtain ⟨⟨h2, hd⟩, he, hr⟩ := hc
  have h2 := h.two_ne h2
  have hd := discK_ne h ha hb hd
  have ht := endoCheck_sound h hf ha hb hx hy he
  letI := Proj.opsNM mA
  haveI : Finite (sw a' b').Point := point_finite
  refine OrdTest.runAll_dvd (ProjNM.implements (b := b') h h2 hA hA') (ProjNM.eq h) (ProjNM.isZero h) (ht.hom h2)
    (ProjNM.endo h h2 hf hx hy ht) (fun w hw => ?_) ts hp hr
  simp only [Bool.and_eq_true] at hw
  obtain ⟨g', hg⟩ := hdec w hw.1
  exact ProjNM.of_check h h2 ha hb hd hg hw.2

end reps

section count
variable {F : Type*} [Field F] [Finite F] [DecidableEq F] {a b : F}

omit [DecidableEq F] in
theorem card_ne_zero : Nat.card (sw a b).Point ≠ 0 := by
  haveI : Finite (sw a b).Point := point_finite
  exact Nat.card_pos.ne'

theorem mul_dvd_card {h r : Nat} (hc : Nat.gcd h r = 1) (hh : h ∣ Nat.card (sw a b).Point) {P : (sw a b).Point}
    (hP : addOrderOf P = r) : h * r ∣ Nat.card (sw a b).Point :=
  Nat.Coprime.mul_dvd_of_dvd_of_dvd hc hh (hP ▸ addOrderOf_dvd_natCard P)

/-- The number of points, when twice the tested divisor exceeds the trivial upper bound. -/
theorem card_of_le {h r M : Nat} (hM : Nat.card F = M) (hc : Nat.gcd h r = 1) (hh : h ∣ Nat.card (sw a b).Point)
    {P : (sw a b).Point} (hP : addOrderOf P = r) (hb : 2 * M + 1 < 2 * (h * r)) : Nat.card (sw a b).Point = h * r :=
  eq_of_dvd_of_le (mul_dvd_card hc hh hP) card_ne_zero (hM ▸ point_card_le) hb

/-- The number of points, when the cubic has no root. -/
theorem card_of_odd {h r M : Nat} (hM : Nat.card F = M) (hc : Nat.gcd h r = 1) (hh : h ∣ Nat.card (sw a b).Point)
    {P : (sw a b).Point} (hP : addOrderOf P = r) (h2 : (2 : F) ≠ 0) (hr : ∀ x, x ^ 3 + 0 * x ^ 2 + a * x + b ≠ 0)
    (hb : 2 * M + 1 < 3 * (h * r)) : Nat.card (sw a b).Point = h * r :=
  eq_of_dvd_of_odd (mul_dvd_card hc hh hP) (point_card_odd h2 hr) (hM ▸ point_card_le) hb

end count
end Libff
