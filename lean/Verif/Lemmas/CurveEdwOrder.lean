import Verif.Lemmas.CurveNM

/-!
# Points of the Edwards curve: order by computation

The formulas are correct whenever the result has no zero coordinate and `Y + Z ≠ 0`; no assumption on the
subgroup is needed.  So a scalar multiplication all of whose intermediate results pass this test computes
the multiple of the point.
-/
namespace Libff
open WeierstrassCurve Affine

section
variable {L : Type*} [Field L] [DecidableEq L] {a d : L}

theorem edwPt_sum_local (h2 : (2 : L) ≠ 0) (hc : a - d ≠ 0) {x₁ y₁ x₂ y₂ : L} {P Q : (edwW a d).Point}
    (hP : EdwPt x₁ y₁ P) (hQ : EdwPt x₂ y₂ Q) (hs : x₁ * y₂ + y₁ * x₂ ≠ 0) (hm : y₁ * y₂ - a * x₁ * x₂ ≠ 0)
    (he : 1 + d * x₁ * x₂ * y₁ * y₂ ≠ 0) (he' : 1 - d * x₁ * x₂ * y₁ * y₂ ≠ 0)
    (hn : 1 - d * x₁ * x₂ * y₁ * y₂ + (y₁ * y₂ - a * x₁ * x₂) ≠ 0) :
    P + Q ≠ 0 ∧ EdwPt ((x₁ * y₂ + y₁ * x₂) / (1 + d * x₁ * x₂ * y₁ * y₂))
        ((y₁ * y₂ - a * x₁ * x₂) / (1 - d * x₁ * x₂ * y₁ * y₂)) (P + Q) := by
  rcases edwPt_add h2 hc hP hQ with ⟨-, hx, hy⟩ | ⟨u, v, h, hh, hA1, hA2⟩
  · exfalso; apply hs; rw [hx, hy]; ring
  have hu2 : u + (a - d) ≠ 0 := by
    intro h0
    have h1 : (u - (a - d)) * (1 - d * x₁ * x₂ * y₁ * y₂) = 0 := by
      linear_combination hA1 + (y₁ * y₂ - a * x₁ * x₂) * h0
    have h3 := (mul_eq_zero.1 h1).resolve_right he'
    have : 2 * (a - d) = 0 := by linear_combination h0 - h3
    exact mul_ne_zero h2 hc this
  have hu : u ≠ 0 := by
    intro h0
    rw [h0, zero_mul] at hA1
    exact mul_ne_zero hc hn hA1.symm
  have hv : v ≠ 0 := by
    intro h0
    rw [h0, zero_mul] at hA2
    exact mul_ne_zero (mul_ne_zero h2 hu) he hA2.symm
  have hu1 : u - (a - d) ≠ 0 := by
    intro h0
    have h1 : (u + (a - d)) * (y₁ * y₂ - a * x₁ * x₂) = 0 := by
      linear_combination (1 - d * x₁ * x₂ * y₁ * y₂) * h0 - hA1
    exact mul_ne_zero hu2 hm h1
  have e1 : (x₁ * y₂ + y₁ * x₂) / (1 + d * x₁ * x₂ * y₁ * y₂) = 2 * u / v := by
    rw [div_eq_div_iff he hv]
    linear_combination hA2
  have e2 : (y₁ * y₂ - a * x₁ * x₂) / (1 - d * x₁ * x₂ * y₁ * y₂) = (u - (a - d)) / (u + (a - d)) := by
    rw [div_eq_div_iff he' hu2]
    linear_combination -hA1
  rw [e1, e2, hh]
  exact ⟨Point.some_ne_zero _, edwPt_of_coords h2 hc hv hu hu1 hu2⟩

namespace Edw
variable [Squared L] [LawfulSquared L] {mulA mulD : L → L}

theorem plus_local (hA : ∀ x, mulA x = a * x) (hD : ∀ x, mulD x = d * x) (h2 : (2 : L) ≠ 0) (hc : a - d ≠ 0)
    {p q : Coord3 L} {P Q : (edwW a d).Point} (hp : EdwRep p P) (hq : EdwRep q Q)
    (hX3 : (plus mulA mulD p q).X ≠ 0) (hY3 : (plus mulA mulD p q).Y ≠ 0) (hZ3 : (plus mulA mulD p q).Z ≠ 0)
    (hn : (plus mulA mulD p q).Y + (plus mulA mulD p q).Z ≠ 0) : EdwRep (plus mulA mulD p q) (P + Q) := by
  have hp' := hp
  have hq' := hq
  rw [edwRep_iff] at hp' hq'
  rcases hp' with ⟨rfl, h, h'⟩ | ⟨h0, hX, hY, hZ, hpt⟩
  · rwa [plus, if_pos ((isZero_rep hp).2 rfl), zero_add]
  rcases hq' with ⟨rfl, h, h'⟩ | ⟨h0', hX', hY', hZ', hpt'⟩
  · rwa [plus, isZero_false hZ, if_neg Bool.false_ne_true, if_pos ((isZero_rep hq).2 rfl), add_zero]
  rw [plus, isZero_false hZ, if_neg Bool.false_ne_true, isZero_false hZ', if_neg Bool.false_ne_true] at hX3 hY3 hZ3 hn ⊢
  obtain ⟨E, A, hE, hA0, e1, e2, e3⟩ := add_affine hA hD hX hY hZ hX' hY' hZ' _ _ _ _ rfl rfl rfl rfl
  have hk : E * E / A ≠ 0 := div_ne_zero (mul_ne_zero hE hE) hA0
  rw [e1] at hX3
  rw [e2] at hY3
  rw [e3] at hZ3
  have hs := right_ne_zero_of_mul (right_ne_zero_of_mul hZ3)
  have hm := left_ne_zero_of_mul (right_ne_zero_of_mul hZ3)
  have he := left_ne_zero_of_mul (right_ne_zero_of_mul hX3)
  have he' := left_ne_zero_of_mul (right_ne_zero_of_mul hY3)
  rw [e2, e3, ← mul_add, ← add_mul] at hn
  have hn := left_ne_zero_of_mul (right_ne_zero_of_mul hn)
  obtain ⟨hS, hR⟩ := edwPt_sum_local h2 hc hpt hpt' hs hm he he' hn
  rw [edwRep_iff]
  refine Or.inr ⟨hS, by rwa [e1], by rwa [e2], by rwa [e3], ?_⟩
  rw [e1, e2, e3, mul_div_mul_left _ _ hk, mul_div_mul_left _ _ hk, mul_comm (1 + _) (_ - _),
    mul_div_mul_left _ _ hm, mul_div_mul_right _ _ hs]
  exact hR

theorem dbl_local (hA : ∀ x, mulA x = a * x) (hD : ∀ x, mulD x = d * x) (h2 : (2 : L) ≠ 0) (hc : a - d ≠ 0)
    {p : Coord3 L} {P : (edwW a d).Point} (hp : EdwRep p P)
    (hX3 : (dbl mulA mulD p).X ≠ 0) (hY3 : (dbl mulA mulD p).Y ≠ 0) (hZ3 : (dbl mulA mulD p).Z ≠ 0)
    (hn : (dbl mulA mulD p).Y + (dbl mulA mulD p).Z ≠ 0) : EdwRep (dbl mulA mulD p) (P + P) := by
  have hp' := hp
  rw [edwRep_iff] at hp'
  rcases hp' with ⟨rfl, h, h'⟩ | ⟨h0, hX, hY, hZ, hpt⟩
  · rw [dbl, if_pos ((isZero_rep hp).2 rfl), zero_add]
    exact hp
  have hon := hpt.2.2.1
  unfold EdwOn at hon
  rw [dbl, isZero_false hZ, if_neg Bool.false_ne_true] at hX3 hY3 hZ3 hn ⊢
  obtain ⟨X, Y, Z⟩ := p
  simp only [LawfulSquared.squared_eq, hA, hD] at hX3 hY3 hZ3 hn hX hY hZ hon hpt ⊢
  have hon' : Z ^ 2 * (X ^ 2 + a * Y ^ 2) = X ^ 2 * Y ^ 2 + d * Z ^ 4 := by
    field_simp at hon
    linear_combination hon
  have e1 : 1 + d * (Z / X) * (Z / X) * (Z / Y) * (Z / Y) = Z ^ 2 / (X ^ 2 * Y ^ 2) * (X * X + a * (Y * Y)) := by
    field_simp
    linear_combination -hon'
  have e2 : 1 - d * (Z / X) * (Z / X) * (Z / Y) * (Z / Y) =
      Z ^ 2 / (X ^ 2 * Y ^ 2) * (X * X + a * (Y * Y) - d * (Z * Z) - d * (Z * Z)) := by
    field_simp
    linear_combination -hon'
  have e3 : Z / X * (Z / Y) + Z / Y * (Z / X) = Z ^ 2 / (X ^ 2 * Y ^ 2) * ((X + Y) * (X + Y) - X * X - Y * Y) := by
    field_simp
    ring
  have e4 : Z / Y * (Z / Y) - a * (Z / X) * (Z / X) = Z ^ 2 / (X ^ 2 * Y ^ 2) * (X * X - a * (Y * Y)) := by
    field_simp
  have hk : Z ^ 2 / (X ^ 2 * Y ^ 2) ≠ 0 :=
    div_ne_zero (pow_ne_zero 2 hZ) (mul_ne_zero (pow_ne_zero 2 hX) (pow_ne_zero 2 hY))
  have hs := right_ne_zero_of_mul hZ3
  have hm := left_ne_zero_of_mul hZ3
  have he := left_ne_zero_of_mul hX3
  have he' := right_ne_zero_of_mul hY3
  rw [mul_comm (X * X - _) _, ← mul_add] at hn
  have hn := right_ne_zero_of_mul hn
  obtain ⟨hS, hR⟩ := edwPt_sum_local h2 hc hpt hpt (by rw [e3]; exact mul_ne_zero hk hs)
    (by rw [e4]; exact mul_ne_zero hk hm) (by rw [e1]; exact mul_ne_zero hk he)
    (by rw [e2]; exact mul_ne_zero hk he') (by rw [e2, e4, ← mul_add]; exact mul_ne_zero hk hn)
  rw [e1, e2, e3, e4, mul_div_mul_left _ _ hk, mul_div_mul_left _ _ hk] at hR
  rw [edwRep_iff]
  refine Or.inr ⟨hS, hX3, hY3, hZ3, ?_⟩
  simp only
  rw [mul_comm (X * X + _) (X * X - _), mul_div_mul_left _ _ hm, mul_comm (X * X - _) (_ - Y * Y),
    mul_div_mul_left _ _ hs]
  exact hR

end Edw
end

namespace Edw
section
variable {K : Type} [Zero K] [Add K] [DecidableEq K]

/-- The test on a result. -/
def good (p : Coord3 K) : Bool := p.X ≠ 0 ∧ p.Y ≠ 0 ∧ p.Z ≠ 0 ∧ p.Y + p.Z ≠ 0

/-- Every intermediate result of `scalarMulLoop` passes the test. -/
def goodLoop (g : GroupOps (Coord3 K)) (base : Coord3 K) (e : List Limb) : Nat → Bool × Coord3 K → Bool
  | 0, _ => true
  | i + 1, (found, result) =>
    let r := if found then g.dbl result else result
    if found && !good r then false
    else if testBit e i then
      let s := g.add r base
      if good s then goodLoop g base e i (true, s) else false
    else goodLoop g base e i (found, r)

variable {L : Type} [Zero L] [Add L] [DecidableEq L]

theorem goodLoop_sound {g : GroupOps (Coord3 L)} {A : Type*} [AddCommGroup A] {Rep : Coord3 L → A → Prop}
    (hdbl : ∀ {p P}, Rep p P → good (g.dbl p) = true → Rep (g.dbl p) (P + P))
    (hadd : ∀ {p P q Q}, Rep p P → Rep q Q → good (g.add p q) = true → Rep (g.add p q) (P + Q))
    {base : Coord3 L} {P : A} (hb : Rep base P) (e : List Limb) (n : Nat) (f : Bool) {r : Coord3 L} {Q : A}
    (hr : Rep r Q) (hg : goodLoop g base e n (f, r) = true) :
    Rep (@scalarMulLoop _ g base e n (f, r))
      (@scalarMulLoop _ ⟨0, (· + ·), (· - ·), fun x => x + x⟩ P e n (f, Q)) := by
  induction n generalizing f r Q with
  | zero => exact hr
  | succ n ih =>
    unfold goodLoop at hg
    unfold scalarMulLoop
    dsimp only at hg ⊢
    have h1 : (f && !good (if f = true then g.dbl r else r)) ≠ true := by
      intro h; rw [if_pos h] at hg; cases hg
    rw [if_neg h1] at hg
    have h2 : Rep (if f = true then g.dbl r else r) (if f = true then Q + Q else Q) := by
      cases f
      · exact hr
      · rw [if_pos rfl] at h1 ⊢
        rw [if_pos rfl]
        exact hdbl hr (by simpa using h1)
    by_cases ht : testBit e n = true
    · rw [if_pos ht] at hg ⊢
      rw [if_pos ht]
      have h3 : good (g.add (if f = true then g.dbl r else r) base) = true := by
        by_contra h; rw [if_neg h] at hg; cases hg
      rw [if_pos h3] at hg
      exact ih true (hadd h2 hb h3) hg
    · rw [if_neg ht] at hg ⊢
      rw [if_neg ht]
      exact ih f h2 hg

theorem good_relates [One K] [Sub K] [Neg K] [Mul K] [Squared K] [One L] [Sub L] [Neg L] [Mul L] [Squared L]
    {R : K → L → Prop} (h : RelOps R) {p : Coord3 K} {q : Coord3 L} (hp : Coord3.Rel R p q) :
    good p = good q := by
  unfold good
  exact decide_eq_decide.2 (and_congr (not_congr (h.eq hp.1 h.zero)) (and_congr (not_congr (h.eq hp.2.1 h.zero))
    (and_congr (not_congr (h.eq hp.2.2 h.zero)) (not_congr (h.eq (h.add hp.2.1 hp.2.2) h.zero)))))

theorem goodLoop_relates [One K] [Sub K] [Neg K] [Mul K] [Squared K] [One L] [Sub L] [Neg L] [Mul L] [Squared L]
    {R : K → L → Prop} (h : RelOps R) {g : GroupOps (Coord3 K)} {g' : GroupOps (Coord3 L)}
    (o : RelGroup g g' (Coord3.Rel R)) {base : Coord3 K} {base' : Coord3 L} (hb : Coord3.Rel R base base')
    (e : List Limb) (n : Nat) (f : Bool) {r : Coord3 K} {r' : Coord3 L} (hr : Coord3.Rel R r r') :
    goodLoop g base e n (f, r) = goodLoop g' base' e n (f, r') := by
  induction n generalizing f r r' with
  | zero => rfl
  | succ n ih =>
    have h1 : Coord3.Rel R (if f = true then g.dbl r else r) (if f = true then g'.dbl r' else r') := by
      split
      · exact o.dbl hr
      · exact hr
    have h2 := o.add h1 hb
    unfold goodLoop
    dsimp only
    rw [good_relates h h1, good_relates h h2, ih true h2, ih f h1]

end

section
variable {K L : Type} [Zero K] [One K] [Add K] [Sub K] [Neg K] [Mul K] [Squared K] [DecidableEq K]
  [Field L] [Squared L] [LawfulSquared L] [DecidableEq L] {R : K → L → Prop}

/-- The operations over any type with the field operations. -/
@[reducible] def opsNM (mA mD : K → K) : GroupOps (Coord3 K) :=
  ⟨Edw.zero, Edw.plus mA mD, Edw.sub mA mD, Edw.dbl mA mD⟩

theorem relGroup {mA mD : K → K} {mA' mD' : L → L} (h : RelOps R) (hA : ∀ {x y}, R x y → R (mA x) (mA' y))
    (hD : ∀ {x y}, R x y → R (mD x) (mD' y)) : RelGroup (opsNM mA mD) (Edw.ops mA' mD') (Coord3.Rel R) where
  zero := ⟨h.one, h.zero, h.mul h.zero h.one⟩
  add := Edw.plus_relates h hA hD
  dbl := Edw.dbl_relates h hA hD

theorem neg_relates (h : RelOps R) {p : Coord3 K} {q : Coord3 L} (hp : Coord3.Rel R p q) :
    Coord3.Rel R (neg p) (neg q) := ⟨h.neg hp.1, hp.2.1, hp.2.2⟩

theorem eq_relates (h : RelOps R) {p p' : Coord3 K} {q q' : Coord3 L} (hp : Coord3.Rel R p q)
    (hp' : Coord3.Rel R p' q') : Edw.eq p p' = Edw.eq q q' := by
  unfold Edw.eq
  refine rel_ite (S := Eq) (isZero_relates h hp) (fun _ _ => ?_) (fun _ _ => ?_)
  · exact Bool.eq_iff_iff.2 (isZero_relates h hp')
  refine rel_ite (S := Eq) (isZero_relates h hp') (fun _ _ => rfl) (fun _ _ => ?_)
  refine rel_ite (S := Eq) (not_congr (h.eq (h.mul hp.1 hp'.2.2) (h.mul hp'.1 hp.2.2))) (fun _ _ => rfl) (fun _ _ => ?_)
  exact rel_ite (S := Eq) (not_congr (h.eq (h.mul hp.2.1 hp'.2.2) (h.mul hp'.2.1 hp.2.2))) (fun _ _ => rfl) (fun _ _ => rfl)

/-- If the computation of `(r - 1) g` passes the tests and ends in `-g`, then `g` has order `r`. -/
theorem order_of_check (h : RelOps R) (h2 : (2 : L) ≠ 0) {mA mD : K → K} {mA' mD' : L → L} {a d : L}
    (hc : a - d ≠ 0) (hA : ∀ {x y}, R x y → R (mA x) (mA' y)) (hA' : ∀ x, mA' x = a * x)
    (hD : ∀ {x y}, R x y → R (mD x) (mD' y)) (hD' : ∀ x, mD' x = d * x) {g : Coord3 K} {g' : Coord3 L}
    (hg : Coord3.Rel R g g') {P : (edwW a d).Point} (hP : EdwRep g' P) {e : List Limb} (he : (val e + 1).Prime)
    (h0 : Edw.isZero g = false)
    (h1 : goodLoop (opsNM mA mD) g e (bigintMaxBits e) (false, Edw.zero) = true)
    (h3 : Edw.eq (@scalarMul _ (opsNM mA mD) g e) (neg g) = true) : addOrderOf P = val e + 1 := by
  have o := relGroup (mA := mA) (mD := mD) h hA hD
  apply addOrderOf_of_prime he
  · intro hz
    have := (Edw.isZero_relates h hg).2 ((Edw.isZero_rep hP).2 hz)
    rw [h0] at this; cases this
  · have hgood : ∀ {p : Coord3 L}, good p = true ↔ p.X ≠ 0 ∧ p.Y ≠ 0 ∧ p.Z ≠ 0 ∧ p.Y + p.Z ≠ 0 := by
      intro p; simp only [good, decide_eq_true_eq]
    have hs := goodLoop_sound (g := Edw.ops mA' mD') (Rep := EdwRep (a := a) (d := d))
      (fun {p P} hp hg => dbl_local hA' hD' h2 hc hp (hgood.1 hg).1 (hgood.1 hg).2.1 (hgood.1 hg).2.2.1
        (hgood.1 hg).2.2.2)
      (fun {p P q Q} hp hq hg => plus_local hA' hD' h2 hc hp hq (hgood.1 hg).1 (hgood.1 hg).2.1
        (hgood.1 hg).2.2.1 (hgood.1 hg).2.2.2) hP e (bigintMaxBits e) false zero_rep
      ((goodLoop_relates h o hg e _ false o.zero).symm.trans h1)
    have hm := @scalarMul_spec _ _ ⟨0, (· + ·), (· - ·), fun x => x + x⟩ _ (id : (edwW a d).Point → _)
      (@ImplementsGroup.mk _ _ ⟨0, (· + ·), (· - ·), fun x => x + x⟩ _ _ rfl (fun _ _ => rfl) (fun _ _ => rfl)
        (fun _ => rfl)) P e
    have heq := (eq_rep h2 hc hs (neg_rep hP)).1
      ((eq_relates h (o.scalarMul hg e) (neg_relates h hg)).symm.trans h3)
    have : val e • P = -P := hm.symm.trans heq
    rw [add_nsmul, this, one_nsmul, neg_add_cancel]

end
end Edw

end Libff
