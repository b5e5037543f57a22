import Verif.Spec.Ext
import Mathlib.Tactic.Ring
import Mathlib.Tactic.LinearCombination
import Mathlib.RingTheory.AdjoinRoot
import Mathlib.Algebra.CharP.Algebra
import Mathlib.Algebra.Field.Basic

namespace Libff

/-- The function `nr` is multiplication by `β`. -/
class MulBy {K : Type*} [Mul K] (nr : K → K) (β : outParam K) : Prop where
  mulBy : ∀ x, nr x = β * x

/-- `squared()` agrees with multiplication. -/
class LawfulSquared (K : Type*) [Mul K] [Squared K] : Prop where
  squared_eq : ∀ x : K, squared x = x * x

/-- `inverse()` aborts on zero and otherwise returns the inverse. -/
class LawfulInverse (K : Type*) [Field K] [InverseO K] : Prop where
  inverseO_zero : inverseO (0 : K) = .abort
  inverseO_ne : ∀ x : K, x ≠ 0 → inverseO x = .ok x⁻¹

instance {K : Type*} [Mul K] (β : K) : MulBy (mulConst β) β := ⟨fun _ => rfl⟩

namespace Quad
variable {K : Type*} {nr : K → K}

section
variable [CommRing K] {β : K} [hβ : MulBy nr β]

@[simp] theorem zero_c0 : (0 : Quad K nr).c0 = 0 := rfl
@[simp] theorem zero_c1 : (0 : Quad K nr).c1 = 0 := rfl
@[simp] theorem one_c0 : (1 : Quad K nr).c0 = 1 := rfl
@[simp] theorem one_c1 : (1 : Quad K nr).c1 = 0 := rfl
@[simp] theorem add_c0 (x y : Quad K nr) : (x + y).c0 = x.c0 + y.c0 := rfl
@[simp] theorem add_c1 (x y : Quad K nr) : (x + y).c1 = x.c1 + y.c1 := rfl
@[simp] theorem sub_c0 (x y : Quad K nr) : (x - y).c0 = x.c0 - y.c0 := rfl
@[simp] theorem sub_c1 (x y : Quad K nr) : (x - y).c1 = x.c1 - y.c1 := rfl
@[simp] theorem neg_c0 (x : Quad K nr) : (-x).c0 = -x.c0 := rfl
@[simp] theorem neg_c1 (x : Quad K nr) : (-x).c1 = -x.c1 := rfl

omit hβ in
theorem mul_def (x y : Quad K nr) : x * y =
    ⟨x.c0 * y.c0 + nr (x.c1 * y.c1), (x.c0 + x.c1) * (y.c0 + y.c1) - x.c0 * y.c0 - x.c1 * y.c1⟩ := rfl

include hβ in
@[simp] theorem mul_c0 (x y : Quad K nr) : (x * y).c0 = x.c0 * y.c0 + β * (x.c1 * y.c1) := by
  rw [mul_def]; simp only [hβ.mulBy]
omit hβ in
@[simp] theorem mul_c1 (x y : Quad K nr) : (x * y).c1 = x.c0 * y.c1 + x.c1 * y.c0 := by
  rw [mul_def]; ring

instance : NatCast (Quad K nr) := ⟨fun n => ⟨n, 0⟩⟩
instance : IntCast (Quad K nr) := ⟨fun n => ⟨n, 0⟩⟩
@[simp] theorem natCast_c0 (n : ℕ) : (n : Quad K nr).c0 = n := rfl
@[simp] theorem natCast_c1 (n : ℕ) : (n : Quad K nr).c1 = 0 := rfl
@[simp] theorem intCast_c0 (n : ℤ) : (n : Quad K nr).c0 = n := rfl
@[simp] theorem intCast_c1 (n : ℤ) : (n : Quad K nr).c1 = 0 := rfl

instance : SMul ℕ (Quad K nr) := ⟨fun n x => ⟨n • x.c0, n • x.c1⟩⟩
instance : SMul ℤ (Quad K nr) := ⟨fun n x => ⟨n • x.c0, n • x.c1⟩⟩
@[simp] theorem nsmul_c0 (n : ℕ) (x : Quad K nr) : (n • x).c0 = n • x.c0 := rfl
@[simp] theorem nsmul_c1 (n : ℕ) (x : Quad K nr) : (n • x).c1 = n • x.c1 := rfl
@[simp] theorem zsmul_c0 (n : ℤ) (x : Quad K nr) : (n • x).c0 = n • x.c0 := rfl
@[simp] theorem zsmul_c1 (n : ℤ) (x : Quad K nr) : (n • x).c1 = n • x.c1 := rfl

instance commRing : CommRing (Quad K nr) where
  add := (· + ·)
  add_assoc x y z := by ext <;> simp [add_assoc]
  zero := 0
  zero_add x := by ext <;> simp
  add_zero x := by ext <;> simp
  nsmul := (· • ·)
  nsmul_zero x := by ext <;> simp
  nsmul_succ n x := by ext <;> simp [add_mul]
  add_comm x y := by ext <;> simp [add_comm]
  mul := (· * ·)
  left_distrib x y z := by ext <;> simp <;> ring
  right_distrib x y z := by ext <;> simp <;> ring
  zero_mul x := by ext <;> simp
  mul_zero x := by ext <;> simp
  mul_assoc x y z := by ext <;> simp <;> ring
  one := 1
  one_mul x := by ext <;> simp
  mul_one x := by ext <;> simp
  natCast n := n
  natCast_zero := by ext <;> simp
  natCast_succ n := by ext <;> simp
  neg := Neg.neg
  sub := Sub.sub
  sub_eq_add_neg x y := by ext <;> simp [sub_eq_add_neg]
  zsmul := (· • ·)
  zsmul_zero' x := by ext <;> simp
  zsmul_succ' n x := by ext <;> simp [add_mul]
  zsmul_neg' n x := by ext <;> simp [add_mul, Int.negSucc_eq]
  neg_add_cancel x := by ext <;> simp
  intCast n := n
  intCast_ofNat n := by ext <;> simp
  intCast_negSucc n := by ext <;> simp [Int.negSucc_eq]
  mul_comm x y := by ext <;> simp <;> ring

instance : LawfulSquared (Quad K nr) where
  squared_eq x := by
    have h : squared x = (⟨(x.c0 + x.c1) * (x.c0 + nr x.c1) - x.c0 * x.c1 - nr (x.c0 * x.c1),
      x.c0 * x.c1 + x.c0 * x.c1⟩ : Quad K nr) := rfl
    rw [h]
    ext <;> simp [hβ.mulBy] <;> ring

include hβ in
theorem squaredKaratsuba_eq [Squared K] [LawfulSquared K] (x : Quad K nr) :
    squaredKaratsuba x = x * x := by
  unfold squaredKaratsuba
  simp only [LawfulSquared.squared_eq, hβ.mulBy]
  ext <;> simp <;> ring

/-- The embedding of the coefficient field. -/
def ofBase : K →+* Quad K nr where
  toFun a := ⟨a, 0⟩
  map_one' := rfl
  map_mul' x y := by ext <;> simp
  map_zero' := rfl
  map_add' x y := by ext <;> simp

@[simp] theorem ofBase_c0 (a : K) : (ofBase a : Quad K nr).c0 = a := rfl
@[simp] theorem ofBase_c1 (a : K) : (ofBase a : Quad K nr).c1 = 0 := rfl

theorem ofBase_injective : Function.Injective (ofBase : K →+* Quad K nr) := fun _ _ h =>
  congrArg Quad.c0 h

omit hβ in
@[simp] theorem gen_c0 : (gen : Quad K nr).c0 = 0 := rfl
omit hβ in
@[simp] theorem gen_c1 : (gen : Quad K nr).c1 = 1 := rfl

theorem gen_sq : (gen : Quad K nr) * gen = ofBase β := by ext <;> simp

theorem eq_ofBase_add (x : Quad K nr) : x = ofBase x.c0 + ofBase x.c1 * gen := by ext <;> simp

theorem unitaryInverse_mul (x : Quad K nr) :
    x * unitaryInverse x = ofBase (x.c0 * x.c0 - β * (x.c1 * x.c1)) := by
  unfold unitaryInverse; ext <;> simp <;> ring

instance instCharP (p : ℕ) [CharP K p] : CharP (Quad K nr) p := charP_of_injective_ringHom ofBase_injective p

open Polynomial in
/-- Identification with the quotient ring `K[X] / (X^2 - β)`. -/
noncomputable def ofAdjoinRoot : AdjoinRoot (Quad.poly β) →+* Quad K nr :=
  AdjoinRoot.lift ofBase gen (by simp [poly, eval₂_sub, pow_two, gen_sq])

open Polynomial in
theorem ofAdjoinRoot_bijective [Nontrivial K] :
    Function.Bijective (ofAdjoinRoot : AdjoinRoot (Quad.poly β) →+* Quad K nr) := by
  constructor
  · rw [injective_iff_map_eq_zero]
    intro z hz
    have hmon : (poly β).Monic := by unfold poly; exact monic_X_pow_sub_C β (by norm_num)
    obtain ⟨f, rfl⟩ := AdjoinRoot.mk_surjective z
    have hmk : AdjoinRoot.mk (poly β) f = AdjoinRoot.mk (poly β) (f %ₘ poly β) := by
      conv_lhs => rw [← modByMonic_add_div f (poly β)]
      simp
    rw [hmk] at hz ⊢
    have hd : (f %ₘ poly β).natDegree < 2 := by
      have := natDegree_modByMonic_lt f hmon (by
        intro h
        have := congrArg natDegree h
        unfold poly at this
        rw [natDegree_X_pow_sub_C] at this
        simp at this)
      unfold poly at this ⊢
      rwa [natDegree_X_pow_sub_C] at this
    generalize f %ₘ poly β = g at hz hd ⊢
    have hg : g = C (g.coeff 0) + C (g.coeff 1) * X := by
      ext i
      match i with
      | 0 => simp
      | 1 => simp
      | i + 2 =>
        rw [coeff_eq_zero_of_natDegree_lt (by omega)]
        simp
    rw [hg] at hz
    simp only [ofAdjoinRoot, AdjoinRoot.lift_mk, eval₂_add, eval₂_mul, eval₂_C, eval₂_X] at hz
    have h0 := congrArg Quad.c0 hz
    have h1 := congrArg Quad.c1 hz
    simp at h0 h1
    rw [hg, h0, h1]; simp
  · intro x
    refine ⟨AdjoinRoot.of _ x.c0 + AdjoinRoot.of _ x.c1 * AdjoinRoot.root _, ?_⟩
    simp only [ofAdjoinRoot, map_add, map_mul, AdjoinRoot.lift_of, AdjoinRoot.lift_root]
    exact (eq_ofBase_add x).symm

/-- `Quad K nr` is `K[X] / (X^2 - β)`. -/
noncomputable def equivAdjoinRoot [Nontrivial K] : AdjoinRoot (Quad.poly β) ≃+* Quad K nr :=
  RingEquiv.ofBijective ofAdjoinRoot ofAdjoinRoot_bijective

theorem equivAdjoinRoot_of [Nontrivial K] (a : K) :
    (equivAdjoinRoot : AdjoinRoot (Quad.poly β) ≃+* Quad K nr) (AdjoinRoot.of _ a) = ofBase a := by
  unfold equivAdjoinRoot; rw [RingEquiv.ofBijective_apply]
  unfold ofAdjoinRoot; rw [AdjoinRoot.lift_of]

theorem equivAdjoinRoot_root [Nontrivial K] :
    (equivAdjoinRoot : AdjoinRoot (Quad.poly β) ≃+* Quad K nr) (AdjoinRoot.root _) = gen := by
  unfold equivAdjoinRoot; rw [RingEquiv.ofBijective_apply]
  unfold ofAdjoinRoot; rw [AdjoinRoot.lift_root]

end

/-- Pairs. -/
def equivProd : Quad K nr ≃ K × K where
  toFun x := (x.c0, x.c1)
  invFun x := ⟨x.1, x.2⟩
  left_inv _ := rfl
  right_inv _ := rfl

instance [Fintype K] : Fintype (Quad K nr) := Fintype.ofEquiv _ equivProd.symm

theorem card [Fintype K] : Fintype.card (Quad K nr) = Fintype.card K ^ 2 := by
  rw [Fintype.card_congr equivProd, Fintype.card_prod, pow_two]

section Field
variable [Field K] {β : K} [hβ : MulBy nr β] [hns : Fact (¬ IsSquare β)]

omit hβ hns in
theorem norm_ne_zero (hns : ¬ IsSquare β) (a b : K) (h : a ≠ 0 ∨ b ≠ 0) : a * a - β * (b * b) ≠ 0 := by
  intro h0
  by_cases hb : b = 0
  · subst hb
    rcases h with h | h
    · apply h; simpa using h0
    · exact h rfl
  · apply hns
    refine ⟨a / b, ?_⟩
    field_simp
    linear_combination -h0

/-- `inverse()` in the field (with `0⁻¹ = 0`). -/
instance : Inv (Quad K nr) := ⟨fun x =>
  let t3 := (x.c0 * x.c0 - nr (x.c1 * x.c1))⁻¹
  ⟨x.c0 * t3, -(x.c1 * t3)⟩⟩

omit hns in
theorem inv_def (x : Quad K nr) : x⁻¹ = ⟨x.c0 * (x.c0 * x.c0 - β * (x.c1 * x.c1))⁻¹,
    -(x.c1 * (x.c0 * x.c0 - β * (x.c1 * x.c1))⁻¹)⟩ := by
  rw [← hβ.mulBy]; rfl

omit hβ hns in
theorem ne_zero_iff (x : Quad K nr) : x ≠ 0 ↔ x.c0 ≠ 0 ∨ x.c1 ≠ 0 := by
  rw [ne_eq, Quad.ext_iff, not_and_or]; rfl

instance field : Field (Quad K nr) where
  exists_pair_ne := ⟨0, 1, fun h => zero_ne_one (congrArg Quad.c0 h)⟩
  mul_inv_cancel x hx := by
    have hn := norm_ne_zero hns.out x.c0 x.c1 ((ne_zero_iff x).1 hx)
    rw [inv_def]
    ext
    · simp only [mul_c0, one_c0]
      rw [show x.c0 * (x.c0 * (x.c0 * x.c0 - β * (x.c1 * x.c1))⁻¹) +
        β * (x.c1 * -(x.c1 * (x.c0 * x.c0 - β * (x.c1 * x.c1))⁻¹)) =
        (x.c0 * x.c0 - β * (x.c1 * x.c1)) * (x.c0 * x.c0 - β * (x.c1 * x.c1))⁻¹ by ring]
      exact mul_inv_cancel₀ hn
    · simp only [mul_c1, one_c1]; ring
  inv_zero := by rw [inv_def]; ext <;> simp
  nnqsmul := _
  nnqsmul_def := fun _ _ => rfl
  qsmul := _
  qsmul_def := fun _ _ => rfl

instance [Squared K] [LawfulSquared K] [InverseO K] [LawfulInverse K] :
    LawfulInverse (Quad K nr) where
  inverseO_zero := by
    change (inverseO (squared (0 : K) - nr (squared (0 : K)))).map _ = _
    rw [LawfulSquared.squared_eq, hβ.mulBy]
    simp only [mul_zero, sub_zero, LawfulInverse.inverseO_zero]; rfl
  inverseO_ne x hx := by
    change (inverseO (squared x.c0 - nr (squared x.c1))).map _ = _
    rw [LawfulSquared.squared_eq, LawfulSquared.squared_eq, hβ.mulBy, LawfulInverse.inverseO_ne _
      (norm_ne_zero hns.out x.c0 x.c1 ((ne_zero_iff x).1 hx)), inv_def]
    rfl

end Field
end Quad
end Libff
