import Verif.Lemmas.Quad

namespace Libff
namespace Cubic
variable {K : Type*} {nr : K → K}

section
variable [CommRing K] {β : K} [hβ : MulBy nr β]

@[simp] theorem zero_c0 : (0 : Cubic K nr).c0 = 0 := rfl
@[simp] theorem zero_c1 : (0 : Cubic K nr).c1 = 0 := rfl
@[simp] theorem zero_c2 : (0 : Cubic K nr).c2 = 0 := rfl
@[simp] theorem one_c0 : (1 : Cubic K nr).c0 = 1 := rfl
@[simp] theorem one_c1 : (1 : Cubic K nr).c1 = 0 := rfl
@[simp] theorem one_c2 : (1 : Cubic K nr).c2 = 0 := rfl
@[simp] theorem add_c0 (x y : Cubic K nr) : (x + y).c0 = x.c0 + y.c0 := rfl
@[simp] theorem add_c1 (x y : Cubic K nr) : (x + y).c1 = x.c1 + y.c1 := rfl
@[simp] theorem add_c2 (x y : Cubic K nr) : (x + y).c2 = x.c2 + y.c2 := rfl
@[simp] theorem sub_c0 (x y : Cubic K nr) : (x - y).c0 = x.c0 - y.c0 := rfl
@[simp] theorem sub_c1 (x y : Cubic K nr) : (x - y).c1 = x.c1 - y.c1 := rfl
@[simp] theorem sub_c2 (x y : Cubic K nr) : (x - y).c2 = x.c2 - y.c2 := rfl
@[simp] theorem neg_c0 (x : Cubic K nr) : (-x).c0 = -x.c0 := rfl
@[simp] theorem neg_c1 (x : Cubic K nr) : (-x).c1 = -x.c1 := rfl
@[simp] theorem neg_c2 (x : Cubic K nr) : (-x).c2 = -x.c2 := rfl

omit hβ in
theorem mul_def (x y : Cubic K nr) : x * y =
    ⟨x.c0 * y.c0 + nr ((x.c1 + x.c2) * (y.c1 + y.c2) - x.c1 * y.c1 - x.c2 * y.c2),
     (x.c0 + x.c1) * (y.c0 + y.c1) - x.c0 * y.c0 - x.c1 * y.c1 + nr (x.c2 * y.c2),
     (x.c0 + x.c2) * (y.c0 + y.c2) - x.c0 * y.c0 + x.c1 * y.c1 - x.c2 * y.c2⟩ := rfl

include hβ in
@[simp] theorem mul_c0 (x y : Cubic K nr) :
    (x * y).c0 = x.c0 * y.c0 + β * (x.c1 * y.c2 + x.c2 * y.c1) := by
  rw [mul_def]; simp only [hβ.mulBy]; ring
include hβ in
@[simp] theorem mul_c1 (x y : Cubic K nr) :
    (x * y).c1 = x.c0 * y.c1 + x.c1 * y.c0 + β * (x.c2 * y.c2) := by
  rw [mul_def]; simp only [hβ.mulBy]; ring
omit hβ in
@[simp] theorem mul_c2 (x y : Cubic K nr) :
    (x * y).c2 = x.c0 * y.c2 + x.c1 * y.c1 + x.c2 * y.c0 := by
  rw [mul_def]; ring

instance : NatCast (Cubic K nr) := ⟨fun n => ⟨n, 0, 0⟩⟩
instance : IntCast (Cubic K nr) := ⟨fun n => ⟨n, 0, 0⟩⟩
@[simp] theorem natCast_c0 (n : ℕ) : (n : Cubic K nr).c0 = n := rfl
@[simp] theorem natCast_c1 (n : ℕ) : (n : Cubic K nr).c1 = 0 := rfl
@[simp] theorem natCast_c2 (n : ℕ) : (n : Cubic K nr).c2 = 0 := rfl
@[simp] theorem intCast_c0 (n : ℤ) : (n : Cubic K nr).c0 = n := rfl
@[simp] theorem intCast_c1 (n : ℤ) : (n : Cubic K nr).c1 = 0 := rfl
@[simp] theorem intCast_c2 (n : ℤ) : (n : Cubic K nr).c2 = 0 := rfl

instance : SMul ℕ (Cubic K nr) := ⟨fun n x => ⟨n • x.c0, n • x.c1, n • x.c2⟩⟩
instance : SMul ℤ (Cubic K nr) := ⟨fun n x => ⟨n • x.c0, n • x.c1, n • x.c2⟩⟩
@[simp] theorem nsmul_c0 (n : ℕ) (x : Cubic K nr) : (n • x).c0 = n • x.c0 := rfl
@[simp] theorem nsmul_c1 (n : ℕ) (x : Cubic K nr) : (n • x).c1 = n • x.c1 := rfl
@[simp] theorem nsmul_c2 (n : ℕ) (x : Cubic K nr) : (n • x).c2 = n • x.c2 := rfl
@[simp] theorem zsmul_c0 (n : ℤ) (x : Cubic K nr) : (n • x).c0 = n • x.c0 := rfl
@[simp] theorem zsmul_c1 (n : ℤ) (x : Cubic K nr) : (n • x).c1 = n • x.c1 := rfl
@[simp] theorem zsmul_c2 (n : ℤ) (x : Cubic K nr) : (n • x).c2 = n • x.c2 := rfl

instance commRing : CommRing (Cubic K nr) where
  add := (· + ·)
  add_assoc x y z := by ext <;> simp [add_assoc]
  zero := 0
  zero_add x := by ext <;> simp
  add_zero x := by ext <;> simp
  nsmul := (· • ·)
  nsmul_zero x := by ext <;> simp
  nsmul_succ n x := by ext <;> simp [add_mul]
  add_comm x y := by ext <;> simp [add_comm]
  mul := (· * ·)
  left_distrib x y z := by ext <;> simp <;> ring
  right_distrib x y z := by ext <;> simp <;> ring
  zero_mul x := by ext <;> simp
  mul_zero x := by ext <;> simp
  mul_assoc x y z := by ext <;> simp <;> ring
  one := 1
  one_mul x := by ext <;> simp
  mul_one x := by ext <;> simp
  natCast n := n
  natCast_zero := by ext <;> simp
  natCast_succ n := by ext <;> simp
  neg := Neg.neg
  sub := Sub.sub
  sub_eq_add_neg x y := by ext <;> simp [sub_eq_add_neg]
  zsmul := (· • ·)
  zsmul_zero' x := by ext <;> simp
  zsmul_succ' n x := by ext <;> simp [add_mul]
  zsmul_neg' n x := by ext <;> simp [add_mul, Int.negSucc_eq]
  neg_add_cancel x := by ext <;> simp
  intCast n := n
  intCast_ofNat n := by ext <;> simp
  intCast_negSucc n := by ext <;> simp [Int.negSucc_eq]
  mul_comm x y := by ext <;> simp <;> ring

instance [Squared K] [LawfulSquared K] : LawfulSquared (Cubic K nr) where
  squared_eq x := by
    have h : squared x = (⟨squared x.c0 + nr (x.c1 * x.c2 + x.c1 * x.c2),
      x.c0 * x.c1 + x.c0 * x.c1 + nr (squared x.c2),
      x.c0 * x.c1 + x.c0 * x.c1 + squared (x.c0 - x.c1 + x.c2) + (x.c1 * x.c2 + x.c1 * x.c2)
        - squared x.c0 - squared x.c2⟩ : Cubic K nr) := rfl
    rw [h]
    ext <;> simp [hβ.mulBy, LawfulSquared.squared_eq] <;> ring

/-- The embedding of the coefficient field. -/
def ofBase : K →+* Cubic K nr where
  toFun a := ⟨a, 0, 0⟩
  map_one' := rfl
  map_mul' x y := by ext <;> simp
  map_zero' := rfl
  map_add' x y := by ext <;> simp

@[simp] theorem ofBase_c0 (a : K) : (ofBase a : Cubic K nr).c0 = a := rfl
@[simp] theorem ofBase_c1 (a : K) : (ofBase a : Cubic K nr).c1 = 0 := rfl
@[simp] theorem ofBase_c2 (a : K) : (ofBase a : Cubic K nr).c2 = 0 := rfl

theorem ofBase_injective : Function.Injective (ofBase : K →+* Cubic K nr) := fun _ _ h =>
  congrArg Cubic.c0 h

omit hβ in
@[simp] theorem gen_c0 : (gen : Cubic K nr).c0 = 0 := rfl
omit hβ in
@[simp] theorem gen_c1 : (gen : Cubic K nr).c1 = 1 := rfl
omit hβ in
@[simp] theorem gen_c2 : (gen : Cubic K nr).c2 = 0 := rfl

theorem gen_cube : (gen : Cubic K nr) * gen * gen = ofBase β := by ext <;> simp

theorem eq_ofBase_add (x : Cubic K nr) :
    x = ofBase x.c0 + ofBase x.c1 * gen + ofBase x.c2 * (gen * gen) := by ext <;> simp

instance instCharP (p : ℕ) [CharP K p] : CharP (Cubic K nr) p :=
  charP_of_injective_ringHom ofBase_injective p

open Polynomial in
/-- Identification with the quotient ring `K[X] / (X^3 - β)`. -/
noncomputable def ofAdjoinRoot : AdjoinRoot (Cubic.poly β) →+* Cubic K nr :=
  AdjoinRoot.lift ofBase gen (by
    have : (gen : Cubic K nr) ^ 3 = ofBase β := by rw [← gen_cube]; ring
    simp [poly, eval₂_sub, this])

open Polynomial in
theorem ofAdjoinRoot_bijective [Nontrivial K] :
    Function.Bijective (ofAdjoinRoot : AdjoinRoot (Cubic.poly β) →+* Cubic K nr) := by
  constructor
  · rw [injective_iff_map_eq_zero]
    intro z hz
    have hmon : (poly β).Monic := by unfold poly; exact monic_X_pow_sub_C β (by norm_num)
    obtain ⟨f, rfl⟩ := AdjoinRoot.mk_surjective z
    have hmk : AdjoinRoot.mk (poly β) f = AdjoinRoot.mk (poly β) (f %ₘ poly β) := by
      conv_lhs => rw [← modByMonic_add_div f (poly β)]
      simp
    rw [hmk] at hz ⊢
    have hd : (f %ₘ poly β).natDegree < 3 := by
      have := natDegree_modByMonic_lt f hmon (by
        intro h
        have := congrArg natDegree h
        unfold poly at this
        rw [natDegree_X_pow_sub_C] at this
        simp at this)
      unfold poly at this ⊢
      rwa [natDegree_X_pow_sub_C] at this
    generalize f %ₘ poly β = g at hz hd ⊢
    have hg : g = C (g.coeff 0) + C (g.coeff 1) * X + C (g.coeff 2) * (X * X) := by
      ext i
      match i with
      | 0 => simp
      | 1 => simp [coeff_X]
      | 2 => rw [← pow_two]; simp
      | i + 3 =>
        rw [coeff_eq_zero_of_natDegree_lt (by omega)]
        simp [coeff_X]
    rw [hg] at hz
    simp only [ofAdjoinRoot, AdjoinRoot.lift_mk, eval₂_add, eval₂_mul, eval₂_C, eval₂_X] at hz
    have h0 := congrArg Cubic.c0 hz
    have h1 := congrArg Cubic.c1 hz
    have h2 := congrArg Cubic.c2 hz
    simp at h0 h1 h2
    rw [hg, h0, h1, h2]; simp
  · intro x
    refine ⟨AdjoinRoot.of _ x.c0 + AdjoinRoot.of _ x.c1 * AdjoinRoot.root _ +
      AdjoinRoot.of _ x.c2 * (AdjoinRoot.root _ * AdjoinRoot.root _), ?_⟩
    simp only [ofAdjoinRoot, map_add, map_mul, AdjoinRoot.lift_of, AdjoinRoot.lift_root]
    exact (eq_ofBase_add x).symm

/-- `Cubic K nr` is `K[X] / (X^3 - β)`. -/
noncomputable def equivAdjoinRoot [Nontrivial K] : AdjoinRoot (Cubic.poly β) ≃+* Cubic K nr :=
  RingEquiv.ofBijective ofAdjoinRoot ofAdjoinRoot_bijective

theorem equivAdjoinRoot_of [Nontrivial K] (a : K) :
    (equivAdjoinRoot : AdjoinRoot (Cubic.poly β) ≃+* Cubic K nr) (AdjoinRoot.of _ a) = ofBase a := by
  unfold equivAdjoinRoot; rw [RingEquiv.ofBijective_apply]
  unfold ofAdjoinRoot; rw [AdjoinRoot.lift_of]

theorem equivAdjoinRoot_root [Nontrivial K] :
    (equivAdjoinRoot : AdjoinRoot (Cubic.poly β) ≃+* Cubic K nr) (AdjoinRoot.root _) = gen := by
  unfold equivAdjoinRoot; rw [RingEquiv.ofBijective_apply]
  unfold ofAdjoinRoot; rw [AdjoinRoot.lift_root]

end

/-- Triples. -/
def equivProd : Cubic K nr ≃ K × K × K where
  toFun x := (x.c0, x.c1, x.c2)
  invFun x := ⟨x.1, x.2.1, x.2.2⟩
  left_inv _ := rfl
  right_inv _ := rfl

instance [Fintype K] : Fintype (Cubic K nr) := Fintype.ofEquiv _ equivProd.symm

theorem card [Fintype K] : Fintype.card (Cubic K nr) = Fintype.card K ^ 3 := by
  rw [Fintype.card_congr equivProd, Fintype.card_prod, Fintype.card_prod]; ring

section Field
variable [Field K] {β : K} [hβ : MulBy nr β] [hns : Fact (∀ y : K, y * y * y ≠ β)]

omit hβ hns in
theorem adj_ne_zero (hns : ∀ y : K, y * y * y ≠ β) (a b c : K) (h : a ≠ 0 ∨ b ≠ 0 ∨ c ≠ 0) :
    a * a - β * (b * c) ≠ 0 ∨ β * (c * c) - a * b ≠ 0 ∨ b * b - a * c ≠ 0 := by
  by_contra hcon
  push Not at hcon
  obtain ⟨h1, h2, h3⟩ := hcon
  by_cases hc : c = 0
  · subst hc
    have hb : b = 0 := by
      have : b * b = 0 := by linear_combination h3
      simpa using this
    have ha : a = 0 := by
      have : a * a = 0 := by linear_combination h1
      simpa using this
    rcases h with h | h | h
    · exact h ha
    · exact h hb
    · exact h rfl
  · apply hns (b / c)
    field_simp
    linear_combination b * h3 - c * h2

omit hβ hns in
theorem norm_ne_zero (hns : ∀ y : K, y * y * y ≠ β) (a b c : K) (h : a ≠ 0 ∨ b ≠ 0 ∨ c ≠ 0) :
    a * (a * a - β * (b * c)) + β * (c * (β * (c * c) - a * b) + b * (b * b - a * c)) ≠ 0 := by
  intro h0
  have h1 := adj_ne_zero hns a b c h
  have h2 := adj_ne_zero hns _ _ _ h1
  rcases h2 with h2 | h2 | h2
  · apply h2; linear_combination a * h0
  · apply h2; linear_combination b * h0
  · apply h2; linear_combination c * h0

/-- `inverse()` in the field (with `0⁻¹ = 0`). -/
instance : Inv (Cubic K nr) := ⟨fun x =>
  let c0 := x.c0 * x.c0 - nr (x.c1 * x.c2)
  let c1 := nr (x.c2 * x.c2) - x.c0 * x.c1
  let c2 := x.c1 * x.c1 - x.c0 * x.c2
  let t6 := (x.c0 * c0 + nr (x.c2 * c1 + x.c1 * c2))⁻¹
  ⟨t6 * c0, t6 * c1, t6 * c2⟩⟩

omit hns in
theorem inv_def (x : Cubic K nr) : x⁻¹ =
    (let c0 := x.c0 * x.c0 - β * (x.c1 * x.c2)
     let c1 := β * (x.c2 * x.c2) - x.c0 * x.c1
     let c2 := x.c1 * x.c1 - x.c0 * x.c2
     let t6 := (x.c0 * c0 + β * (x.c2 * c1 + x.c1 * c2))⁻¹
     ⟨t6 * c0, t6 * c1, t6 * c2⟩) := by
  simp only [← hβ.mulBy]; rfl

omit hβ hns in
theorem ne_zero_iff (x : Cubic K nr) : x ≠ 0 ↔ x.c0 ≠ 0 ∨ x.c1 ≠ 0 ∨ x.c2 ≠ 0 := by
  rw [ne_eq, Cubic.ext_iff, not_and_or, not_and_or]; rfl

instance field : Field (Cubic K nr) where
  exists_pair_ne := ⟨0, 1, fun h => zero_ne_one (congrArg Cubic.c0 h)⟩
  mul_inv_cancel x hx := by
    have hn := norm_ne_zero hns.out x.c0 x.c1 x.c2 ((ne_zero_iff x).1 hx)
    rw [inv_def]
    simp only
    have hm := mul_inv_cancel₀ hn
    ext
    · simp only [mul_c0, one_c0]
      linear_combination hm
    · simp only [mul_c1, one_c1]; ring
    · simp only [mul_c2, one_c2]; ring
  inv_zero := by rw [inv_def]; ext <;> simp
  nnqsmul := _
  nnqsmul_def := fun _ _ => rfl
  qsmul := _
  qsmul_def := fun _ _ => rfl

instance [Squared K] [LawfulSquared K] [InverseO K] [LawfulInverse K] :
    LawfulInverse (Cubic K nr) where
  inverseO_zero := by
    change (inverseO ((0 : K) * _ + nr ((0 : K) * _ + (0 : K) * _))).map _ = _
    simp only [hβ.mulBy, mul_zero, zero_mul, add_zero, LawfulInverse.inverseO_zero]; rfl
  inverseO_ne x hx := by
    change (inverseO (x.c0 * (squared x.c0 - nr (x.c1 * x.c2)) + nr (x.c2 * (nr (squared x.c2) - x.c0 * x.c1)
      + x.c1 * (squared x.c1 - x.c0 * x.c2)))).map (fun t6 : K => (⟨t6 * (squared x.c0 - nr (x.c1 * x.c2)),
        t6 * (nr (squared x.c2) - x.c0 * x.c1), t6 * (squared x.c1 - x.c0 * x.c2)⟩ : Cubic K nr)) = _
    simp only [LawfulSquared.squared_eq, hβ.mulBy]
    rw [LawfulInverse.inverseO_ne _
      (norm_ne_zero hns.out x.c0 x.c1 x.c2 ((ne_zero_iff x).1 hx)), inv_def]
    rfl

end Field
end Cubic
end Libff
