import Verif.Model.PairingPp
import Verif.Spec.Pairing
import Verif.Spec.Bilinear
import Verif.Lemmas.Quad
import Verif.Lemmas.MillerDouble
import Mathlib.FieldTheory.Finite.Basic
import Mathlib.GroupTheory.OrderOfElement

/-! Helper lemmas for C70. -/
namespace Libff

/-- `unitary_inverse` inverts after a power that kills the subfield. -/
theorem Quad.unitaryInverse_pow {T : Type*} [Field T] [Fintype T] {nr : T → T} {u : T} [MulBy nr u] [Fact (¬ IsSquare u)] {E : ℕ}
    (hE : Fintype.card T - 1 ∣ E) {x : Quad T nr} (hx : x ≠ 0) : x.unitaryInverse ≠ 0 ∧ x.unitaryInverse ^ E = (x ^ E)⁻¹ := by
  have h0 : x.unitaryInverse ≠ 0 := by
    intro h
    apply hx
    have h0 : x.c0 = 0 := congrArg Quad.c0 h
    have h1 : -x.c1 = 0 := congrArg Quad.c1 h
    ext
    · exact h0
    · exact neg_eq_zero.1 h1
  refine ⟨h0, eq_inv_of_mul_eq_one_right ?_⟩
  rw [← mul_pow, Quad.unitaryInverse_mul, ← map_pow]
  have hn : x.c0 * x.c0 - u * (x.c1 * x.c1) ≠ 0 := by
    intro h
    have := Quad.unitaryInverse_mul (nr := nr) x
    rw [h, map_zero] at this
    exact (mul_ne_zero hx h0) this
  obtain ⟨k, rfl⟩ := hE
  rw [pow_mul, FiniteField.pow_card_sub_one_eq_one _ hn, one_pow, map_one]

namespace PairingFns
variable {G₁ G₂ P₁ P₂ L : Type} {F : PairingFns G₁ G₂ P₁ P₂ L} [Field L] [Fintype L] [DecidableEq L] {r E : ℕ}

theorem miller_of_reduced (hr : ∀ p q, F.reducedPairing p q = (F.miller p q).bind F.finalExponentiation)
    (hf : IsFinalExp F.finalExponentiation r E) {p q v} (h : F.reducedPairing p q = .ok v) :
    ∃ a b f, F.precomputeG1 p = .ok a ∧ F.precomputeG2 q = .ok b ∧ F.millerLoop a b = .ok f ∧ f ≠ 0 ∧ f ^ E = v := by
  rw [hr] at h
  obtain ⟨f, hm, hv⟩ := Outcome.bind_eq_ok.1 h
  unfold miller at hm
  obtain ⟨a, ha, hm⟩ := Outcome.bind_eq_ok.1 hm
  obtain ⟨b, hb, hm⟩ := Outcome.bind_eq_ok.1 hm
  have h0 : f ≠ 0 := by
    rintro rfl
    rw [hf.zero] at hv
    exact absurd hv (by simp)
  rw [hf.pow f h0] at hv
  exact ⟨a, b, f, ha, hb, hm, h0, Outcome.ok.inj hv⟩

/-- The equations follow from the properties of the parts. -/
theorem equations (hr : ∀ p q, F.reducedPairing p q = (F.miller p q).bind F.finalExponentiation)
    (hf : IsFinalExp F.finalExponentiation r E) (hd : IsDoubleLoop F.doubleMillerLoop F.millerLoop)
    (hu : ∀ x : L, x ≠ 0 → F.unitaryInverse x ≠ 0 ∧ F.unitaryInverse x ^ E = (x ^ E)⁻¹) : F.Equations where
  product {p q p' q' v v'} h h' := by
    obtain ⟨a, b, f, ha, hb, hm, h0, rfl⟩ := miller_of_reduced hr hf h
    obtain ⟨a', b', f', ha', hb', hm', h0', rfl⟩ := miller_of_reduced hr hf h'
    have := (hd a b a' b' _).2 ⟨f, f', hm, hm', rfl⟩
    simp only [PairingFns.product, doubleMiller, ha, hb, ha', hb', Outcome.bind_ok, this]
    rw [hf.pow _ (mul_ne_zero h0 h0'), mul_pow]
  quotient {p q p' q' v v'} h h' := by
    obtain ⟨a, b, f, ha, hb, hm, h0, rfl⟩ := miller_of_reduced hr hf h
    obtain ⟨a', b', f', ha', hb', hm', h0', rfl⟩ := miller_of_reduced hr hf h'
    simp only [PairingFns.quotient, miller, ha, hb, ha', hb', Outcome.bind_ok, hm, hm']
    rw [hf.pow _ (mul_ne_zero h0 (hu f' h0').1), mul_pow, (hu f' h0').2, div_eq_mul_inv]
  checkProduct {p q p' q' p'' q'' v v' v''} h h' h'' := by
    obtain ⟨a, b, f, ha, hb, hm, h0, rfl⟩ := miller_of_reduced hr hf h
    obtain ⟨a', b', f', ha', hb', hm', h0', rfl⟩ := miller_of_reduced hr hf h'
    obtain ⟨a'', b'', f'', ha'', hb'', hm'', h0'', rfl⟩ := miller_of_reduced hr hf h''
    have := (hd a' b' a'' b'' _).2 ⟨f', f'', hm', hm'', rfl⟩
    have h1 := mul_ne_zero h0' h0''
    simp only [PairingFns.checkProduct, miller, doubleMiller, ha, hb, ha', hb', ha'', hb'', Outcome.bind_ok, hm, this]
    rw [hf.pow _ (mul_ne_zero h0 (hu _ h1).1), mul_pow, (hu _ h1).2, Outcome.map_ok, ← mul_pow]
    refine congrArg Outcome.ok (decide_eq_decide.2 ?_)
    rw [mul_inv_eq_one₀ (pow_ne_zero _ h1)]

/-- Scalars: the check of the product equation on multiples of two base elements is the equation of the exponents modulo `r`. -/
theorem checkProduct_scalars (hF : F.Equations) {ops₁ : GroupOps G₁} {ops₂ : GroupOps G₂} {eq₁ : G₁ → G₁ → Bool} {eq₂ : G₂ → G₂ → Bool}
    {arg₁ sub₁ : G₁ → Prop} {arg₂ : G₂ → Prop} (hb : BilinearPairing ops₁ ops₂ eq₁ eq₂ arg₁ arg₂ r F.reducedPairing)
    (hn : NondegeneratePairing sub₁ arg₂ F.reducedPairing) (hp : r.Prime) {one₁ : G₁} {one₂ : G₂} (h1 : arg₁ one₁) (h1' : sub₁ one₁)
    (h2 : arg₂ one₂) (a b c d e f : List Limb) (ha : arg₁ (scalarMul one₁ a)) (hb' : arg₂ (scalarMul one₂ b))
    (hc : arg₁ (scalarMul one₁ c)) (hd : arg₂ (scalarMul one₂ d)) (he : arg₁ (scalarMul one₁ e)) (hf : arg₂ (scalarMul one₂ f)) :
    F.checkProduct (scalarMul one₁ a) (scalarMul one₂ b) (scalarMul one₁ c) (scalarMul one₂ d) (scalarMul one₁ e) (scalarMul one₂ f) =
      .ok (decide (val a * val b ≡ val c * val d + val e * val f [MOD r])) := by
  obtain ⟨v, hv, hr⟩ := hb.total h1 h2
  obtain ⟨w, hw, hw1⟩ := hn one₁ one₂ h1' h2
  obtain rfl : v = w := Outcome.ok.inj (hv.symm.trans hw)
  rw [hF.checkProduct (hb.scalar h1 h2 hv a b ha hb') (hb.scalar h1 h2 hv c d hc hd) (hb.scalar h1 h2 hv e f he hf)]
  refine congrArg Outcome.ok (decide_eq_decide.2 ?_)
  haveI := Fact.mk hp
  have ho : orderOf v = r := orderOf_eq_prime hr hw1
  rw [← pow_add]
  have hv0 : v ≠ 0 := by
    rintro rfl
    rw [zero_pow hp.ne_zero] at hr
    exact zero_ne_one hr
  lift v to Lˣ using Ne.isUnit hv0
  rw [← ho, orderOf_units, ← pow_eq_pow_iff_modEq, ← Units.val_pow_eq_pow_val, ← Units.val_pow_eq_pow_val, Units.val_inj]

end PairingFns

section
variable {G₁ G₂ P₁ P₂ T : Type} [Field T] [Fintype T] [DecidableEq T] {nr : T → T} {u : T} [MulBy nr u] [Fact (¬ IsSquare u)] {r E : ℕ}
  {fe : Quad T nr → Outcome (Quad T nr)} {pre₁ : G₁ → Outcome P₁} {pre₂ : G₂ → Outcome P₂} {ml : P₁ → P₂ → Outcome (Quad T nr)}

theorem affine_of_reduced (hf : IsFinalExp fe r E) {p q v}
    (h : ((pre₁ p).bind fun a => (pre₂ q).bind fun b => (ml a b).bind fe) = .ok v) :
    ∃ a b f, pre₁ p = .ok a ∧ pre₂ q = .ok b ∧ ml a b = .ok f ∧ f ≠ 0 ∧ f ^ E = v := by
  obtain ⟨a, ha, hm⟩ := Outcome.bind_eq_ok.1 h
  obtain ⟨b, hb, hm⟩ := Outcome.bind_eq_ok.1 hm
  obtain ⟨f, hm, hv⟩ := Outcome.bind_eq_ok.1 hm
  have h0 : f ≠ 0 := by
    rintro rfl
    rw [hf.zero] at hv
    exact absurd hv (by simp)
  rw [hf.pow f h0] at hv
  exact ⟨a, b, f, ha, hb, hm, h0, Outcome.ok.inj hv⟩

/-- The quotient of two affine pairings. -/
theorem affineEOverE_eq (hf : IsFinalExp fe r E) (hu : ∀ x : Quad T nr, x ≠ 0 → x.unitaryInverse ≠ 0 ∧ x.unitaryInverse ^ E = (x ^ E)⁻¹) {p₁ q₁ v₁ p₂ q₂ v₂}
    (h₁ : ((pre₁ p₁).bind fun a => (pre₂ q₁).bind fun b => (ml a b).bind fe) = .ok v₁)
    (h₂ : ((pre₁ p₂).bind fun a => (pre₂ q₂).bind fun b => (ml a b).bind fe) = .ok v₂) :
    ((pre₁ p₁).bind fun a₁ => (pre₂ q₁).bind fun b₁ => (pre₁ p₂).bind fun a₂ => (pre₂ q₂).bind fun b₂ =>
      affineEOverE ml a₁ b₁ a₂ b₂).bind fe = .ok (v₁ / v₂) := by
  obtain ⟨a₁, b₁, f₁, ha₁, hb₁, hm₁, n₁, rfl⟩ := affine_of_reduced hf h₁
  obtain ⟨a₂, b₂, f₂, ha₂, hb₂, hm₂, n₂, rfl⟩ := affine_of_reduced hf h₂
  obtain ⟨hu, hu'⟩ := hu _ n₂
  simp only [ha₁, hb₁, ha₂, hb₂, Outcome.bind_ok, affineEOverE, hm₁, hm₂]
  rw [hf.pow _ (mul_ne_zero n₁ hu), mul_pow, hu', div_eq_mul_inv]

/-- The quotient of a product of two affine pairings and a third. -/
theorem affineETimesEOverE_eq (hf : IsFinalExp fe r E) (hu : ∀ x : Quad T nr, x ≠ 0 → x.unitaryInverse ≠ 0 ∧ x.unitaryInverse ^ E = (x ^ E)⁻¹) {p₁ q₁ v₁ p₂ q₂ v₂ p₃ q₃ v₃}
    (h₁ : ((pre₁ p₁).bind fun a => (pre₂ q₁).bind fun b => (ml a b).bind fe) = .ok v₁)
    (h₂ : ((pre₁ p₂).bind fun a => (pre₂ q₂).bind fun b => (ml a b).bind fe) = .ok v₂)
    (h₃ : ((pre₁ p₃).bind fun a => (pre₂ q₃).bind fun b => (ml a b).bind fe) = .ok v₃) :
    ((pre₁ p₁).bind fun a₁ => (pre₂ q₁).bind fun b₁ => (pre₁ p₂).bind fun a₂ => (pre₂ q₂).bind fun b₂ =>
      (pre₁ p₃).bind fun a₃ => (pre₂ q₃).bind fun b₃ => affineETimesEOverE ml a₁ b₁ a₂ b₂ a₃ b₃).bind fe = .ok (v₁ * v₂ / v₃) := by
  obtain ⟨a₁, b₁, f₁, ha₁, hb₁, hm₁, n₁, rfl⟩ := affine_of_reduced hf h₁
  obtain ⟨a₂, b₂, f₂, ha₂, hb₂, hm₂, n₂, rfl⟩ := affine_of_reduced hf h₂
  obtain ⟨a₃, b₃, f₃, ha₃, hb₃, hm₃, n₃, rfl⟩ := affine_of_reduced hf h₃
  obtain ⟨hu, hu'⟩ := hu _ n₃
  simp only [ha₁, hb₁, ha₂, hb₂, ha₃, hb₃, Outcome.bind_ok, affineETimesEOverE, hm₁, hm₂, hm₃]
  rw [hf.pow _ (mul_ne_zero (mul_ne_zero n₁ n₂) hu), mul_pow, mul_pow, hu', div_eq_mul_inv]

end
end Libff
