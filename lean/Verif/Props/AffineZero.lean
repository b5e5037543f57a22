import Verif.Lemmas.Mnt6AffineZero
import Verif.Props.AffinePairing
import Verif.Props.Mnt6Zero

/-!
# C59: the affine reduced pairings of mnt4 and mnt6 on zero
-/
namespace Libff
set_option synthInstance.maxSize 2000
set_option maxRecDepth 100000
open WeierstrassCurve Affine

/-! ## mnt6 -/

theorem mnt6_affine_zero_aux {p : Coord3 mnt6_Fq} {q : Coord3 mnt6_Fq3} {x y z : mnt6_Fq} (ha : Proj.toAffine p = .ok ⟨x, y, z⟩)
    (hy : y ≠ 0) (hq : Proj.isZero q = true) : mnt6_affine_reduced_pairing p q = .ok 1 := by
  obtain ⟨Q, hQ, hS⟩ := mnt6_K.za_precomp
  have hQ' : mnt6_ate.affinePrecomputeG2 q = .ok Q := by
    rw [← hQ]
    have e1 : Proj.toAffine q = .ok ⟨0, 1, 0⟩ := by simp [Proj.toAffine, hq]
    have e2 : Proj.toAffine (⟨0, 1, 0⟩ : Coord3 mnt6_Fq3) = .ok ⟨0, 1, 0⟩ := by
      have : Proj.isZero (⟨0, 1, 0⟩ : Coord3 mnt6_Fq3) = true := (Proj.isZero_iff _).2 ⟨rfl, rfl⟩
      simp [Proj.toAffine, this]
    exact AteMnt.affinePrecomputeG2_congr _ (e1.trans e2.symm)
  have ht : (squared (⟨0, 1, 0⟩ : mnt6_Fq3)) = ⟨0, 0, 1⟩ := by
    rw [LawfulSquared.squared_eq]
    refine Cubic.ext ?_ ?_ ?_ <;> simp
  have hP : ∃ P, mnt6_ate.affinePrecomputeG1 p = .ok P ∧ P.PY_twist_squared = ⟨0, 0, y⟩ := by
    unfold AteMnt.affinePrecomputeG1
    rw [ha]
    refine ⟨_, rfl, ?_⟩
    show Cubic.scale (· * ·) y (squared (⟨0, 1, 0⟩ : mnt6_Fq3)) = _
    rw [ht]
    show (⟨y * 0, y * 0, y * 1⟩ : mnt6_Fq3) = _
    rw [mul_zero, mul_one]
  obtain ⟨P, hP, hPS⟩ := hP
  obtain ⟨f, hf, hg⟩ := mnt6_K.za_miller hy hPS hS
  have h1 := C49_mnt6.pow f hg.1
  rw [hg.2] at h1
  exact AteMnt.affineReduced_ok _ hP hQ' mnt6_K.naf_eq hf h1

/-- **C59**, zero arguments: for every point `p` of the curve, zero or not, and every representation `q` of the zero of G2, the
affine reduced pairing of mnt6 is 1. (`mnt6_reduced_pairing` aborts for some of them: `C51_mnt6_zero_right`, `C51_mnt6_zero_both`.) -/
theorem C59_mnt6_zero_right (p : Coord3 mnt6_Fq) (q : Coord3 mnt6_Fq3) (hp : Proj.isWellFormed mnt6_a mnt6_b p = true)
    (hq : Proj.isZero q = true) : mnt6_affine_reduced_pairing p q = .ok 1 := by
  obtain ⟨P, hP⟩ := (C62_mnt6_G1_order.2 p).1 hp
  rcases Proj.toAffine_rep hP with ⟨-, ha⟩ | ⟨x, y, h, -, ha⟩
  · exact mnt6_affine_zero_aux ha one_ne_zero hq
  · exact mnt6_affine_zero_aux ha (sw_y_ne_zero_of_odd_card (h := h) mnt6_G1_card (by decide +kernel)) hq

example : mnt6_affine_reduced_pairing mnt6_G1_one ⟨0, 1, 0⟩ = .ok 1 :=
  C59_mnt6_zero_right _ _ mnt6_one_arg.1.1 ((Proj.isZero_iff _).2 ⟨rfl, rfl⟩)

/-- The two pairings of mnt6 differ in whether they return at all. -/
example : mnt6_affine_reduced_pairing mnt6_x0_point ⟨0, 1, 0⟩ = .ok 1 ∧ mnt6_reduced_pairing mnt6_x0_point ⟨0, 1, 0⟩ = .abort :=
  ⟨C59_mnt6_zero_right _ _ C51_mnt6_zero_right_aborts.1.1 ((Proj.isZero_iff _).2 ⟨rfl, rfl⟩), C51_mnt6_zero_right_aborts.2⟩

/-! ## Values other than 1 -/

/-- A value other than 0 with a power other than 1. -/
def powCheck {K : Type} [Zero K] [One K] [Mul K] [DecidableEq K] (fuel E : ℕ) : Outcome K → Bool
  | .ok v => decide (v ≠ 0 ∧ fastPow fuel v E ≠ 1)
  | _ => false

theorem affine_ne_one {K L : Type} [Zero K] [One K] [Add K] [Sub K] [Neg K] [Mul K] [Squared K] [DecidableEq K] [Field L] [Squared L]
    [Fintype L] {R : K → L → Prop} (o : RelOps R) {fe : L → Outcome L} {r E : ℕ} (hfe : IsFinalExp fe r E) {x : Outcome K} {y : Outcome L}
    (h : Outcome.Rel R x y) (fuel : ℕ) (hE : E < 2 ^ fuel)
    (hx : powCheck fuel E x = true) : ∃ w, y.bind fe = .ok w ∧ w ≠ 1 := by
  cases x with
  | ok v => exact reduced_ne_one o hfe h rfl (of_decide_eq_true hx).1 fuel hE (of_decide_eq_true hx).2
  | abort => exact absurd hx Bool.false_ne_true
  | ub => exact absurd hx Bool.false_ne_true

theorem mnt6_K.a0 : powCheck 1500 mnt6_final_exponent (mnt6_K.ateA.affineValue ⟨0, 1, 0⟩ mnt6_K.g2) = true := by decide +kernel
theorem mnt4_K.a0 : powCheck 900 mnt4_final_exponent (mnt4_K.ateA.affineValue ⟨0, 1, 0⟩ mnt4_K.g2) = true := by decide +kernel
theorem mnt4_K.a1 : powCheck 900 mnt4_final_exponent (mnt4_K.ateA.affineValue mnt4_K.g1 ⟨0, 1, 0⟩) = true := by decide +kernel

/-- C59, finding: the affine pairing of `G1::zero()` and `G2::one()` of mnt6 succeeds, with a value other than 1. -/
theorem C59_mnt6_zero_left : ∃ v, mnt6_affine_reduced_pairing ⟨0, 1, 0⟩ mnt6_G2_one = .ok v ∧ v ≠ 1 := by
  obtain ⟨v, h, hv⟩ := affine_ne_one mnt6_K.o6 C49_mnt6 (AteMnt.affineValue_relates mnt6_K.ateA_rel mnt6_K.ateA_sparse mnt6_K.z1_rel mnt6_K.g2_rel)
    1500 mnt6_K.v_E mnt6_K.a0
  exact ⟨v, (AteMnt.affineReducedPairing_value _ _ _ _).trans h, hv⟩

/-- C59, finding: the affine pairing of `G1::zero()` and `G2::one()` of mnt4 succeeds, with a value other than 1. -/
theorem C59_mnt4_zero_left : ∃ v, mnt4_affine_reduced_pairing ⟨0, 1, 0⟩ mnt4_G2_one = .ok v ∧ v ≠ 1 := by
  obtain ⟨v, h, hv⟩ := affine_ne_one mnt4_K.o4 C49_mnt4 (AteMnt.affineValue_relates mnt4_K.ateA_rel mnt4_K.ateA_sparse mnt4_K.z1_rel mnt4_K.g2_rel)
    900 mnt4_K.v_E mnt4_K.a0
  exact ⟨v, (AteMnt.affineReducedPairing_value _ _ _ _).trans h, hv⟩

/-- C59, finding: the affine pairing of `G1::one()` and `G2::zero()` of mnt4 succeeds, with a value other than 1. -/
theorem C59_mnt4_zero_right : ∃ v, mnt4_affine_reduced_pairing mnt4_G1_one ⟨0, 1, 0⟩ = .ok v ∧ v ≠ 1 := by
  obtain ⟨v, h, hv⟩ := affine_ne_one mnt4_K.o4 C49_mnt4 (AteMnt.affineValue_relates mnt4_K.ateA_rel mnt4_K.ateA_sparse mnt4_K.g1_rel mnt4_K.z2_rel)
    900 mnt4_K.v_E mnt4_K.a1
  exact ⟨v, (AteMnt.affineReducedPairing_value _ _ _ _).trans h, hv⟩

end Libff
