import Verif.Lemmas.Mnt6Zero
import Verif.Props.Nondegenerate
import Verif.Props.Cofactor

/-!
# C51: the mnt6 pairing at the zero of G2
-/
namespace Libff
set_option synthInstance.maxSize 2000
open WeierstrassCurve Affine

theorem mnt6_zero_right_aux {p : Coord3 mnt6_Fq} {q : Coord3 mnt6_Fq3} {x y z : mnt6_Fq} (ha : Proj.toAffine p = .ok ⟨x, y, z⟩)
    (hy : y ≠ 0) (hq : Proj.isZero q = true) : mnt6_reduced_pairing p q = if x = 0 then .abort else .ok 1 := by
  obtain ⟨Q, hQ, hS⟩ := mnt6_K.z_precomp
  have hQ' : mnt6_ate.precomputeG2 q = .ok Q := by
    rw [← hQ]
    have e1 : Proj.toAffine q = .ok ⟨0, 1, 0⟩ := by simp [Proj.toAffine, hq]
    have e2 : Proj.toAffine (⟨0, 1, 0⟩ : Coord3 mnt6_Fq3) = .ok ⟨0, 1, 0⟩ := by
      have : Proj.isZero (⟨0, 1, 0⟩ : Coord3 mnt6_Fq3) = true := (Proj.isZero_iff _).2 ⟨rfl, rfl⟩
      simp [Proj.toAffine, this]
    exact AteMnt.precomputeG2_congr _ (e1.trans e2.symm)
  have hP : ∃ P, mnt6_ate.precomputeG1 p = .ok P ∧ AteMnt.PShape x y P := by
    unfold AteMnt.precomputeG1
    rw [ha]
    refine ⟨_, rfl, rfl, ?_, ?_⟩
    · show (⟨x * 0, x * 1, x * 0⟩ : mnt6_Fq3) = _
      rw [mul_zero, mul_one]
    · show (⟨y * 0, y * 1, y * 0⟩ : mnt6_Fq3) = _
      rw [mul_zero, mul_one]
  obtain ⟨P, hP, hPS⟩ := hP
  have hm := mnt6_K.z_miller hy hPS hS
  by_cases hx : x = 0
  · rw [if_pos hx]
    exact AteMnt.reduced_abort _ hP hQ' (hm.1 hx)
  · obtain ⟨f, hf, hg⟩ := hm.2 hx
    rw [if_neg hx]
    have h1 := C49_mnt6.pow f hg.1
    rw [hg.2] at h1
    exact AteMnt.reduced_ok _ hP hQ' hf h1

/-- **C51**, the missing case of mnt6: for every point `p` of the curve and every representation `q` of the zero of G2, the
reduced pairing is 1, except that it aborts (division by zero) if the first coordinate of `p` is 0. -/
theorem C51_mnt6_zero_right (p : Coord3 mnt6_Fq) (q : Coord3 mnt6_Fq3) (hp : mnt6_arg₁ p) (hq : Proj.isZero q = true) :
    mnt6_reduced_pairing p q = if p.X = 0 then .abort else .ok 1 := by
  obtain ⟨P, hP⟩ := (C62_mnt6_G1_order.2 p).1 hp.1
  rcases P with _ | ⟨x, y, h⟩
  · exact absurd ((Proj.isZero_iff p).2 hP) (by rw [hp.2]; decide)
  obtain ⟨hZ, hX, hY⟩ := hP
  have hy : y ≠ 0 := sw_y_ne_zero_of_odd_card (h := h) mnt6_G1_card (by decide +kernel)
  have hx0 : p.X = 0 ↔ x = 0 := by
    rw [hX]
    exact ⟨fun e => (mul_eq_zero.1 e).resolve_right hZ, fun e => by rw [e, zero_mul]⟩
  rcases Proj.toAffine_rep (a := mnt6_a) (b := mnt6_b) (P := .some x y h) (p := p) ⟨hZ, hX, hY⟩ with ⟨e, -⟩ | ⟨x', y', h', e, ha⟩
  · exact absurd e (Point.some_ne_zero _)
  cases e
  rw [mnt6_zero_right_aux ha hy hq]
  simp only [hx0]

/-- At the generator the value is 1. -/
example : mnt6_reduced_pairing mnt6_G1_one ⟨0, 1, 0⟩ = .ok 1 := by
  rw [C51_mnt6_zero_right _ _ mnt6_one_arg.1 ((Proj.isZero_iff _).2 ⟨rfl, rfl⟩)]
  exact if_neg fun h => absurd ((mnt6_K.o1.eq mnt6_K.g1_rel.1 mnt6_K.o1.zero).2 h) (by decide +kernel)

/-- A point with first coordinate 0. -/
def mnt6_x0_point : Coord3 mnt6_Fq := ⟨0, ((
  367522240247646830781074590872149694574157892269219298314054573777111847536547609085368054 : Nat) : mnt6_Fq), 1⟩

/-- C51, finding: `mnt6_x0_point` is a point of the curve, other than zero, whose pairing with `G2::zero()` aborts. -/
theorem C51_mnt6_zero_right_aborts : mnt6_arg₁ mnt6_x0_point ∧ mnt6_reduced_pairing mnt6_x0_point ⟨0, 1, 0⟩ = .abort := by
  have h : mnt6_arg₁ mnt6_x0_point := by
    have rb : mnt6_K.R1 (NM.of mnt6_coeff_b_nat) mnt6_b := FpRel.cast (by decide +kernel)
    have ry := FpRel.cast (P := mnt6_Fq_params) (v := 367522240247646830781074590872149694574157892269219298314054573777111847536547609085368054) (by decide +kernel)
    have hr : Coord3.Rel mnt6_K.R1 ⟨0, NM.of 367522240247646830781074590872149694574157892269219298314054573777111847536547609085368054, 1⟩ mnt6_x0_point :=
      ⟨mnt6_K.o1.zero, ry, mnt6_K.o1.one⟩
    refine ⟨(Proj.isWellFormed_relates mnt6_K.o1 mnt6_K.ra rb hr).symm.trans (by decide +kernel), ?_⟩
    refine Bool.eq_false_iff.2 fun h => one_ne_zero (α := mnt6_Fq) ((Proj.isZero_iff _).1 h).2
  refine ⟨h, ?_⟩
  rw [C51_mnt6_zero_right _ _ h ((Proj.isZero_iff _).2 ⟨rfl, rfl⟩)]
  exact if_pos rfl

/-- C51, finding: the pairing of zero and zero aborts. -/
theorem C51_mnt6_zero_both (p : Coord3 mnt6_Fq) (q : Coord3 mnt6_Fq3) (hp : Proj.isZero p = true) (hq : Proj.isZero q = true) :
    mnt6_reduced_pairing p q = .abort := by
  rw [mnt6_zero_right_aux (x := 0) (y := 1) (z := 0) (by simp [Proj.toAffine, hp]) one_ne_zero hq]
  exact if_pos rfl

example : mnt6_reduced_pairing ⟨0, 1, 0⟩ ⟨0, 5, 0⟩ = .abort :=
  C51_mnt6_zero_both _ _ ((Proj.isZero_iff _).2 ⟨rfl, rfl⟩) ((Proj.isZero_iff _).2 ⟨rfl, rfl⟩)

set_option maxRecDepth 100000 in
theorem mnt4_K.v2 : (match mnt4_K.ate.pairing ⟨0, 1, 0⟩ ⟨0, 1, 0⟩ with
    | .ok f => decide (f ≠ 0 ∧ fastPow 900 f mnt4_final_exponent ≠ 1)
    | _ => false) = true := by decide +kernel

theorem mnt4_value_zero_both : ∃ v, mnt4_reduced_pairing ⟨0, 1, 0⟩ ⟨0, 1, 0⟩ = .ok v ∧ v ≠ 1 := by
  have h := mnt4_K.v2
  cases e : mnt4_K.ate.pairing ⟨0, 1, 0⟩ ⟨0, 1, 0⟩ with
  | ok f =>
    rw [e] at h
    have h := of_decide_eq_true h
    exact reduced_ne_one mnt4_K.o4 C49_mnt4 (AteMnt.pairing_relates mnt4_K.ate_rel mnt4_K.z1_rel mnt4_K.z2_rel) e h.1 900 mnt4_K.v_E h.2
  | abort => rw [e] at h; exact absurd h (by decide)
  | ub => rw [e] at h; exact absurd h (by decide)

/-- C51, finding: the pairing of zero and zero of mnt4 succeeds, with a value other than 1. -/
theorem C51_mnt4_zero_both (p : Coord3 mnt4_Fq) (q : Coord3 mnt4_Fq2) (hp : Proj.isZero p = true) (hq : Proj.isZero q = true) :
    ∃ v, mnt4_reduced_pairing p q = .ok v ∧ v ≠ 1 := by
  obtain ⟨v, h, hv⟩ := mnt4_value_zero_both
  refine ⟨v, ?_, hv⟩
  rw [← h]
  exact AteMnt.reduced_congr _
    (show Proj.toAffine p = Proj.toAffine ⟨0, 1, 0⟩ by
      have : Proj.isZero (⟨0, 1, 0⟩ : Coord3 mnt4_Fq) = true := (Proj.isZero_iff _).2 ⟨rfl, rfl⟩
      simp [Proj.toAffine, hp, this])
    (show Proj.toAffine q = Proj.toAffine ⟨0, 1, 0⟩ by
      have : Proj.isZero (⟨0, 1, 0⟩ : Coord3 mnt4_Fq2) = true := (Proj.isZero_iff _).2 ⟨rfl, rfl⟩
      simp [Proj.toAffine, hq, this])

end Libff
