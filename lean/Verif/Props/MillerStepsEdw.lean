import Verif.Lemmas.EdwSteps
import Verif.Model.PairingCurvesW
import Verif.Props.GenEdwards

/-!
# C50: the Miller steps of edwards

The steps double, resp. add, the points that the extended coordinates denote (`EdwExtRep`, Spec/EdwExt.lean), and return the conic that
corresponds to the tangent, resp. the chord (`IsConic`, Spec/Lines.lean). `H` is a subgroup without two-torsion, such as the subgroup of
order `r`. The ate pairing's mixed addition returns the coefficient `c_ZZ` multiplied by `a`.
-/
namespace Libff
set_option synthInstance.maxSize 2000
open WeierstrassCurve Affine

section
variable {T : Type*} [Field T] [DecidableEq T] [Squared T] [LawfulSquared T]

/-- **C50**, doubling, every twisted Edwards curve. -/
theorem C50_edw_double {K : Type*} {nr : T → T} (A : AteEdw K T nr) {a d : T} (hA : ∀ x, A.mulA x = a * x) (h2 : (2 : T) ≠ 0)
    (hc : a - d ≠ 0) {H : AddSubgroup (edwW a d).Point} (hH : NoTwoTorsion H) (R : ExtCoord T) (P : (edwW a d).Point) (hP : P ∈ H)
    (hR : EdwExtRep R P) :
    EdwExtRep (A.double R).1 (P + P) ∧ IsConic P P (A.double R).2.c_ZZ (A.double R).2.c_XY (A.double R).2.c_XZ := by
  obtain ⟨x, y, z, rfl, hz, hp⟩ := hR.obtain
  constructor
  · refine edw_ext_double h2 hc hH hP hp hz ?_ ?_ ?_ ?_ <;> simp only [AteEdw.double, LawfulSquared.squared_eq, hA] <;> ring
  · have h := edw_conic_tangent h2 hc hp hz
    convert h using 1 <;> simp only [AteEdw.double, LawfulSquared.squared_eq, hA] <;> ring

/-- **C50**, mixed addition, every twisted Edwards curve. -/
theorem C50_edw_add {K : Type*} {nr : T → T} (A : AteEdw K T nr) {a d : T} (hA : ∀ x, A.mulA x = a * x) (h2 : (2 : T) ≠ 0)
    (hc : a - d ≠ 0) {H : AddSubgroup (edwW a d).Point} (hH : NoTwoTorsion H) (B R : ExtCoord T) (P Q : (edwW a d).Point) (hP : P ∈ H)
    (hQ : Q ∈ H) (hPQ : P ≠ Q) (h0 : P + Q ≠ 0) (hR : EdwExtRep R P) (hB : EdwExtRep B Q) (hZ : B.Z = 1) :
    EdwExtRep (A.mixedAdd B R).1 (P + Q) ∧
      ∃ c, (A.mixedAdd B R).2.c_ZZ = a * c ∧ IsConic P Q c (A.mixedAdd B R).2.c_XY (A.mixedAdd B R).2.c_XZ := by
  obtain ⟨x₁, y₁, z, rfl, hz, hp⟩ := hR.obtain
  obtain ⟨x₂, y₂, z', rfl, hz', hq⟩ := hB.obtain
  simp only at hZ
  subst hZ
  obtain ⟨h1, hy⟩ := edw_ext_add h2 hc hH hP hQ hp hq hz h0 hPQ (R := (A.mixedAdd ⟨x₂ * 1, y₂ * 1, 1, x₂ * y₂ * 1⟩ ⟨x₁ * z, y₁ * z, z, x₁ * y₁ * z⟩).1)
    (by simp only [AteEdw.mixedAdd, hA]; ring) (by simp only [AteEdw.mixedAdd, hA]; ring) (by simp only [AteEdw.mixedAdd, hA]; ring)
    (by simp only [AteEdw.mixedAdd]; ring)
  refine ⟨h1, x₁ * x₂ * (y₁ - y₂) * z, ?_, ?_⟩
  · simp only [AteEdw.mixedAdd, hA]; ring
  · have h := edw_conic_chord h2 hc hp hq hy hz
    convert h using 1 <;> simp only [AteEdw.mixedAdd] <;> ring

/-- **C50**, doubling in the Tate pairing, every Edwards curve with `a = 1`. -/
theorem C50_edw_tate_double {d : T} (h2 : (2 : T) ≠ 0)
    (hc : 1 - d ≠ 0) {H : AddSubgroup (edwW 1 d).Point} (hH : NoTwoTorsion H) (R : ExtCoord T) (P : (edwW 1 d).Point) (hP : P ∈ H)
    (hR : EdwExtRep R P) :
    EdwExtRep (AteEdw.tateDouble R).1 (P + P) ∧
      IsConic P P (AteEdw.tateDouble R).2.c_ZZ (AteEdw.tateDouble R).2.c_XY (AteEdw.tateDouble R).2.c_XZ := by
  obtain ⟨x, y, z, rfl, hz, hp⟩ := hR.obtain
  constructor
  · refine edw_ext_double h2 hc hH hP hp hz ?_ ?_ ?_ ?_ <;> simp only [AteEdw.tateDouble, LawfulSquared.squared_eq] <;> ring
  · have h := edw_conic_tangent h2 hc hp hz
    convert h using 1 <;> simp only [AteEdw.tateDouble, LawfulSquared.squared_eq] <;> ring

omit [Squared T] [LawfulSquared T] in
/-- **C50**, mixed addition in the Tate pairing, every Edwards curve with `a = 1`. -/
theorem C50_edw_tate_add {d : T} (h2 : (2 : T) ≠ 0)
    (hc : 1 - d ≠ 0) {H : AddSubgroup (edwW 1 d).Point} (hH : NoTwoTorsion H) (B R : ExtCoord T) (P Q : (edwW 1 d).Point) (hP : P ∈ H)
    (hQ : Q ∈ H) (hPQ : P ≠ Q) (h0 : P + Q ≠ 0) (hR : EdwExtRep R P) (hB : EdwExtRep B Q) (hZ : B.Z = 1) :
    EdwExtRep (AteEdw.tateMixedAdd B R).1 (P + Q) ∧
      IsConic P Q (AteEdw.tateMixedAdd B R).2.c_ZZ (AteEdw.tateMixedAdd B R).2.c_XY (AteEdw.tateMixedAdd B R).2.c_XZ := by
  obtain ⟨x₁, y₁, z, rfl, hz, hp⟩ := hR.obtain
  obtain ⟨x₂, y₂, z', rfl, hz', hq⟩ := hB.obtain
  simp only at hZ
  subst hZ
  obtain ⟨h1, hy⟩ := edw_ext_add h2 hc hH hP hQ hp hq hz h0 hPQ
    (R := (AteEdw.tateMixedAdd ⟨x₂ * 1, y₂ * 1, 1, x₂ * y₂ * 1⟩ ⟨x₁ * z, y₁ * z, z, x₁ * y₁ * z⟩).1)
    (by simp only [AteEdw.tateMixedAdd]; ring) (by simp only [AteEdw.tateMixedAdd]; ring) (by simp only [AteEdw.tateMixedAdd]; ring)
    (by simp only [AteEdw.tateMixedAdd]; ring)
  refine ⟨h1, ?_⟩
  have h := edw_conic_chord h2 hc hp hq hy hz
  convert h using 1 <;> simp only [AteEdw.tateMixedAdd] <;> ring

end

/-- `mul_by_a` of the twist. -/
theorem edwards_mulA (x : edwards_Fq3) : edwards_ate.mulA x = edwards_twist_a * x := (C37_mul_by _ edwards_d x).1

/-- The points killed by `r`. -/
abbrev edwards_H₂ : AddSubgroup (edwW edwards_twist_a edwards_twist_d).Point := torsionSub edwards_Fr_params.p
/-- The points killed by `r`. -/
abbrev edwards_H₁ : AddSubgroup (edwW 1 edwards_d).Point := torsionSub edwards_Fr_params.p

theorem edwards_H₂_two : NoTwoTorsion edwards_H₂ := noTwoTorsion_torsionSub _ (by decide +kernel)
theorem edwards_H₁_two : NoTwoTorsion edwards_H₁ := noTwoTorsion_torsionSub _ (by decide +kernel)

/-- **C50.** `doubling_step_for_flipped_miller_loop`, edwards_pairing.cpp. -/
theorem C50_edwards_double (R : ExtCoord edwards_Fq3) (P : (edwW edwards_twist_a edwards_twist_d).Point) (hP : P ∈ edwards_H₂)
    (hR : EdwExtRep R P) :
    EdwExtRep (edwards_ate.double R).1 (P + P) ∧
      IsConic P P (edwards_ate.double R).2.c_ZZ (edwards_ate.double R).2.c_XY (edwards_ate.double R).2.c_XZ :=
  C50_edw_double edwards_ate edwards_mulA C52_edwards_G2_generator.1 C52_edwards_G2_generator.2.1 edwards_H₂_two R P hP hR

/-- **C50.** `mixed_addition_step_for_flipped_miller_loop`, edwards_pairing.cpp. -/
theorem C50_edwards_add (B R : ExtCoord edwards_Fq3) (P Q : (edwW edwards_twist_a edwards_twist_d).Point) (hP : P ∈ edwards_H₂)
    (hQ : Q ∈ edwards_H₂) (hPQ : P ≠ Q) (h0 : P + Q ≠ 0) (hR : EdwExtRep R P) (hB : EdwExtRep B Q) (hZ : B.Z = 1) :
    EdwExtRep (edwards_ate.mixedAdd B R).1 (P + Q) ∧
      ∃ c, (edwards_ate.mixedAdd B R).2.c_ZZ = edwards_twist_a * c ∧
        IsConic P Q c (edwards_ate.mixedAdd B R).2.c_XY (edwards_ate.mixedAdd B R).2.c_XZ :=
  C50_edw_add edwards_ate edwards_mulA C52_edwards_G2_generator.1 C52_edwards_G2_generator.2.1 edwards_H₂_two B R P Q hP hQ hPQ h0 hR hB hZ

/-- **C50.** `doubling_step_for_miller_loop`, edwards_pairing.cpp. -/
theorem C50_edwards_tate_double (R : ExtCoord edwards_Fq) (P : (edwW 1 edwards_d).Point) (hP : P ∈ edwards_H₁) (hR : EdwExtRep R P) :
    EdwExtRep (AteEdw.tateDouble R).1 (P + P) ∧
      IsConic P P (AteEdw.tateDouble R).2.c_ZZ (AteEdw.tateDouble R).2.c_XY (AteEdw.tateDouble R).2.c_XZ :=
  C50_edw_tate_double C52_edwards_G1_generator.1 C52_edwards_G1_generator.2.1 edwards_H₁_two R P hP hR

/-- **C50.** `mixed_addition_step_for_miller_loop`, edwards_pairing.cpp. -/
theorem C50_edwards_tate_add (B R : ExtCoord edwards_Fq) (P Q : (edwW 1 edwards_d).Point) (hP : P ∈ edwards_H₁)
    (hQ : Q ∈ edwards_H₁) (hPQ : P ≠ Q) (h0 : P + Q ≠ 0) (hR : EdwExtRep R P) (hB : EdwExtRep B Q) (hZ : B.Z = 1) :
    EdwExtRep (AteEdw.tateMixedAdd B R).1 (P + Q) ∧
      IsConic P Q (AteEdw.tateMixedAdd B R).2.c_ZZ (AteEdw.tateMixedAdd B R).2.c_XY (AteEdw.tateMixedAdd B R).2.c_XZ :=
  C50_edw_tate_add C52_edwards_G1_generator.1 C52_edwards_G1_generator.2.1 edwards_H₁_two B R P Q hP hQ hPQ h0 hR hB hZ

/-- The generator of `edwards_G2`, and its double, meet the hypotheses. -/
example : ∃ (B R : ExtCoord edwards_Fq3) (Q : (edwW edwards_twist_a edwards_twist_d).Point), Q ∈ edwards_H₂ ∧ Q + Q ∈ edwards_H₂ ∧
    EdwExtRep B Q ∧ B.Z = 1 ∧ EdwExtRep R (Q + Q) ∧ Q + Q ≠ Q ∧ Q + Q + Q ≠ 0 := by
  obtain ⟨Q, h, ho⟩ := C52_edwards_G2_generator.2.2.2
  have ha : Q ≠ 0 := by rintro rfl; rw [addOrderOf_zero] at ho; revert ho; decide +kernel
  have hm : Q ∈ edwards_H₂ := by
    change edwards_Fr_params.p • Q = 0
    rw [← ho, addOrderOf_nsmul_eq_zero]
  rw [edwRep_iff] at h
  obtain ⟨-, -, -, -, hp⟩ := h.resolve_left (fun h => ha h.1)
  have hB := edwExtRep_mk (z := 1) one_ne_zero hp rfl
  refine ⟨_, _, Q, hm, add_mem hm hm, hB, rfl, (C50_edwards_double _ Q hm hB).1, fun h0 => ha (by simpa using h0), fun h0 => ?_⟩
  have := addOrderOf_dvd_of_nsmul_eq_zero (n := 3) (x := Q) (by rw [succ_nsmul, two_nsmul, h0])
  rw [ho] at this
  revert this; decide +kernel

end Libff
