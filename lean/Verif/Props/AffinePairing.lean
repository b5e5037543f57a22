import Verif.Lemmas.AteMntAffine
import Verif.Props.Nondegenerate

/-!
# C59: the affine reduced pairings of mnt4 and mnt6
-/
namespace Libff
set_option synthInstance.maxSize 2000
open WeierstrassCurve Affine AteMnt

theorem AteMnt.affineReducedPairing_eq {K T : Type} [Field K] [DecidableEq K] [Squared K] [InverseO K] [Field T] [DecidableEq T] [Squared T]
    [InverseO T] {nr : T → T} [Squared (Quad T nr)] (A : AteMnt K T nr) (fe : Quad T nr → Outcome (Quad T nr)) (p : Coord3 K) (q : Coord3 T) :
    A.affineReducedPairing fe p q =
      ((A.affinePrecomputeG1 p).bind fun prec_P => (A.affinePrecomputeG2 q).bind fun prec_Q => A.affineMillerLoop prec_P prec_Q).bind fe := by
  unfold affineReducedPairing
  cases A.affinePrecomputeG1 p with
  | ok P =>
    cases A.affinePrecomputeG2 q with
    | ok Q => rfl
    | abort => rfl
    | ub => rfl
  | abort => rfl
  | ub => rfl

/-- Inverses of the values of a bilinear map. -/
theorem BilinMap.inv {A₁ A₂ L : Type*} [AddCommGroup A₁] [AddCommGroup A₂] [Field L] {D : AddSubgroup A₂} {e : A₁ → A₂ → L} (h : BilinMap D e) :
    BilinMap D fun P Q => (e P Q)⁻¹ where
  add_left P P' Q hQ := by rw [h.add_left P P' Q hQ, mul_inv]
  add_right P Q Q' hQ hQ' := by rw [h.add_right P Q Q' hQ hQ', mul_inv]
  ne_zero P Q hQ := inv_ne_zero (h.ne_zero P Q hQ)

/-! ## mnt4 -/

theorem mnt4_sparse (y : mnt4_Fq) (t : mnt4_Fq2) (f : mnt4_Fq4) :
    mnt4_ate.mulSparse f ⟨mnt4_ate.scale y (squared mnt4_ate.twist), t⟩ = .ok (f * ⟨mnt4_ate.scale y (squared mnt4_ate.twist), t⟩) := by
  have h := C21_fp4_mul_by_023 mnt4_Fq mnt4_β f ⟨mnt4_ate.scale y (squared mnt4_ate.twist), t⟩
  refine h.trans (if_pos ?_)
  change y * (squared mnt4_ate.twist).c1 = 0
  rw [LawfulSquared.squared_eq]
  change y * (0 * 1 + 1 * 0) = 0
  ring

theorem mnt4_affine_pair {p : Coord3 mnt4_Fq} {q : Coord3 mnt4_Fq2} {P : (sw mnt4_a mnt4_b).Point}
    {Q : (sw mnt4_twist_a mnt4_twist_b).Point} (hp : ProjRep p P) (hP : P ≠ 0) (hq : ProjRep q Q) (hQ : Q ∈ AddSubgroup.zmultiples mnt4_g)
    (hQ0 : Q ≠ 0) : mnt4_affine_reduced_pairing p q = .ok (mnt4_e P Q) := by
  rcases Proj.toAffine_rep hp with ⟨rfl, e0⟩ | ⟨x0, y0, h0, rfl, e0⟩
  · exact absurd rfl hP
  rcases Proj.toAffine_rep hq with ⟨rfl, e⟩ | ⟨x, y, hxy, rfl, e⟩
  · exact absurd rfl hQ0
  · have h := affine_value (A := mnt4_ate) mnt4_ateSetup mnt4_params mnt4_roots mnt4_sparse (by decide +kernel) h0 e0 hQ e
    rw [mnt4_affine_reduced_pairing, affineReducedPairing_eq]
    exact WAteSetup.reduce C49_mnt4.pow (by decide +kernel) h (mnt4_bilin.ne_zero _ _ hQ)

/-- **C59.** `mnt4_affine_reduced_pairing` and `mnt4_reduced_pairing` agree on all non-zero arguments. -/
theorem C59_mnt4 {p : Coord3 mnt4_Fq} {q : Coord3 mnt4_Fq2} (hp : mnt4_arg₁ p) (hq : mnt4_arg₂ q) :
    ∃ v, mnt4_affine_reduced_pairing p q = .ok v ∧ mnt4_reduced_pairing p q = .ok v := by
  obtain ⟨P, hP⟩ := (Proj.isWellFormed_iff (sw_Δ_ne_of_disc C52_mnt4_G1_generator.1 C52_mnt4_G1_generator.2.1) _).1 hp.1
  have hP0 : P ≠ 0 := fun h0 => by
    have := hp.2
    rw [(Proj.isZero_rep hP).2 h0] at this
    exact absurd this (by simp)
  obtain ⟨Q, hQ, h0, n, e⟩ := Proj.nonzeroMultiple mnt4_mulA C52_mnt4_G2_generator.1 mnt4_Δ mnt4_g_rep hq.1 hq.2
  have hm : Q ∈ AddSubgroup.zmultiples mnt4_g := by rw [e]; exact nsmul_mem (AddSubgroup.mem_zmultiples _) n
  exact ⟨_, mnt4_affine_pair hP hP0 hQ hm h0, mnt4_pair hP hP0 hQ hm h0⟩

/-- **C59.** `mnt4_affine_reduced_pairing` is bilinear. -/
theorem C59_mnt4_bilinear : BilinearPairing (Proj.ops mnt4_G1_mul_by_a) (Proj.ops mnt4_G2_mul_by_a) Proj.eq Proj.eq mnt4_arg₁ mnt4_arg₂
    mnt4_Fr_params.p mnt4_affine_reduced_pairing :=
  Proj.pairing (fun _ => rfl) mnt4_mulA mnt4_bilin mnt4_g_order C52_mnt4_G1_generator.1
    (sw_Δ_ne_of_disc C52_mnt4_G1_generator.1 C52_mnt4_G1_generator.2.1) C52_mnt4_G2_generator.1 mnt4_Δ mnt4_g_rep mnt4_affine_pair

/-- **C59.** `mnt4_affine_reduced_pairing` does not map any pair of non-zero elements of the groups of order `r` to 1. -/
theorem C59_mnt4_nondegenerate : NondegeneratePairing mnt4_sub₁ mnt4_arg₂ mnt4_affine_reduced_pairing := fun p q hp hq => by
  obtain ⟨v, h, h1⟩ := C51_mnt4_nondegenerate p q hp hq
  obtain ⟨w, e1, e2⟩ := C59_mnt4 ⟨hp.1, hp.2.1⟩ hq
  obtain rfl : v = w := Outcome.ok.inj (h.symm.trans e2)
  exact ⟨v, e1, h1⟩

example : ∃ v, mnt4_affine_reduced_pairing mnt4_G1_one mnt4_G2_one = .ok v ∧ v ≠ 1 :=
  C59_mnt4_nondegenerate _ _ mnt4_one_arg.2.1 mnt4_one_arg.2.2

/-! ## mnt6 -/

theorem mnt6_sparse (y : mnt6_Fq) (t : mnt6_Fq3) (f : mnt6_Fq6) :
    mnt6_ate.mulSparse f ⟨mnt6_ate.scale y (squared mnt6_ate.twist), t⟩ = .ok (f * ⟨mnt6_ate.scale y (squared mnt6_ate.twist), t⟩) := by
  have h := C21_fp6_mul_by_2345 mnt6_Fq mnt6_β f ⟨mnt6_ate.scale y (squared mnt6_ate.twist), t⟩
  refine h.trans (if_pos ?_)
  have e : squared mnt6_ate.twist = (⟨0, 1, 0⟩ : mnt6_Fq3) * ⟨0, 1, 0⟩ := LawfulSquared.squared_eq _
  constructor
  · change y * (squared mnt6_ate.twist).c0 = 0
    rw [e]
    simp
  · change y * (squared mnt6_ate.twist).c1 = 0
    rw [e]
    simp

/-- The value of the affine pairing. -/
noncomputable def mnt6_e' (P : (sw mnt6_a mnt6_b).Point) (Q : (sw mnt6_twist_a mnt6_twist_b).Point) : mnt6_Fq6 :=
  affVal (A := mnt6_ate) mnt6_ateSetup P Q

theorem mnt6_e'_eq (P : (sw mnt6_a mnt6_b).Point) (Q : (sw mnt6_twist_a mnt6_twist_b).Point) : mnt6_e' P Q = (mnt6_e P Q)⁻¹ := by
  have h : mnt6_e P Q = ateVal (A := mnt6_ate) mnt6_ateSetup P Q := by rw [mnt6_e]
  have h' : mnt6_e' P Q = (ateVal (A := mnt6_ate) mnt6_ateSetup P Q)⁻¹ := by
    rw [mnt6_e']
    exact affVal_eq (A := mnt6_ate) mnt6_ateSetup P Q
  rw [h']
  exact congrArg Inv.inv h.symm

theorem mnt6_affine_pair {p : Coord3 mnt6_Fq} {q : Coord3 mnt6_Fq3} {P : (sw mnt6_a mnt6_b).Point}
    {Q : (sw mnt6_twist_a mnt6_twist_b).Point} (hp : ProjRep p P) (hP : P ≠ 0) (hq : ProjRep q Q) (hQ : Q ∈ AddSubgroup.zmultiples mnt6_g)
    (hQ0 : Q ≠ 0) : mnt6_affine_reduced_pairing p q = .ok (mnt6_e P Q)⁻¹ := by
  have hne : mnt6_e' P Q ≠ 0 := by
    rw [mnt6_e'_eq]
    exact inv_ne_zero (mnt6_bilin.ne_zero _ _ hQ)
  rw [← mnt6_e'_eq]
  rcases Proj.toAffine_rep hp with ⟨rfl, e0⟩ | ⟨x0, y0, h0, rfl, e0⟩
  · exact absurd rfl hP
  rcases Proj.toAffine_rep hq with ⟨rfl, e⟩ | ⟨x, y, hxy, rfl, e⟩
  · exact absurd rfl hQ0
  · have h := affine_value_neg (A := mnt6_ate) mnt6_ateSetup rfl mnt6_params mnt6_roots mnt6_sparse (by decide +kernel) h0 e0 hQ e
    rw [mnt6_affine_reduced_pairing, affineReducedPairing_eq]
    exact WAteSetup.reduce C49_mnt6.pow (by decide +kernel) h hne

/-- **C59.** `mnt6_affine_reduced_pairing`, which does not look at the sign of the loop count, is the inverse of
`mnt6_reduced_pairing` on all non-zero arguments. -/
theorem C59_mnt6 {p : Coord3 mnt6_Fq} {q : Coord3 mnt6_Fq3} (hp : mnt6_arg₁ p) (hq : mnt6_arg₂ q) :
    ∃ v, mnt6_affine_reduced_pairing p q = .ok v⁻¹ ∧ mnt6_reduced_pairing p q = .ok v := by
  obtain ⟨P, hP⟩ := (Proj.isWellFormed_iff (sw_Δ_ne_of_disc C52_mnt6_G1_generator.1 C52_mnt6_G1_generator.2.1) _).1 hp.1
  have hP0 : P ≠ 0 := fun h0 => by
    have := hp.2
    rw [(Proj.isZero_rep hP).2 h0] at this
    exact absurd this (by simp)
  obtain ⟨Q, hQ, h0, n, e⟩ := Proj.nonzeroMultiple mnt6_mulA C52_mnt6_G2_generator.1 mnt6_Δ mnt6_g_rep hq.1 hq.2
  have hm : Q ∈ AddSubgroup.zmultiples mnt6_g := by rw [e]; exact nsmul_mem (AddSubgroup.mem_zmultiples _) n
  exact ⟨_, mnt6_affine_pair hP hP0 hQ hm h0, mnt6_pair hP hP0 hQ hm h0⟩

/-- **C59.** `mnt6_affine_reduced_pairing` is bilinear. -/
theorem C59_mnt6_bilinear : BilinearPairing (Proj.ops mnt6_G1_mul_by_a) (Proj.ops mnt6_G2_mul_by_a) Proj.eq Proj.eq mnt6_arg₁ mnt6_arg₂
    mnt6_Fr_params.p mnt6_affine_reduced_pairing :=
  Proj.pairing (fun _ => rfl) mnt6_mulA mnt6_bilin.inv mnt6_g_order C52_mnt6_G1_generator.1
    (sw_Δ_ne_of_disc C52_mnt6_G1_generator.1 C52_mnt6_G1_generator.2.1) C52_mnt6_G2_generator.1 mnt6_Δ mnt6_g_rep mnt6_affine_pair

/-- **C59.** `mnt6_affine_reduced_pairing` does not map any pair of non-zero elements of the groups of order `r` to 1. -/
theorem C59_mnt6_nondegenerate : NondegeneratePairing mnt6_sub₁ mnt6_arg₂ mnt6_affine_reduced_pairing := fun p q hp hq => by
  obtain ⟨v, h, h1⟩ := C51_mnt6_nondegenerate p q hp hq
  obtain ⟨w, e1, e2⟩ := C59_mnt6 ⟨hp.1, hp.2.1⟩ hq
  obtain rfl : v = w := Outcome.ok.inj (h.symm.trans e2)
  exact ⟨v⁻¹, e1, fun h => h1 (inv_eq_one.1 h)⟩

/-- C59, finding: on the groups of order `r` the two pairings of mnt6 never agree. -/
theorem C59_mnt6_differ {p : Coord3 mnt6_Fq} {q : Coord3 mnt6_Fq3} (hp : mnt6_sub₁ p) (hq : mnt6_arg₂ q) :
    mnt6_affine_reduced_pairing p q ≠ mnt6_reduced_pairing p q := fun hE => by
  obtain ⟨v, h, h1⟩ := C51_mnt6_nondegenerate p q hp hq
  obtain ⟨w, e1, e2⟩ := C59_mnt6 ⟨hp.1, hp.2.1⟩ hq
  obtain rfl : v = w := Outcome.ok.inj (h.symm.trans e2)
  obtain ⟨w, h', hr⟩ := C51_mnt6.total ⟨hp.1, hp.2.1⟩ hq
  obtain rfl : v = w := Outcome.ok.inj (h.symm.trans h')
  have e : v⁻¹ = v := Outcome.ok.inj (e1.symm.trans (hE.trans h))
  have h0 : v ≠ 0 := by
    rintro rfl
    rw [zero_pow mnt6_Fr_prime.ne_zero] at hr
    exact zero_ne_one hr
  have h2 : v ^ 2 = 1 := by
    rw [pow_two]
    calc v * v = v⁻¹ * v := by rw [e]
      _ = 1 := inv_mul_cancel₀ h0
  obtain ⟨k, hk⟩ := mnt6_Fr_prime.odd_of_ne_two (by decide +kernel)
  rw [hk, pow_succ, pow_mul, h2, one_pow, one_mul] at hr
  exact h1 hr

example : ∃ v, mnt6_affine_reduced_pairing mnt6_G1_one mnt6_G2_one = .ok v ∧ v ≠ 1 :=
  C59_mnt6_nondegenerate _ _ mnt6_one_arg.2.1 mnt6_one_arg.2.2

example : mnt6_affine_reduced_pairing mnt6_G1_one mnt6_G2_one ≠ mnt6_reduced_pairing mnt6_G1_one mnt6_G2_one :=
  C59_mnt6_differ mnt6_one_arg.2.1 mnt6_one_arg.2.2

end Libff
