import Verif.Lemmas.MillerSteps
import Verif.Model.PairingCurves12
import Verif.Model.PairingCurvesW
import Verif.Props.ConstAltBn128
import Verif.Props.ConstBls12381
import Verif.Props.ConstMnt4
import Verif.Props.ConstMnt6
import Verif.Props.GenAltBn128
import Verif.Props.GenBls12381
import Verif.Props.GenMnt4
import Verif.Props.GenMnt6
import Verif.Lemmas.MulByQ

/-!
# C50: the Miller steps follow the group law

Each step replaces the running point by its double, resp. by its sum with the base point, and emits the coefficients of the
tangent, resp. of the chord (`IsLine`, Spec/Lines.lean). The coefficients of alt_bn128 and bls12_381 are those of the line on the
twist with one of them multiplied by `twist`; those of mnt4 and mnt6 are stored in parts.
-/
namespace Libff
set_option synthInstance.maxSize 2000
open WeierstrassCurve Affine

section
variable {K : Type*} [Field K] [DecidableEq K] [Squared K] [LawfulSquared K] {β : K} {ξ : Fp2 K β} [Fact (¬ IsSquare β)]

/-- **C50**, doubling, every curve in the form of alt_bn128_pairing.cpp, bls12_381_pairing.cpp. -/
theorem C50_12_double (A : Ate12 K β ξ) (hh : A.twoInv = 2⁻¹) (h2 : (2 : K) ≠ 0) (h3 : (3 : K) ≠ 0) (R : Coord3 (Fp2 K β))
    (a : (sw 0 A.twistB).Point) (ha : a ≠ 0) (hR : ProjRep R a) :
    (ProjRep (A.bnDouble R).1 (a + a) ∧
      ∃ c, (A.bnDouble R).2.ell_0 = A.twist * c ∧ IsLine a a c (A.bnDouble R).2.ell_VW (A.bnDouble R).2.ell_VV) ∧
    ProjRep (A.blsDouble R).1 (a + a) ∧
      ∃ c, (A.blsDouble R).2.ell_VW = A.twist * c ∧ IsLine a a (A.blsDouble R).2.ell_0 c (A.blsDouble R).2.ell_VV := by
  obtain ⟨X, Y, Z⟩ := R
  have g2 : (2 : Fp2 K β) ≠ 0 := by
    rw [← map_ofNat Quad.ofBase 2]; exact (map_ne_zero _).2 h2
  have g3 : (3 : Fp2 K β) ≠ 0 := by
    rw [← map_ofNat Quad.ofBase 3]; exact (map_ne_zero _).2 h3
  have gh : Quad.ofBase A.twoInv = (2 : Fp2 K β)⁻¹ := by rw [hh, map_inv₀, map_ofNat]
  obtain ⟨h, hl⟩ := proj_double_step g2 g3 gh ha hR
  have hp : ProjRep (A.doublingCore ⟨X, Y, Z⟩).1 (a + a) := by
    have e : (A.doublingCore ⟨X, Y, Z⟩).1 = ⟨Quad.ofBase A.twoInv * (X * Y) * (Y * Y - 9 * A.twistB * Z ^ 2),
        (Quad.ofBase A.twoInv * (Y * Y + 9 * A.twistB * Z ^ 2)) ^ 2 - 27 * A.twistB ^ 2 * Z ^ 4, Y * Y * (2 * Y * Z)⟩ := by
      simp only [Ate12.doublingCore, LawfulSquared.squared_eq, Quad.scale_eq_ofBase, Coord3.mk.injEq]
      exact ⟨by ring, by ring, by ring⟩
    rw [e]; exact h
  have e1 : (A.doublingCore ⟨X, Y, Z⟩).2.1 = 3 * A.twistB * Z ^ 2 - Y ^ 2 := by
    simp only [Ate12.doublingCore, LawfulSquared.squared_eq]; ring
  have e2 : (A.doublingCore ⟨X, Y, Z⟩).2.2.1 = 2 * Y * Z := by
    simp only [Ate12.doublingCore, LawfulSquared.squared_eq]; ring
  have e3 : (A.doublingCore ⟨X, Y, Z⟩).2.2.2 = 3 * X ^ 2 := by
    simp only [Ate12.doublingCore, LawfulSquared.squared_eq]; ring
  rw [← e1, ← e2, ← e3] at hl
  exact ⟨⟨hp, _, rfl, hl⟩, hp, _, (neg_mul_comm _ _), hl⟩

/-- **C50**, mixed addition, every curve in the form of alt_bn128_pairing.cpp, bls12_381_pairing.cpp. -/
theorem C50_12_add (A : Ate12 K β ξ) (base R : Coord3 (Fp2 K β)) (a b : (sw 0 A.twistB).Point) (ha : a ≠ 0) (hb : b ≠ 0)
    (hab : a ≠ b) (hR : ProjRep R a) (hB : ProjRep base b) (hB1 : base.Z = 1) :
    (ProjRep (A.bnAdd base R).1 (a + b) ∧
      ∃ c, (A.bnAdd base R).2.ell_0 = A.twist * c ∧ IsLine a b c (A.bnAdd base R).2.ell_VW (A.bnAdd base R).2.ell_VV) ∧
    ProjRep (A.blsAdd base R).1 (a + b) ∧
      ∃ c, (A.blsAdd base R).2.ell_VW = A.twist * c ∧ IsLine a b (A.blsAdd base R).2.ell_0 c (A.blsAdd base R).2.ell_VV := by
  obtain ⟨X, Y, Z⟩ := R
  obtain ⟨x₂, y₂, z₂⟩ := base
  cases b with
  | zero => exact absurd rfl hb
  | some x y hxy =>
    obtain ⟨-, e1, e2⟩ := hB
    simp only at hB1 e1 e2
    rw [hB1, mul_one] at e1 e2
    subst e1 e2
    obtain ⟨h, hl⟩ := proj_add_step (d := X - x₂ * Z) (e := Y - y₂ * Z)
      (j := (X - x₂ * Z) ^ 3 + Z * (Y - y₂ * Z) ^ 2 - 2 * (X * (X - x₂ * Z) ^ 2)) ha hab hR rfl rfl rfl
    have hp : ProjRep (Ate12.additionCore ⟨x₂, y₂, z₂⟩ ⟨X, Y, Z⟩).1 (a + Point.some x₂ y₂ hxy) := by
      convert h using 2
      · simp only [Ate12.additionCore, LawfulSquared.squared_eq]; ring
      · simp only [Ate12.additionCore, LawfulSquared.squared_eq]; ring
      · simp only [Ate12.additionCore, LawfulSquared.squared_eq]; ring
    exact ⟨⟨hp, _, rfl, hl⟩, hp, _, rfl, hl⟩
end

section
variable {K T : Type*} [Field K] [Field T] [DecidableEq T] [Squared T] [LawfulSquared T] {nr : T → T}

/-- The coordinates denote a point and carry the square of `Z`. -/
def ExtRep {W : Affine T} (R : ExtCoord T) (a : W.Point) : Prop := JacRep ⟨R.X, R.Y, R.Z⟩ a ∧ R.T = R.Z ^ 2

/-- **C50**, doubling, every curve in the form of mnt4_pairing.cpp, mnt6_pairing.cpp. -/
theorem C50_mnt_double (A : AteMnt K T nr) (h8 : ∀ x, A.scale (-A.eight) x = -8 * x) (h2 : (2 : T) ≠ 0) {b : T} (R : ExtCoord T)
    (a : (sw A.twistA b).Point) (ha : a + a ≠ 0) (hR : ExtRep R a) :
    ExtRep (A.double R).1 (a + a) ∧
      IsLine a a ((A.double R).2.c_L - (A.double R).2.c_4C) (A.double R).2.c_H (-(A.double R).2.c_J) := by
  obtain ⟨X, Y, Z, t⟩ := R
  obtain ⟨hJ, ht⟩ := hR
  simp only at hJ ht
  subst ht
  obtain ⟨h, hl⟩ := jac_double_step h2 ha hJ rfl
  refine ⟨⟨?_, ?_⟩, ?_⟩
  · convert h using 2
    · simp only [AteMnt.double, LawfulSquared.squared_eq]; ring
    · simp only [AteMnt.double, LawfulSquared.squared_eq, h8]; ring
    · simp only [AteMnt.double, LawfulSquared.squared_eq]; ring
  · simp only [AteMnt.double, LawfulSquared.squared_eq]; ring
  · convert hl using 1
    · simp only [AteMnt.double, LawfulSquared.squared_eq]; ring
    · simp only [AteMnt.double, LawfulSquared.squared_eq]; ring
    · simp only [AteMnt.double, LawfulSquared.squared_eq]; ring

/-- **C50**, mixed addition, every curve in the form of mnt4_pairing.cpp, mnt6_pairing.cpp. -/
theorem C50_mnt_add (h2 : (2 : T) ≠ 0) {a₄ a₆ : T} (x₂ y₂ : T) (R : ExtCoord T) (a b : (sw a₄ a₆).Point) (ha : a ≠ 0) (hb : b ≠ 0)
    (hab : a ≠ b) (hab' : a + b ≠ 0) (hR : ExtRep R a) (hB : JacRep ⟨x₂, y₂, 1⟩ b) :
    ExtRep (AteMnt.mixedAdd x₂ y₂ (y₂ ^ 2) R).1 (a + b) ∧
      IsLine a b ((AteMnt.mixedAdd x₂ y₂ (y₂ ^ 2) R).2.c_L1 * x₂ - (AteMnt.mixedAdd x₂ y₂ (y₂ ^ 2) R).2.c_RZ * y₂)
        (AteMnt.mixedAdd x₂ y₂ (y₂ ^ 2) R).2.c_RZ (-(AteMnt.mixedAdd x₂ y₂ (y₂ ^ 2) R).2.c_L1) := by
  obtain ⟨X, Y, Z, t⟩ := R
  obtain ⟨hJ, ht⟩ := hR
  simp only at hJ ht
  subst ht
  cases b with
  | zero => exact absurd rfl hb
  | some x y hxy =>
    obtain ⟨-, e1, e2⟩ := hB
    simp only [one_pow, mul_one] at e1 e2
    subst e1 e2
    obtain ⟨h, hl⟩ := jac_add_step h2 ha hab hab' hJ rfl rfl rfl
    refine ⟨⟨?_, ?_⟩, ?_⟩
    · convert h using 2
      · simp only [AteMnt.mixedAdd, LawfulSquared.squared_eq]; ring
      · simp only [AteMnt.mixedAdd, LawfulSquared.squared_eq]; ring
      · simp only [AteMnt.mixedAdd, LawfulSquared.squared_eq]; ring
    · simp only [AteMnt.mixedAdd, LawfulSquared.squared_eq]; ring
    · convert hl using 1
      · simp only [AteMnt.mixedAdd, LawfulSquared.squared_eq]; ring
      · simp only [AteMnt.mixedAdd, LawfulSquared.squared_eq]; ring
      · simp only [AteMnt.mixedAdd, LawfulSquared.squared_eq]; ring
end
/-- **C50.** `doubling_step_for_flipped_miller_loop`, alt_bn128_pairing.cpp. -/
theorem C50_alt_bn128_double (R : Coord3 alt_bn128_Fq2) (a : (sw 0 alt_bn128_twist_b).Point) (ha : a ≠ 0) (hR : ProjRep R a) :
    ProjRep (alt_bn128_ate.bnDouble R).1 (a + a) ∧ ∃ c, (alt_bn128_ate.bnDouble R).2.ell_0 = alt_bn128_twist * c ∧ IsLine a a c (alt_bn128_ate.bnDouble R).2.ell_VW (alt_bn128_ate.bnDouble R).2.ell_VV :=
  (C50_12_double alt_bn128_ate rfl C52_alt_bn128_G1_generator.1 C52_alt_bn128_G1_generator.2.1 R a ha hR).1

/-- **C50.** `mixed_addition_step_for_flipped_miller_loop`, alt_bn128_pairing.cpp. -/
theorem C50_alt_bn128_add (base R : Coord3 alt_bn128_Fq2) (a b : (sw 0 alt_bn128_twist_b).Point) (ha : a ≠ 0) (hb : b ≠ 0) (hab : a ≠ b)
    (hR : ProjRep R a) (hB : ProjRep base b) (hB1 : base.Z = 1) :
    ProjRep (alt_bn128_ate.bnAdd base R).1 (a + b) ∧ ∃ c, (alt_bn128_ate.bnAdd base R).2.ell_0 = alt_bn128_twist * c ∧ IsLine a b c (alt_bn128_ate.bnAdd base R).2.ell_VW (alt_bn128_ate.bnAdd base R).2.ell_VV :=
  (C50_12_add alt_bn128_ate base R a b ha hb hab hR hB hB1).1

/-- The generator of `alt_bn128_G2`, and its double, meet the hypotheses. -/
example : ∃ (R R' : Coord3 alt_bn128_Fq2) (a : (sw 0 alt_bn128_twist_b).Point), a ≠ 0 ∧ ProjRep R a ∧ R.Z = 1 ∧ ProjRep R' (a + a) ∧ a + a ≠ 0 ∧
    a + a ≠ a := by
  obtain ⟨a, h, ho⟩ := C52_alt_bn128_G2_generator.2.2.2.2
  have ha : a ≠ 0 := by rintro rfl; rw [addOrderOf_zero] at ho; revert ho; decide +kernel
  have hR : ProjRep alt_bn128_G2_one a := by
    cases a with
    | zero => exact absurd rfl ha
    | some x y hxy => exact ⟨h.1, by simpa [alt_bn128_G2_one] using h.2.1, by simpa [alt_bn128_G2_one] using h.2.2⟩
  refine ⟨alt_bn128_G2_one, _, a, ha, hR, rfl, (C50_alt_bn128_double _ a ha hR).1, fun h0 => ?_, fun h0 => ha (by simpa using h0)⟩
  have := addOrderOf_dvd_of_nsmul_eq_zero (n := 2) (x := a) (by rw [two_nsmul, h0])
  rw [ho] at this
  revert this; decide +kernel

/-- **C50.** `doubling_step_for_miller_loop`, bls12_381_pairing.cpp. -/
theorem C50_bls12_381_double (R : Coord3 bls12_381_Fq2) (a : (sw 0 bls12_381_twist_b).Point) (ha : a ≠ 0) (hR : ProjRep R a) :
    ProjRep (bls12_381_ate.blsDouble R).1 (a + a) ∧ ∃ c, (bls12_381_ate.blsDouble R).2.ell_VW = bls12_381_twist * c ∧ IsLine a a (bls12_381_ate.blsDouble R).2.ell_0 c (bls12_381_ate.blsDouble R).2.ell_VV :=
  (C50_12_double bls12_381_ate rfl C52_bls12_381_G1_generator.1 C52_bls12_381_G1_generator.2.1 R a ha hR).2

/-- **C50.** `mixed_addition_step_for_miller_loop`, bls12_381_pairing.cpp. -/
theorem C50_bls12_381_add (base R : Coord3 bls12_381_Fq2) (a b : (sw 0 bls12_381_twist_b).Point) (ha : a ≠ 0) (hb : b ≠ 0) (hab : a ≠ b)
    (hR : ProjRep R a) (hB : ProjRep base b) (hB1 : base.Z = 1) :
    ProjRep (bls12_381_ate.blsAdd base R).1 (a + b) ∧ ∃ c, (bls12_381_ate.blsAdd base R).2.ell_VW = bls12_381_twist * c ∧ IsLine a b (bls12_381_ate.blsAdd base R).2.ell_0 c (bls12_381_ate.blsAdd base R).2.ell_VV :=
  (C50_12_add bls12_381_ate base R a b ha hb hab hR hB hB1).2

/-- The generator of `bls12_381_G2`, and its double, meet the hypotheses. -/
example : ∃ (R R' : Coord3 bls12_381_Fq2) (a : (sw 0 bls12_381_twist_b).Point), a ≠ 0 ∧ ProjRep R a ∧ R.Z = 1 ∧ ProjRep R' (a + a) ∧ a + a ≠ 0 ∧
    a + a ≠ a := by
  obtain ⟨a, h, ho⟩ := C52_bls12_381_G2_generator.2.2.2.2
  have ha : a ≠ 0 := by rintro rfl; rw [addOrderOf_zero] at ho; revert ho; decide +kernel
  have hR : ProjRep bls12_381_G2_one a := by
    cases a with
    | zero => exact absurd rfl ha
    | some x y hxy => exact ⟨h.1, by simpa [bls12_381_G2_one] using h.2.1, by simpa [bls12_381_G2_one] using h.2.2⟩
  refine ⟨bls12_381_G2_one, _, a, ha, hR, rfl, (C50_bls12_381_double _ a ha hR).1, fun h0 => ?_, fun h0 => ha (by simpa using h0)⟩
  have := addOrderOf_dvd_of_nsmul_eq_zero (n := 2) (x := a) (by rw [two_nsmul, h0])
  rw [ho] at this
  revert this; decide +kernel

/-- **C50.** `doubling_step_for_flipped_miller_loop`, mnt4_pairing.cpp. -/
theorem C50_mnt4_double (R : ExtCoord mnt4_Fq2) (a : (sw mnt4_twist_a mnt4_twist_b).Point) (ha : a + a ≠ 0) (hR : ExtRep R a) :
    ExtRep (mnt4_ate.double R).1 (a + a) ∧
      IsLine a a ((mnt4_ate.double R).2.c_L - (mnt4_ate.double R).2.c_4C) (mnt4_ate.double R).2.c_H (-(mnt4_ate.double R).2.c_J) :=
  C50_mnt_double mnt4_ate (fun x => (Quad.scale_eq_ofBase _ x).trans (by
    rw [map_neg, show mnt4_ate.eight = 8 from rfl, map_ofNat])) C52_mnt4_G2_generator.1 R a ha hR

/-- **C50.** `mixed_addition_step_for_flipped_miller_loop`, mnt4_pairing.cpp. -/
theorem C50_mnt4_add (x₂ y₂ : mnt4_Fq2) (R : ExtCoord mnt4_Fq2) (a b : (sw mnt4_twist_a mnt4_twist_b).Point) (ha : a ≠ 0) (hb : b ≠ 0)
    (hab : a ≠ b) (hab' : a + b ≠ 0) (hR : ExtRep R a) (hB : JacRep ⟨x₂, y₂, 1⟩ b) :
    ExtRep (AteMnt.mixedAdd x₂ y₂ (y₂ ^ 2) R).1 (a + b) ∧
      IsLine a b ((AteMnt.mixedAdd x₂ y₂ (y₂ ^ 2) R).2.c_L1 * x₂ - (AteMnt.mixedAdd x₂ y₂ (y₂ ^ 2) R).2.c_RZ * y₂)
        (AteMnt.mixedAdd x₂ y₂ (y₂ ^ 2) R).2.c_RZ (-(AteMnt.mixedAdd x₂ y₂ (y₂ ^ 2) R).2.c_L1) :=
  C50_mnt_add C52_mnt4_G2_generator.1 x₂ y₂ R a b ha hb hab hab' hR hB

/-- The generator of `mnt4_G2`, and its double, meet the hypotheses. -/
example : ∃ (x y : mnt4_Fq2) (R : ExtCoord mnt4_Fq2) (a : (sw mnt4_twist_a mnt4_twist_b).Point), a ≠ 0 ∧ JacRep ⟨x, y, 1⟩ a ∧ a + a ≠ 0 ∧
    ExtRep R (a + a) ∧ a + a ≠ a ∧ a + a + a ≠ 0 := by
  obtain ⟨a, h, ho⟩ := C52_mnt4_G2_generator.2.2.2
  have ha : a ≠ 0 := by rintro rfl; rw [addOrderOf_zero] at ho; revert ho; decide +kernel
  have hR : JacRep ⟨mnt4_G2_one.X, mnt4_G2_one.Y, 1⟩ a := by
    cases a with
    | zero => exact absurd rfl ha
    | some x y hxy => exact ⟨one_ne_zero, by simpa [mnt4_G2_one] using h.2.1, by simpa [mnt4_G2_one] using h.2.2⟩
  have h2 : a + a ≠ 0 := fun h0 => by
    have := addOrderOf_dvd_of_nsmul_eq_zero (n := 2) (x := a) (by rw [two_nsmul, h0])
    rw [ho] at this
    revert this; decide +kernel
  refine ⟨_, _, _, a, ha, hR, h2, (C50_mnt4_double ⟨_, _, 1, 1⟩ a h2 ⟨hR, by simp⟩).1, fun h0 => ha (by simpa using h0), fun h0 => ?_⟩
  have := addOrderOf_dvd_of_nsmul_eq_zero (n := 3) (x := a) (by rw [succ_nsmul, two_nsmul, h0])
  rw [ho] at this
  revert this; decide +kernel

/-- **C50.** `doubling_step_for_flipped_miller_loop`, mnt6_pairing.cpp. -/
theorem C50_mnt6_double (R : ExtCoord mnt6_Fq3) (a : (sw mnt6_twist_a mnt6_twist_b).Point) (ha : a + a ≠ 0) (hR : ExtRep R a) :
    ExtRep (mnt6_ate.double R).1 (a + a) ∧
      IsLine a a ((mnt6_ate.double R).2.c_L - (mnt6_ate.double R).2.c_4C) (mnt6_ate.double R).2.c_H (-(mnt6_ate.double R).2.c_J) :=
  C50_mnt_double mnt6_ate (fun x => (Cubic.scale_eq_ofBase _ x).trans (by
    rw [map_neg, show mnt6_ate.eight = 8 from rfl, map_ofNat])) C52_mnt6_G2_generator.1 R a ha hR

/-- **C50.** `mixed_addition_step_for_flipped_miller_loop`, mnt6_pairing.cpp. -/
theorem C50_mnt6_add (x₂ y₂ : mnt6_Fq3) (R : ExtCoord mnt6_Fq3) (a b : (sw mnt6_twist_a mnt6_twist_b).Point) (ha : a ≠ 0) (hb : b ≠ 0)
    (hab : a ≠ b) (hab' : a + b ≠ 0) (hR : ExtRep R a) (hB : JacRep ⟨x₂, y₂, 1⟩ b) :
    ExtRep (AteMnt.mixedAdd x₂ y₂ (y₂ ^ 2) R).1 (a + b) ∧
      IsLine a b ((AteMnt.mixedAdd x₂ y₂ (y₂ ^ 2) R).2.c_L1 * x₂ - (AteMnt.mixedAdd x₂ y₂ (y₂ ^ 2) R).2.c_RZ * y₂)
        (AteMnt.mixedAdd x₂ y₂ (y₂ ^ 2) R).2.c_RZ (-(AteMnt.mixedAdd x₂ y₂ (y₂ ^ 2) R).2.c_L1) :=
  C50_mnt_add C52_mnt6_G2_generator.1 x₂ y₂ R a b ha hb hab hab' hR hB

/-- The generator of `mnt6_G2`, and its double, meet the hypotheses. -/
example : ∃ (x y : mnt6_Fq3) (R : ExtCoord mnt6_Fq3) (a : (sw mnt6_twist_a mnt6_twist_b).Point), a ≠ 0 ∧ JacRep ⟨x, y, 1⟩ a ∧ a + a ≠ 0 ∧
    ExtRep R (a + a) ∧ a + a ≠ a ∧ a + a + a ≠ 0 := by
  obtain ⟨a, h, ho⟩ := C52_mnt6_G2_generator.2.2.2
  have ha : a ≠ 0 := by rintro rfl; rw [addOrderOf_zero] at ho; revert ho; decide +kernel
  have hR : JacRep ⟨mnt6_G2_one.X, mnt6_G2_one.Y, 1⟩ a := by
    cases a with
    | zero => exact absurd rfl ha
    | some x y hxy => exact ⟨one_ne_zero, by simpa [mnt6_G2_one] using h.2.1, by simpa [mnt6_G2_one] using h.2.2⟩
  have h2 : a + a ≠ 0 := fun h0 => by
    have := addOrderOf_dvd_of_nsmul_eq_zero (n := 2) (x := a) (by rw [two_nsmul, h0])
    rw [ho] at this
    revert this; decide +kernel
  refine ⟨_, _, _, a, ha, hR, h2, (C50_mnt6_double ⟨_, _, 1, 1⟩ a h2 ⟨hR, by simp⟩).1, fun h0 => ha (by simpa using h0), fun h0 => ?_⟩
  have := addOrderOf_dvd_of_nsmul_eq_zero (n := 3) (x := a) (by rw [succ_nsmul, two_nsmul, h0])
  rw [ho] at this
  revert this; decide +kernel

end Libff
