import Verif.Spec.Pairing
import Verif.Lemmas.MillerDouble
import Verif.Model.PairingCurves12
import Verif.Model.PairingCurvesW

/-!
# C48: double Miller loops
-/
namespace Libff
set_option synthInstance.maxSize 2000

section
variable {K : Type*} [Field K] [Squared K] [LawfulSquared K] [InverseO K] [LawfulInverse K] {β : K} {ξ : Fp2 K β}
  [Fact (¬ IsSquare β)] [Fact (∀ y : Fp2 K β, y * y * y ≠ ξ)] [Fact (¬ IsSquare (Cubic.gen : Fp6_3over2 K β ξ))]

/-- **C48**, every BLS12 curve in the form of bls12_381_pairing.cpp. -/
theorem C48_bls (A : Ate12 K β ξ) : IsDoubleLoop A.blsDoubleMillerLoop A.blsMillerLoop := by
  intro P1 Q1 P2 Q2 f
  unfold Ate12.blsDoubleMillerLoop Ate12.blsMillerLoop
  simp only [Outcome.bind_eq_ok, Ate12.loop_iff (C21_fp12_mul_by_045 K β ξ)]
  constructor
  · rintro ⟨s, ⟨s1, s2, h1, h2, -, -, e⟩, h⟩
    rw [e, A.inv_iff] at h
    obtain ⟨x, y, hx, hy, rfl⟩ := h
    exact ⟨x, y, ⟨s1, h1, hx⟩, ⟨s2, h2, hy⟩, rfl⟩
  · rintro ⟨x, y, ⟨s1, h1, hx⟩, ⟨s2, h2, hy⟩, rfl⟩
    have := Ate12.loop_idx _ _ P1 Q1 P2 Q2 s1 s2 h1 h2
    have hinv := (A.inv_iff s1.1 s2.1 (x * y)).2 ⟨x, y, hx, hy, rfl⟩
    obtain ⟨m, hm⟩ : ∃ m, m = s1.1 * s2.1 := ⟨_, rfl⟩
    rw [← hm] at hinv
    generalize x * y = f at hinv ⊢
    refine ⟨(m, s1.2), ⟨s1, s2, h1, h2, rfl, this.symm, hm⟩, ?_⟩
    dsimp only
    exact hinv

/-- **C48**, every BN curve in the form of alt_bn128_pairing.cpp. -/
theorem C48_bn (A : Ate12 K β ξ) : IsDoubleLoop A.bnDoubleMillerLoop A.bnMillerLoop := by
  intro P1 Q1 P2 Q2 f
  unfold Ate12.bnDoubleMillerLoop Ate12.bnMillerLoop
  simp only [Outcome.bind_eq_ok, Outcome.map_eq_ok, Ate12.evalCoeff_eq (C21_fp12_mul_by_024 K β ξ), Ate12.loop_iff (C21_fp12_mul_by_024 K β ξ)]
  constructor
  · rintro ⟨s, ⟨s1, s2, h1, h2, i1, i2, e⟩, g, h, c1, k1, c2, k2, d1, l1, d2, l2, rfl⟩
    rw [e, A.inv_iff] at h
    obtain ⟨x, y, hx, hy, rfl⟩ := h
    refine ⟨_, _, ⟨s1, h1, x, hx, c1, ?_, d1, ?_, rfl⟩, ⟨s2, h2, y, hy, c2, ?_, d2, ?_, rfl⟩, by ring⟩
    · rwa [i1]
    · rwa [i1]
    · rwa [i2]
    · rwa [i2]
  · rintro ⟨_, _, ⟨s1, h1, x, hx, c1, k1, d1, l1, rfl⟩, ⟨s2, h2, y, hy, c2, k2, d2, l2, rfl⟩, rfl⟩
    have := Ate12.loop_idx _ _ P1 Q1 P2 Q2 s1 s2 h1 h2
    rw [← this] at k2 l2
    have hinv := (A.inv_iff s1.1 s2.1 (x * y)).2 ⟨x, y, hx, hy, rfl⟩
    obtain ⟨m, hm⟩ : ∃ m, m = s1.1 * s2.1 := ⟨_, rfl⟩
    rw [← hm] at hinv
    obtain ⟨g, hg⟩ : ∃ g, g = x * y := ⟨_, rfl⟩
    rw [← hg] at hinv
    refine ⟨(m, s1.2), ⟨s1, s2, h1, h2, rfl, this.symm, hm⟩, g, ?_, c1, k1, c2, k2, d1, l1, d2, l2, ?_⟩
    · dsimp only
      exact hinv
    · rw [hg]
      ring
end

/-- **C48**, every curve in the form of mnt4_pairing.cpp, mnt6_pairing.cpp. -/
theorem C48_mnt {K T : Type*} [Field K] [Field T] [Squared T] [InverseO T] [LawfulInverse T] [LawfulSquared T] {nr : T → T} {u : T}
    [MulBy nr u] [Fact (¬ IsSquare u)] (A : AteMnt K T nr) : IsDoubleLoop A.doubleMillerLoop A.millerLoop := by
  intro P1 Q1 P2 Q2 f
  unfold AteMnt.doubleMillerLoop AteMnt.millerLoop
  simp only [Outcome.bind_eq_ok,
    ateLoop_prod_one _ _ _ _ _ (AteMnt.millerStep_next (A := A) P1 Q1) (AteMnt.millerStep_next (A := A) P2 Q2) (AteMnt.doubleMillerStep_iff (A := A) P1 Q1 P2 Q2)]
  cases A.loopNeg
  · simp only [Bool.false_eq_true, if_false, Outcome.ok.injEq]
    constructor
    · rintro ⟨s, ⟨s1, s2, h1, h2, i1, i2, e⟩, rfl⟩
      exact ⟨_, _, ⟨s1, h1, rfl⟩, ⟨s2, h2, rfl⟩, e⟩
    · rintro ⟨x, y, ⟨s1, h1, rfl⟩, ⟨s2, h2, rfl⟩, rfl⟩
      have := ateLoop_idx _ _ _ _ (AteMnt.millerStep_next (A := A) P1 Q1) (AteMnt.millerStep_next (A := A) P2 Q2) _ _ _ _ _ _ _ h1 h2
      exact ⟨(s1.1 * s2.1, s1.2), ⟨s1, s2, h1, h2, rfl, this.symm, rfl⟩, rfl⟩
  · simp only [if_true, Outcome.bind_eq_ok]
    constructor
    · rintro ⟨s, ⟨s1, s2, h1, h2, i1, i2, e⟩, c1, k1, c2, k2, h⟩
      rw [e, mul_assoc, mul_mul_mul_comm, inverseO_mul] at h
      obtain ⟨x, y, hx, hy, rfl⟩ := h
      refine ⟨_, _, ⟨s1, h1, c1, ?_, hx⟩, ⟨s2, h2, c2, ?_, hy⟩, rfl⟩
      · rwa [i1]
      · rwa [i2]
    · rintro ⟨x, y, ⟨s1, h1, c1, k1, hx⟩, ⟨s2, h2, c2, k2, hy⟩, rfl⟩
      have := ateLoop_idx _ _ _ _ (AteMnt.millerStep_next (A := A) P1 Q1) (AteMnt.millerStep_next (A := A) P2 Q2) _ _ _ _ _ _ _ h1 h2
      rw [← this] at k2
      refine ⟨(s1.1 * s2.1, s1.2), ⟨s1, s2, h1, h2, rfl, this.symm, rfl⟩, c1, k1, c2, k2, ?_⟩
      rw [mul_assoc, mul_mul_mul_comm, inverseO_mul]
      exact ⟨x, y, hx, hy, rfl⟩

/-- **C48**, every curve in the form of edwards_pairing.cpp. -/
theorem C48_edw {K T : Type*} [Field K] [Field T] {nr : T → T} {u : T} [MulBy nr u] (A : AteEdw K T nr) :
    IsDoubleLoop A.doubleMillerLoop A.millerLoop := by
  intro P1 Q1 P2 Q2 f
  unfold AteEdw.doubleMillerLoop AteEdw.millerLoop
  simp only [Outcome.map_eq_ok,
    ateLoop_prod_one _ _ _ _ _ (AteEdw.millerStep_next (A := A) P1 Q1) (AteEdw.millerStep_next (A := A) P2 Q2) (AteEdw.doubleMillerStep_iff (A := A) P1 Q1 P2 Q2)]
  constructor
  · rintro ⟨s, ⟨s1, s2, h1, h2, i1, i2, e⟩, rfl⟩
    exact ⟨_, _, ⟨s1, h1, rfl⟩, ⟨s2, h2, rfl⟩, e⟩
  · rintro ⟨x, y, ⟨s1, h1, rfl⟩, ⟨s2, h2, rfl⟩, rfl⟩
    have := ateLoop_idx _ _ _ _ (AteEdw.millerStep_next (A := A) P1 Q1) (AteEdw.millerStep_next (A := A) P2 Q2) _ _ _ _ _ _ _ h1 h2
    exact ⟨(s1.1 * s2.1, s1.2), ⟨s1, s2, h1, h2, rfl, this.symm, rfl⟩, rfl⟩

/-- **C48.** `alt_bn128_double_miller_loop`. -/
theorem C48_alt_bn128 : IsDoubleLoop alt_bn128_double_miller_loop alt_bn128_miller_loop := C48_bn _
/-- **C48.** `bls12_381_double_miller_loop`. -/
theorem C48_bls12_381 : IsDoubleLoop bls12_381_double_miller_loop bls12_381_miller_loop := C48_bls _
/-- **C48.** `mnt4_double_miller_loop`. -/
theorem C48_mnt4 : IsDoubleLoop mnt4_double_miller_loop mnt4_miller_loop := C48_mnt _
/-- **C48.** `mnt6_double_miller_loop`. -/
theorem C48_mnt6 : IsDoubleLoop mnt6_double_miller_loop mnt6_miller_loop := C48_mnt _
/-- **C48.** `edwards_double_miller_loop`. -/
theorem C48_edwards : IsDoubleLoop edwards_double_miller_loop edwards_miller_loop := C48_edw _

end Libff
