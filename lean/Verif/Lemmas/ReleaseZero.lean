import Verif.Lemmas.Ate12Zero
import Verif.Model.Release

/-!
# The alt_bn128 pairing with the neutral element on the right, in a build without assertions

Without the assertions on `mul_by_q` the computation goes on with `(0, 1)` as bls12_381 does: the running point becomes `(0, 0, 0)`,
all coefficients 0, and the Miller value 0.
-/
namespace Libff
set_option linter.unusedSectionVars false
set_option synthInstance.maxSize 2000
namespace Ate12

variable {K : Type*} [Field K] [DecidableEq K] [Squared K] [LawfulSquared K] [InverseO K] [LawfulInverse K] {β : K} {ξ : Fp2 K β}
  [Fact (¬ IsSquare β)] {A : Ate12 K β ξ}

theorem bnDbl_X (R : Coord3 (Fp2 K β)) (h : R.X = 0) : (A.bnDouble R).1.X = 0 := by
  have : Quad.scale (· * ·) A.twoInv (0 : Fp2 K β) = 0 := by ext <;> simp [Quad.scale]
  simp [bnDouble, doublingCore, h, this]

theorem bnDbl_Z (R : Coord3 (Fp2 K β)) (h : R.Z = 0) : (A.bnDouble R).1.Z = 0 := by
  simp [bnDouble, doublingCore, h, LawfulSquared.squared_eq]

theorem bnDbl_0 : A.bnDouble ⟨0, 0, 0⟩ = (⟨0, 0, 0⟩, ⟨0, 0, 0⟩) := by
  have : Quad.scale (· * ·) A.twoInv (0 : Fp2 K β) = 0 := by ext <;> simp [Quad.scale]
  simp [bnDouble, doublingCore, LawfulSquared.squared_eq, this]

theorem bnAdd_XZ (R : Coord3 (Fp2 K β)) (h : R.X = 0) : (A.bnAdd ⟨0, 1, 0⟩ R).1.X = 0 ∧ (A.bnAdd ⟨0, 1, 0⟩ R).1.Z = 0 := by
  simp [bnAdd, additionCore, h]

theorem bnAdd_0 (R : Coord3 (Fp2 K β)) (h : R.X = 0) (h' : R.Z = 0) : (A.bnAdd ⟨0, 1, 0⟩ R).1 = ⟨0, 0, 0⟩ := by
  simp [bnAdd, additionCore, h, h', LawfulSquared.squared_eq]

variable [Fact (∀ y : Fp2 K β, y * y * y ≠ ξ)] [Fact (¬ IsSquare (Cubic.gen : Fp6_3over2 K β ξ))]

theorem bn_zero_fused {sq : Fp12 K β ξ ξ → Fp12 K β ξ ξ} {ev : EllCoeffs (Fp2 K β) → Fp12 K β ξ ξ → Fp12 K β ξ ξ}
    {elt : EllCoeffs (Fp2 K β) → Fp12 K β ξ ξ} (hsq : SqSpec sq) (hev : EvSpec ev elt) (he : elt ⟨0, 0, 0⟩ = 0) (N : ℕ) :
    AteFused (· ++ ·) List.length (genPre A.bnDouble (A.bnAdd ⟨0, 1, 0⟩)) (genMil sq ev) (· <+: ·) ZeroInv N where
  refl _ := List.prefix_refl _
  trans _ _ _ := List.IsPrefix.trans
  step n bit R cs f h1 hN hi := by
    have ho := ones_step bit h1
    cases bit with
    | false =>
      refine ⟨(A.bnDouble R).1, [(A.bnDouble R).2], ev (A.bnDouble R).2 (sq f), rfl, List.prefix_append _ _, fun C' hC => ?_, ?_⟩
      · simp only [genMil, vecAt_prefix0 hC rfl, Outcome.bind, Bool.false_eq_true, if_false, List.length_append,
          List.length_singleton]
      · rcases hi with ⟨h, hn⟩ | ⟨h, h', hn⟩ | ⟨rfl, h⟩
        · exact .inl ⟨bnDbl_X R h, by rw [ho, hn]; rfl⟩
        · exact .inr (.inl ⟨bnDbl_X R h, bnDbl_Z R h', by rw [ho, hn]; rfl⟩)
        · exact .inr (.inr ⟨by rw [bnDbl_0], .inl (by rw [bnDbl_0, hev, he, mul_zero])⟩)
    | true =>
      refine ⟨(A.bnAdd ⟨0, 1, 0⟩ (A.bnDouble R).1).1, [(A.bnDouble R).2, (A.bnAdd ⟨0, 1, 0⟩ (A.bnDouble R).1).2],
        ev (A.bnAdd ⟨0, 1, 0⟩ (A.bnDouble R).1).2 (ev (A.bnDouble R).2 (sq f)), ?_, List.prefix_append _ _, fun C' hC => ?_, ?_⟩
      · simp [genPre]
      · simp only [genMil, vecAt_prefix0 hC rfl, vecAt_prefix hC (i := 1) rfl, Outcome.bind, Outcome.map, if_true,
          List.length_append]
        rfl
      · rcases hi with ⟨h, hn⟩ | ⟨h, h', hn⟩ | ⟨rfl, h⟩
        · exact .inr (.inl ⟨(bnAdd_XZ _ (bnDbl_X R h)).1, (bnAdd_XZ _ (bnDbl_X R h)).2, by rw [ho, hn]; rfl⟩)
        · exact .inr (.inr ⟨bnAdd_0 _ (bnDbl_X R h) (bnDbl_Z R h'), .inr (by simp)⟩)
        · exact .inr (.inr ⟨by rw [bnDbl_0]; exact bnAdd_0 _ rfl rfl, .inl (by rw [hev, hev, bnDbl_0, he, mul_zero, zero_mul])⟩)

theorem bnElt_zero (x y : K) : WAteSetup.bnElt (iota ξ) (tau ξ) w3 w4 x y (⟨0, 0, 0⟩ : EllCoeffs (Fp2 K β)) = 0 := by
  simp [WAteSetup.bnElt]

/-- alt_bn128 without assertions: the Miller value is 0. -/
theorem bn_zero_release (hn : A.loopNeg = false) (h3 : 3 ≤ ones (val A.loopCount)) (h2 : val A.loopCount % 2 = 0) (p : Coord3 K)
    {q : Coord3 (Fp2 K β)} (h : Jac.isZero q = true) : A.bnPairingR p q = .ok 0 := by
  obtain ⟨x, y, z, e⟩ := toAffine_defined p
  have hk : val A.loopCount < 2 ^ (bigintMaxBits A.loopCount + 1) := by
    rw [bigintMaxBits, mul_comm]; exact lt_trans (val_lt _) (Nat.pow_lt_pow_right (by decide) (by omega))
  have h1 : 1 ≤ val A.loopCount := by
    rcases Nat.eq_zero_or_pos (val A.loopCount) with h0 | h0
    · rw [h0] at h3; simp [ones] at h3
    · exact h0
  have F := bn_zero_fused (A := A) squared12 (eval024 x y) (bnElt_zero x y) (val A.loopCount)
  obtain ⟨R, cs, f, e3, -, e4, e5⟩ := F.loop h1 (bigintMaxBits A.loopCount + 1) ⟨0, 1, 1⟩ [] 1 hk (.inl ⟨rfl, by decide⟩)
  have hf : f = 0 := by
    rcases e5 with ⟨-, h⟩ | ⟨-, -, h⟩ | ⟨-, h | h⟩
    · omega
    · omega
    · exact h
    · omega
  subst hf
  have hpq : ∃ c1 c2 : EllCoeffs (Fp2 K β), A.bnPrecomputeG2R q = .ok ⟨0, 1, cs ++ [c1] ++ [c2]⟩ := by
    simp only [bnPrecomputeG2R, toAffine_zero h, Outcome.map, Outcome.bind, precompStep_eq, testBit_fun, e3]
    exact ⟨_, _, rfl⟩
  obtain ⟨c1, c2, hpq⟩ := hpq
  have e4 := e4 (cs ++ [c1] ++ [c2]) (by rw [List.append_assoc]; exact List.prefix_append _ _)
  rw [List.length_nil] at e4
  have e6 := genBnMiller_eq e4
  have hz : ∀ c, evalCoeff Fp12.mulBy024 ⟨x, y⟩ c (0 : Fp12 K β ξ ξ) = 0 := fun c => by
    rw [eval024 x y, zero_mul]
  rw [hz, hz] at e6
  simp only [bnPairingR, precomputeG1, e, Outcome.map, Outcome.bind, hpq, bnMillerLoop_eq A hn, testBit_fun]
  exact e6

end Ate12
end Libff
