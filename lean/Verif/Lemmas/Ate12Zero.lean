import Verif.Lemmas.Ate12Pairing
import Mathlib.Data.Nat.Digits.Lemmas

/-!
# The pairings of alt_bn128 and bls12_381 with the neutral element on the right

`ate_precompute_G2` of zero works on the coordinates `(0, 1)`, which are not on the twist.  In alt_bn128 the assertions that
`mul_by_q` keeps `Z == 1` fail.  In bls12_381 the first addition step gives `(0, y, 0)` and the second one `(0, 0, 0)`, after which all
coefficients are 0.
-/
namespace Libff
set_option linter.unusedSectionVars false
set_option synthInstance.maxSize 2000
namespace Ate12

/-- The number of ones in the binary representation. -/
def ones (n : ℕ) : ℕ := (Nat.digits 2 n).sum

theorem ones_step {n : ℕ} (b : Bool) (h : 1 ≤ n) : ones (2 * n + b.toNat) = ones n + b.toNat := by
  rw [ones, ones, Nat.add_comm, Nat.digits_add 2 (by decide) b.toNat n (by cases b <;> decide) (Or.inr (by omega)), List.sum_cons]
  omega

variable {K : Type*} [Field K] [DecidableEq K] [Squared K] [LawfulSquared K] [InverseO K] [LawfulInverse K] {β : K} {ξ : Fp2 K β}
  [Fact (¬ IsSquare β)] {A : Ate12 K β ξ}

theorem toAffine_defined {F : Type*} [Field F] [DecidableEq F] [Squared F] [InverseO F] [LawfulInverse F] (p : Coord3 F) :
    ∃ x y z, Jac.toAffine p = .ok ⟨x, y, z⟩ := by
  unfold Jac.toAffine
  split_ifs with h
  · exact ⟨_, _, _, rfl⟩
  · have : p.Z ≠ 0 := fun h0 => h (by simp [Jac.isZero, h0])
    rw [LawfulInverse.inverseO_ne _ this]
    exact ⟨_, _, _, rfl⟩

theorem toAffine_zero {F : Type*} [Field F] [DecidableEq F] [Squared F] [InverseO F] {p : Coord3 F} (h : Jac.isZero p = true) :
    Jac.toAffine p = .ok ⟨0, 1, 0⟩ := by rw [Jac.toAffine, if_pos h]

theorem precomp_defined (bit : ℕ → Bool) (dbl : Coord3 (Fp2 K β) → Coord3 (Fp2 K β) × EllCoeffs (Fp2 K β))
    (add : Coord3 (Fp2 K β) → Coord3 (Fp2 K β) → Coord3 (Fp2 K β) × EllCoeffs (Fp2 K β)) (Qc : Coord3 (Fp2 K β)) :
    ∀ (k : ℕ) (b : Bool) (s : Coord3 (Fp2 K β) × List (EllCoeffs (Fp2 K β))), ∃ s', ateLoop bit (precompStep dbl add Qc) k b s = .ok s'
  | 0, _, s => ⟨s, rfl⟩
  | k + 1, b, s => by
    rw [ateLoop]
    split_ifs
    · exact precomp_defined bit dbl add Qc k _ _
    · rw [precompStep]
      split_ifs <;> exact precomp_defined bit dbl add Qc k _ _

/-- alt_bn128: the precomputation aborts. -/
theorem bn_zero (hq : (A.mulByQ ⟨0, 1, 0⟩).Z = 0) (p : Coord3 K) {q : Coord3 (Fp2 K β)} (h : Jac.isZero q = true) :
    A.bnReducedPairing p q = .abort := by
  obtain ⟨x, y, z, e⟩ := toAffine_defined p
  obtain ⟨s, hs⟩ := precomp_defined (testBit A.loopCount) A.bnDouble A.bnAdd ⟨0, 1, 0⟩ (bigintMaxBits A.loopCount + 1) false (⟨0, 1, 1⟩, [])
  simp only [bnReducedPairing, bnPairing, precomputeG1, e, Outcome.map, Outcome.bind, bnPrecomputeG2, toAffine_zero h, hs, hq,
    ne_eq, zero_ne_one, not_false_eq_true, if_true]

theorem dbl_X (R : Coord3 (Fp2 K β)) (h : R.X = 0) : (A.blsDouble R).1.X = 0 := by
  have : Quad.scale (· * ·) A.twoInv (0 : Fp2 K β) = 0 := by ext <;> simp [Quad.scale]
  simp [blsDouble, doublingCore, h, this]

theorem dbl_Z (R : Coord3 (Fp2 K β)) (h : R.Z = 0) : (A.blsDouble R).1.Z = 0 := by
  simp [blsDouble, doublingCore, h, LawfulSquared.squared_eq]

theorem dbl_0 : A.blsDouble ⟨0, 0, 0⟩ = (⟨0, 0, 0⟩, ⟨0, 0, 0⟩) := by
  have : Quad.scale (· * ·) A.twoInv (0 : Fp2 K β) = 0 := by ext <;> simp [Quad.scale]
  simp [blsDouble, doublingCore, LawfulSquared.squared_eq, this]

theorem add_XZ (R : Coord3 (Fp2 K β)) (h : R.X = 0) : (A.blsAdd ⟨0, 1, 0⟩ R).1.X = 0 ∧ (A.blsAdd ⟨0, 1, 0⟩ R).1.Z = 0 := by
  simp [blsAdd, additionCore, h]

theorem add_0 (R : Coord3 (Fp2 K β)) (h : R.X = 0) (h' : R.Z = 0) : (A.blsAdd ⟨0, 1, 0⟩ R).1 = ⟨0, 0, 0⟩ := by
  simp [blsAdd, additionCore, h, h', LawfulSquared.squared_eq]

variable [Fact (∀ y : Fp2 K β, y * y * y ≠ ξ)] [Fact (¬ IsSquare (Cubic.gen : Fp6_3over2 K β ξ))]

/-- What holds in the loops of bls12_381 after the bits of `n`. -/
def ZeroInv (n : ℕ) (R : Coord3 (Fp2 K β)) (f : Fp12 K β ξ ξ) : Prop :=
  (R.X = 0 ∧ ones n = 1) ∨ (R.X = 0 ∧ R.Z = 0 ∧ ones n = 2) ∨ (R = ⟨0, 0, 0⟩ ∧ (f = 0 ∨ n % 2 = 1))

theorem bls_zero_fused {sq : Fp12 K β ξ ξ → Fp12 K β ξ ξ} {ev : EllCoeffs (Fp2 K β) → Fp12 K β ξ ξ → Fp12 K β ξ ξ}
    {elt : EllCoeffs (Fp2 K β) → Fp12 K β ξ ξ} (hsq : SqSpec sq) (hev : EvSpec ev elt) (he : elt ⟨0, 0, 0⟩ = 0) (N : ℕ) :
    AteFused (· ++ ·) List.length (genPre A.blsDouble (A.blsAdd ⟨0, 1, 0⟩)) (genMil sq ev) (· <+: ·) ZeroInv N where
  refl _ := List.prefix_refl _
  trans _ _ _ := List.IsPrefix.trans
  step n bit R cs f h1 hN hi := by
    have ho := ones_step bit h1
    cases bit with
    | false =>
      refine ⟨(A.blsDouble R).1, [(A.blsDouble R).2], ev (A.blsDouble R).2 (sq f), rfl, List.prefix_append _ _, fun C' hC => ?_, ?_⟩
      · simp only [genMil, vecAt_prefix0 hC rfl, Outcome.bind, Bool.false_eq_true, if_false, List.length_append,
          List.length_singleton]
      · rcases hi with ⟨h, hn⟩ | ⟨h, h', hn⟩ | ⟨rfl, h⟩
        · exact .inl ⟨dbl_X R h, by rw [ho, hn]; rfl⟩
        · exact .inr (.inl ⟨dbl_X R h, dbl_Z R h', by rw [ho, hn]; rfl⟩)
        · exact .inr (.inr ⟨by rw [dbl_0], .inl (by rw [dbl_0, hev, he, mul_zero])⟩)
    | true =>
      refine ⟨(A.blsAdd ⟨0, 1, 0⟩ (A.blsDouble R).1).1, [(A.blsDouble R).2, (A.blsAdd ⟨0, 1, 0⟩ (A.blsDouble R).1).2],
        ev (A.blsAdd ⟨0, 1, 0⟩ (A.blsDouble R).1).2 (ev (A.blsDouble R).2 (sq f)), ?_, List.prefix_append _ _, fun C' hC => ?_, ?_⟩
      · simp [genPre]
      · simp only [genMil, vecAt_prefix0 hC rfl, vecAt_prefix hC (i := 1) rfl, Outcome.bind, Outcome.map, if_true,
          List.length_append]
        rfl
      · rcases hi with ⟨h, hn⟩ | ⟨h, h', hn⟩ | ⟨rfl, h⟩
        · exact .inr (.inl ⟨(add_XZ _ (dbl_X R h)).1, (add_XZ _ (dbl_X R h)).2, by rw [ho, hn]; rfl⟩)
        · exact .inr (.inr ⟨add_0 _ (dbl_X R h) (dbl_Z R h'), .inr (by simp)⟩)
        · exact .inr (.inr ⟨by rw [dbl_0]; exact add_0 _ rfl rfl, .inl (by rw [hev, hev, dbl_0, he, mul_zero, zero_mul])⟩)

theorem blsElt_zero (x y : K) : WAteSetup.blsElt (iota ξ) (tau ξ) w3 (w2 * w3) x y (⟨0, 0, 0⟩ : EllCoeffs (Fp2 K β)) = 0 := by
  simp [WAteSetup.blsElt]

/-- bls12_381: the Miller value is 0, and its inversion aborts. -/
theorem bls_zero (hn : A.loopNeg = true) (h3 : 3 ≤ ones (val A.loopCount)) (h2 : val A.loopCount % 2 = 0) (p : Coord3 K)
    {q : Coord3 (Fp2 K β)} (h : Jac.isZero q = true) : A.blsReducedPairing p q = .abort := by
  obtain ⟨x, y, z, e⟩ := toAffine_defined p
  have hk : val A.loopCount < 2 ^ (bigintMaxBits A.loopCount + 1) := by
    rw [bigintMaxBits, mul_comm]; exact lt_trans (val_lt _) (Nat.pow_lt_pow_right (by decide) (by omega))
  have h1 : 1 ≤ val A.loopCount := by
    rcases Nat.eq_zero_or_pos (val A.loopCount) with h0 | h0
    · rw [h0] at h3; simp [ones] at h3
    · exact h0
  have F := bls_zero_fused (A := A) squared12 (eval045 x y) (blsElt_zero x y) (val A.loopCount)
  obtain ⟨R, cs, f, e3, -, e4, e5⟩ := F.loop h1 (bigintMaxBits A.loopCount + 1) ⟨0, 1, 1⟩ [] 1 hk (.inl ⟨rfl, by decide⟩)
  have hf : f = 0 := by
    rcases e5 with ⟨-, h⟩ | ⟨-, -, h⟩ | ⟨-, h | h⟩
    · omega
    · omega
    · exact h
    · omega
  have e4 := e4 cs (List.prefix_refl _)
  rw [List.length_nil] at e4
  simp only [blsReducedPairing, blsPairing, precomputeG1, e, Outcome.map, Outcome.bind, blsPrecomputeG2, toAffine_zero h, precompStep_eq,
    testBit_fun, e3, blsMillerLoop_eq A hn, e4, hf, LawfulInverse.inverseO_zero]

end Ate12
end Libff
