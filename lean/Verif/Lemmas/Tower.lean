import Verif.Lemmas.Cubic
import Verif.Lemmas.FpType
import Mathlib.FieldTheory.Finite.Basic

namespace Libff

/-! ## The prime field as coefficient field -/

namespace Fp
variable {P : FpParams} [hP : Fact P.Valid]

/-- `squared()` (fp.tcc:644-669). -/
instance : Squared (Fp P) := ⟨fun x => ofOutcome (sqRepr P x.repr)
  (ofOutcome_represents (Represents.mul hP.out x.represents x.represents))⟩

instance : LawfulSquared (Fp P) where
  squared_eq _ := rfl

/-- `inverse()` (fp.tcc:671-729). -/
instance : InverseO (Fp P) := ⟨fun x =>
  (invertRepr P refGcdext x.repr).bind fun r =>
    if h : r.length = P.n ∧ val r < P.p then .ok ⟨r, h.1, h.2⟩ else .ub⟩

variable [hp : Fact P.p.Prime]

instance : LawfulInverse (Fp P) where
  inverseO_zero := by
    have h : invertRepr P refGcdext (0 : Fp P).repr = .abort := by
      have hz : limbsIsZero (0 : Fp P).repr = true :=
        (Represents.isZero hP.out (Represents.zero hP.out)).2 rfl
      unfold invertRepr
      rw [if_pos hz]
    change (invertRepr P refGcdext (0 : Fp P).repr).bind _ = _
    rw [h]; rfl
  inverseO_ne x hx := by
    have h : invertRepr P refGcdext x.repr = .ok (x⁻¹).repr := by
      change _ = Outcome.ok (if h : x = 0 then 0 else _ : Fp P).repr
      rw [dif_neg hx]
      exact ofOutcome_repr _ _
    change (invertRepr P refGcdext x.repr).bind _ = _
    rw [h, Outcome.bind_ok, dif_pos ⟨(x⁻¹).len, (x⁻¹).lt⟩]

end Fp

/-! ## Non-residues of the towers -/

section Tower
variable {K : Type*} [CommRing K]

instance instMulBy4 (β : K) : MulBy (fp4nr (β := β) β) (Quad.gen : Fp2 K β) where
  mulBy x := by ext <;> simp [fp4nr]

instance instMulBy6 (β : K) : MulBy (fp6nr (β := β) β) (Cubic.gen : Fp3 K β) where
  mulBy x := by ext <;> simp [fp6nr]

instance instMulBy12 (β : K) (ξ : Fp2 K β) :
    MulBy (fp12nr (ξ := ξ) ξ) (Cubic.gen : Fp6_3over2 K β ξ) where
  mulBy x := by
    unfold fp12nr
    apply Cubic.ext
    · simp only [Cubic.mul_c0, Cubic.gen_c0, Cubic.gen_c1, Cubic.gen_c2]; ring
    · simp only [Cubic.mul_c1, Cubic.gen_c0, Cubic.gen_c1, Cubic.gen_c2]; ring
    · simp only [Cubic.mul_c2, Cubic.gen_c0, Cubic.gen_c1, Cubic.gen_c2]; ring

end Tower

section Irreducible
variable {K : Type*} [Field K]

/-- In `K[u]/(u²-β)`, `u` is no square if `-β` is none in `K`. -/
theorem not_isSquare_gen2 (nr : K → K) (β : K) [MulBy nr β] (h : ¬ IsSquare (-β)) :
    ¬ IsSquare (Quad.gen : Quad K nr) := by
  rintro ⟨y, hy⟩
  apply h
  have h0 := congrArg Quad.c0 hy
  have h1 := congrArg Quad.c1 hy
  simp at h0 h1
  refine ⟨y.c0 * y.c0 - β * (y.c1 * y.c1), ?_⟩
  linear_combination (- β * (y.c0 * y.c1 + y.c1 * y.c0) - β) * h1
    + (y.c0 * y.c0 + β * (y.c1 * y.c1)) * h0

/-- In `K[u]/(u²-β)`, `x` is no square if its norm is none in `K`. -/
theorem not_isSquare_of_norm (nr : K → K) (β : K) [MulBy nr β] (x : Quad K nr)
    (h : ¬ IsSquare (x.c0 * x.c0 - β * (x.c1 * x.c1))) : ¬ IsSquare x := by
  rintro ⟨y, hy⟩
  apply h
  refine ⟨y.c0 * y.c0 - β * (y.c1 * y.c1), ?_⟩
  rw [hy]
  simp
  ring

/-- In `K[u]/(u³-β)`, `u` is no square if `β` is none in `K`. -/
theorem not_isSquare_gen3 (nr : K → K) (β : K) [MulBy nr β] (h : ¬ IsSquare β) :
    ¬ IsSquare (Cubic.gen : Cubic K nr) := by
  rintro ⟨y, hy⟩
  apply h
  have h0 := congrArg Cubic.c0 hy
  have h1 := congrArg Cubic.c1 hy
  have h2 := congrArg Cubic.c2 hy
  simp at h0 h1 h2
  refine ⟨y.c0 * y.c0 * y.c0 + β * (y.c1 * y.c1 * y.c1) + β * β * (y.c2 * y.c2 * y.c2)
    - 3 * β * (y.c0 * y.c1 * y.c2), ?_⟩
  have key : ∀ a b c : K, (a * a * a + β * (b * b * b) + β * β * (c * c * c) - 3 * β * (a * b * c)) *
      (a * a * a + β * (b * b * b) + β * β * (c * c * c) - 3 * β * (a * b * c)) =
      (a * a + β * (b * c + c * b)) ^ 3 + β * (a * b + b * a + β * (c * c)) ^ 3 +
      β * β * (a * c + b * b + c * a) ^ 3 - 3 * β * ((a * a + β * (b * c + c * b)) *
        (a * b + b * a + β * (c * c)) * (a * c + b * b + c * a)) := by
    intro a b c; ring
  rw [key, ← h0, ← h1, ← h2]
  ring

end Irreducible

/-! ## Frobenius -/

section Frob
variable {K : Type*}

/-- If the coefficient map is the Frobenius power and the coefficient is the right one, the map on
pairs is the Frobenius power. -/
theorem Quad.pow_char_pow [CommRing K] {nr : K → K} {β : K} [MulBy nr β] (p : ℕ) [Fact p.Prime]
    [CharP K p] (k : ℕ) (x : Quad K nr) (c : K)
    (hc : ofBase c * (gen : Quad K nr) = gen ^ p ^ k) :
    x ^ p ^ k = ⟨x.c0 ^ p ^ k, c * x.c1 ^ p ^ k⟩ := by
  conv_lhs => rw [eq_ofBase_add x]
  rw [add_pow_char_pow, mul_pow, ← hc, ← map_pow, ← map_pow]
  ext <;> simp [-map_pow, mul_comm]

theorem Cubic.pow_char_pow [CommRing K] {nr : K → K} {β : K} [MulBy nr β] (p : ℕ) [Fact p.Prime]
    [CharP K p] (k : ℕ) (x : Cubic K nr) (c1 c2 : K)
    (hc1 : ofBase c1 * (gen : Cubic K nr) = gen ^ p ^ k)
    (hc2 : ofBase c2 * ((gen : Cubic K nr) * gen) = (gen * gen) ^ p ^ k) :
    x ^ p ^ k = ⟨x.c0 ^ p ^ k, c1 * x.c1 ^ p ^ k, c2 * x.c2 ^ p ^ k⟩ := by
  conv_lhs => rw [eq_ofBase_add x]
  rw [add_pow_char_pow, add_pow_char_pow, mul_pow, mul_pow, ← hc1, ← hc2, ← map_pow, ← map_pow,
    ← map_pow]
  ext <;> simp [-map_pow, mul_comm]

theorem Quad.gen_pow [CommRing K] {nr : K → K} {β : K} [MulBy nr β] (m : ℕ) :
    (gen : Quad K nr) ^ (2 * m + 1) = ofBase (β ^ m) * gen := by
  rw [pow_succ, pow_mul, pow_two, gen_sq, map_pow]

theorem Cubic.gen_pow [CommRing K] {nr : K → K} {β : K} [MulBy nr β] (m : ℕ) :
    (gen : Cubic K nr) ^ (3 * m) = ofBase (β ^ m) := by
  rw [pow_mul, pow_succ, pow_two, gen_cube, map_pow]

/-- In a finite field with `p^m` elements the Frobenius powers have period `m`. -/
theorem pow_char_pow_mod {L : Type*} [Field L] [Fintype L] (p m : ℕ)
    (hc : Fintype.card L = p ^ m) (k : ℕ) (x : L) : x ^ p ^ (k % m) = x ^ p ^ k := by
  conv_rhs => rw [← Nat.div_add_mod k m, pow_add, pow_mul, pow_mul, ← hc]
  rw [FiniteField.pow_card_pow]

theorem pow_char_pow_prime {L : Type*} [Field L] [Fintype L] (p : ℕ)
    (hc : Fintype.card L = p) (k : ℕ) (x : L) : x ^ p ^ k = x := by
  rw [← hc]; exact FiniteField.pow_card_pow k x

theorem dvd_pow_sub_one (p n k : ℕ) (h : p % n = 1 % n) (hp : 0 < p) :
    p ^ k = n * ((p ^ k - 1) / n) + 1 := by
  have h1 : n ∣ p ^ k - 1 := by
    have : p ^ k ≡ 1 ^ k [MOD n] := Nat.ModEq.pow k h
    rw [one_pow] at this
    exact (Nat.modEq_iff_dvd' (Nat.one_le_pow _ _ hp)).1 this.symm
  rw [Nat.mul_div_cancel' h1]
  have := Nat.one_le_pow k p hp
  omega

theorem Quad.frobMap_eq [Field K] [Fintype K] (p : ℕ) [Fact p.Prime] [CharP K p] {nr : K → K} {β : K}
    [MulBy nr β] [Fact (¬ IsSquare β)] {L : Type*} (fK : Nat → K → K) (mul : L → K → K) (ι : L → K)
    (hmul : ∀ c y, mul c y = ι c * y) (hfK : ∀ k y, fK k y = y ^ p ^ k) (m : ℕ) (hm : 0 < m)
    (hcard : Fintype.card (Quad K nr) = p ^ m) (coeff : Nat → L)
    (hc : ∀ i < m, ofBase (ι (coeff i)) * (gen : Quad K nr) = gen ^ p ^ i) (k : Nat)
    (x : Quad K nr) : frobMap fK mul m coeff k x = x ^ p ^ k := by
  unfold frobMap
  rw [Quad.pow_char_pow p k x (ι (coeff (k % m))), hmul, hfK, hfK]
  rw [hc _ (Nat.mod_lt _ hm)]
  exact pow_char_pow_mod p m hcard k _

theorem Cubic.frobMap_eq [Field K] [Fintype K] (p : ℕ) [Fact p.Prime] [CharP K p] {nr : K → K} {β : K}
    [MulBy nr β] [Fact (∀ y : K, y * y * y ≠ β)] {L : Type*} (fK : Nat → K → K) (mul : L → K → K)
    (ι : L → K) (hmul : ∀ c y, mul c y = ι c * y) (hfK : ∀ k y, fK k y = y ^ p ^ k) (m : ℕ) (hm : 0 < m)
    (hcard : Fintype.card (Cubic K nr) = p ^ m) (coeff1 coeff2 : Nat → L)
    (hc1 : ∀ i < m, ofBase (ι (coeff1 i)) * (gen : Cubic K nr) = gen ^ p ^ i)
    (hc2 : ∀ i < m, ofBase (ι (coeff2 i)) * ((gen : Cubic K nr) * gen) = (gen * gen) ^ p ^ i) (k : Nat)
    (x : Cubic K nr) : frobMap fK mul m coeff1 coeff2 k x = x ^ p ^ k := by
  unfold frobMap
  rw [Cubic.pow_char_pow p k x (ι (coeff1 (k % m))) (ι (coeff2 (k % m))), hmul, hmul, hfK, hfK, hfK]
  · rw [hc1 _ (Nat.mod_lt _ hm)]
    exact pow_char_pow_mod p m hcard k _
  · rw [hc2 _ (Nat.mod_lt _ hm)]
    exact pow_char_pow_mod p m hcard k _

theorem Quad.gen_pow4 [CommRing K] {β : K} (m : ℕ) :
    (gen : Fp4 K β β) ^ (4 * m + 1) = ofBase (ofBase (β ^ m)) * gen := by
  rw [show 4 * m + 1 = 2 * (2 * m) + 1 by ring, gen_pow, pow_mul, pow_two, gen_sq, ← map_pow]

theorem Quad.gen_pow6 [CommRing K] {β : K} (m : ℕ) :
    (gen : Fp6_2over3 K β β) ^ (6 * m + 1) = ofBase (Cubic.ofBase (β ^ m)) * gen := by
  rw [show 6 * m + 1 = 2 * (3 * m) + 1 by ring, gen_pow, Cubic.gen_pow]

theorem Quad.gen_pow12 [CommRing K] {β : K} {ξ : Fp2 K β} (m : ℕ) :
    (gen : Fp12 K β ξ ξ) ^ (6 * m + 1) = ofBase (Cubic.ofBase (ξ ^ m)) * gen := by
  rw [show 6 * m + 1 = 2 * (3 * m) + 1 by ring, gen_pow, Cubic.gen_pow]

end Frob
end Libff
