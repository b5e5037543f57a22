import Verif.Model.Pairing12
import Verif.Props.Cyclo
import Verif.Props.Ext

/-!
# Final exponentiation, embedding degree 12
-/
namespace Libff
set_option synthInstance.maxSize 2000

/-- The facts about the field and the Frobenius tables that the final exponentiation relies on. -/
structure Ate12.FrobOK {K : Type*} [Field K] [Fintype K] {β : K} {ξ : Fp2 K β} [Fact (¬ IsSquare β)] [Fact (∀ y : Fp2 K β, y * y * y ≠ ξ)]
    [Fact (¬ IsSquare (Cubic.gen : Fp6_3over2 K β ξ))] (A : Ate12 K β ξ) (q : ℕ) : Prop where
  prime : q.Prime
  card : Fintype.card K = q
  mod6 : q % 6 = 1
  nonsquare : ¬ IsSquare ξ
  frob : ∀ k x, A.frob k x = x ^ q ^ k

section
variable {K : Type*} [Field K] [Fintype K] {β : K} {ξ : Fp2 K β} [hβ : Fact (¬ IsSquare β)]
  [hξ : Fact (∀ y : Fp2 K β, y * y * y ≠ ξ)]
  [Fact (¬ IsSquare (Cubic.gen : Fp6_3over2 K β ξ))] {A : Ate12 K β ξ} {q : ℕ}

namespace Ate12.FrobOK

theorem charP (h : A.FrobOK q) : CharP K q := by
  haveI := Fact.mk h.prime
  obtain ⟨p, hp⟩ := CharP.exists K
  haveI := hp
  have hpp : p.Prime := CharP.char_is_prime K p
  obtain ⟨n, hp', hn⟩ := FiniteField.card K p
  rw [h.card] at hn
  have : p = q := ((Nat.prime_dvd_prime_iff_eq hpp h.prime).1 (hn ▸ dvd_pow_self p n.ne_zero))
  exact this ▸ hp

theorem csq (h : A.FrobOK q) {y : Fp12 K β ξ ξ} (hy : y ^ (q ^ 4 - q ^ 2 + 1) = 1) : Fp12.cyclotomicSquared y = y * y := by
  haveI := Fact.mk h.prime
  haveI := h.charP
  exact C22_fp12_cyclotomic_squared q h.card h.mod6 β ξ hβ.out (fun ⟨y, hy⟩ => hξ.out y hy) h.nonsquare y hy

theorem cexp (h : A.FrobOK q) {y : Fp12 K β ξ ξ} (hy : y ^ (q ^ 4 - q ^ 2 + 1) = 1) (e : List Limb) :
    cyclotomicExpBits Fp12.cyclotomicSquared y e = y ^ val e := by
  haveI := Fact.mk h.prime
  haveI := h.charP
  exact C22_fp12_cyclotomic_exp q h.card h.mod6 β ξ hβ.out (fun ⟨y, hy⟩ => hξ.out y hy) h.nonsquare y hy e

theorem uinv_mul (h : A.FrobOK q) {y : Fp12 K β ξ ξ} (hy : y ^ (q ^ 4 - q ^ 2 + 1) = 1) : y * y.unitaryInverse = 1 := by
  haveI := Fact.mk h.prime
  haveI := h.charP
  refine C22_fp12_unitary_inverse q h.card (by have := h.mod6; rintro rfl; omega) β ξ hβ.out
    (fun ⟨y, hy⟩ => hξ.out y hy) h.nonsquare y ?_
  rw [← phi12_mul, pow_mul, hy, one_pow]

theorem uinv (h : A.FrobOK q) {y : Fp12 K β ξ ξ} (hy : y ^ (q ^ 4 - q ^ 2 + 1) = 1) : y.unitaryInverse = y⁻¹ := by
  have := h.uinv_mul hy
  generalize y.unitaryInverse = z at this
  exact eq_inv_of_mul_eq_one_right this

theorem cyc_zpow {x : Fp12 K β ξ ξ} (hx : x ^ (q ^ 4 - q ^ 2 + 1) = 1) (n : ℤ) : (x ^ n) ^ (q ^ 4 - q ^ 2 + 1) = 1 := by
  rw [← zpow_natCast, ← zpow_mul, mul_comm, zpow_mul, zpow_natCast, hx, one_zpow]

theorem csq_zpow (h : A.FrobOK q) {x : Fp12 K β ξ ξ} (hx0 : x ≠ 0) (hx : x ^ (q ^ 4 - q ^ 2 + 1) = 1) (n : ℤ) :
    Fp12.cyclotomicSquared (x ^ n) = x ^ (2 * n) := by
  rw [h.csq (cyc_zpow hx n), ← zpow_add₀ hx0, two_mul]

theorem uinv_zpow (h : A.FrobOK q) {x : Fp12 K β ξ ξ} (hx : x ^ (q ^ 4 - q ^ 2 + 1) = 1) (n : ℤ) :
    (x ^ n).unitaryInverse = x ^ (-n) := by
  rw [h.uinv (cyc_zpow hx n), zpow_neg]

theorem cexp_zpow (h : A.FrobOK q) {x : Fp12 K β ξ ξ} (hx : x ^ (q ^ 4 - q ^ 2 + 1) = 1) (n : ℤ) (e : List Limb) :
    cyclotomicExpBits Fp12.cyclotomicSquared (x ^ n) e = x ^ (n * val e) := by
  rw [h.cexp (cyc_zpow hx n), ← zpow_natCast, ← zpow_mul]

theorem frob_zpow (h : A.FrobOK q) {x : Fp12 K β ξ ξ} (n : ℤ) (k : ℕ) : A.frob k (x ^ n) = x ^ (n * (q : ℤ) ^ k) := by
  rw [h.frob, ← zpow_natCast, ← zpow_mul, Nat.cast_pow]

end Ate12.FrobOK

namespace Ate12

/-- The parameter `z` of the curve, with its sign. -/
def zInt {K : Type*} [Add K] [Sub K] [Mul K] {β : K} {ξ : Fp2 K β} (A : Ate12 K β ξ) : ℤ := if A.zNeg then -(val A.z : ℤ) else val A.z

/-- The exponent of the last chunk of alt_bn128's final exponentiation, as the comment alt_bn128_pairing.cpp:162-165 has it. -/
def bnExponent (q z : ℤ) : ℤ :=
  q ^ 3 * (12 * z ^ 3 + 6 * z ^ 2 + 4 * z - 1) + q ^ 2 * (12 * z ^ 3 + 6 * z ^ 2 + 6 * z) +
    q * (12 * z ^ 3 + 6 * z ^ 2 + 4 * z) + (12 * z ^ 3 + 12 * z ^ 2 + 6 * z + 1)

/-- The exponent of the last chunk of bls12_381's final exponentiation, as the comment bls12_381_pairing.cpp:181 has it. -/
def blsExponent (q z : ℤ) : ℤ :=
  q ^ 3 * (z ^ 2 - 2 * z + 1) + q ^ 2 * (z ^ 3 - 2 * z ^ 2 + z) + q * (z ^ 4 - 2 * z ^ 3 + 2 * z - 1) +
    (z ^ 5 - 2 * z ^ 4 + 2 * z ^ 2 - z + 3)

theorem FrobOK.expByNegZ_zpow (h : A.FrobOK q) {x : Fp12 K β ξ ξ} (hx : x ^ (q ^ 4 - q ^ 2 + 1) = 1) (n : ℤ) :
    A.expByNegZ (x ^ n) = x ^ (n * -A.zInt) := by
  unfold expByNegZ zInt
  rw [h.cexp_zpow hx]
  cases A.zNeg
  · simp only [if_true, Bool.false_eq_true, if_false]
    rw [h.uinv_zpow hx, mul_neg]
  · simp only [Bool.true_eq_false, if_false, if_true, neg_neg]

theorem FrobOK.expByZ_zpow (h : A.FrobOK q) {x : Fp12 K β ξ ξ} (hx : x ^ (q ^ 4 - q ^ 2 + 1) = 1) (n : ℤ) :
    A.expByZ (x ^ n) = x ^ (n * A.zInt) := by
  unfold expByZ zInt
  rw [h.cexp_zpow hx]
  cases A.zNeg
  · simp only [Bool.false_eq_true, if_false]
  · simp only [if_true]
    rw [h.uinv_zpow hx, mul_neg]

theorem FrobOK.bnLastChunk_eq (h : A.FrobOK q) {x : Fp12 K β ξ ξ} (hx0 : x ≠ 0) (hx : x ^ (q ^ 4 - q ^ 2 + 1) = 1) :
    A.bnLastChunk x = x ^ bnExponent q A.zInt := by
  have key : A.bnLastChunk (x ^ (1 : ℤ)) = x ^ bnExponent q A.zInt := by
    unfold bnLastChunk
    simp only [h.expByNegZ_zpow hx, h.csq_zpow hx0 hx, h.uinv_zpow hx, h.frob_zpow, ← zpow_add₀ hx0]
    congr 1
    unfold bnExponent
    ring
  rwa [zpow_one] at key

theorem FrobOK.blsLastChunk_eq (h : A.FrobOK q) {x : Fp12 K β ξ ξ} (hx0 : x ≠ 0) (hx : x ^ (q ^ 4 - q ^ 2 + 1) = 1) :
    A.blsLastChunk x = x ^ blsExponent q A.zInt := by
  have key : A.blsLastChunk (x ^ (1 : ℤ)) = x ^ blsExponent q A.zInt := by
    unfold blsLastChunk
    simp only [h.expByZ_zpow hx, h.csq_zpow hx0 hx, h.uinv_zpow hx, h.frob_zpow, ← zpow_add₀ hx0]
    congr 1
    unfold blsExponent
    ring
  rwa [zpow_one] at key

theorem FrobOK.conj_eq (h : A.FrobOK q) (x : Fp12 K β ξ ξ) : (⟨x.c0, -x.c1⟩ : Fp12 K β ξ ξ) = x ^ q ^ 6 := by
  haveI := Fact.mk h.prime
  haveI := h.charP
  exact fp12_unitary_eq_pow q h.card (by have := h.mod6; rintro rfl; omega) β ξ hβ.out (fun ⟨y, hy⟩ => hξ.out y hy) h.nonsquare x

theorem FrobOK.cyc (h : A.FrobOK q) {x : Fp12 K β ξ ξ} (hx : x ≠ 0) :
    (x ^ ((q ^ 6 - 1) * (q ^ 2 + 1))) ^ (q ^ 4 - q ^ 2 + 1) = 1 := by
  haveI := Fact.mk h.prime
  haveI := h.charP
  exact C22_fp12_subgroup q h.card β ξ hβ.out (fun ⟨y, hy⟩ => hξ.out y hy) h.nonsquare x hx

variable [Squared K] [LawfulSquared K] [InverseO K] [LawfulInverse K]

theorem FrobOK.firstChunk_eq (h : A.FrobOK q) {x : Fp12 K β ξ ξ} (hx : x ≠ 0) :
    A.firstChunk x = .ok (x ^ ((q ^ 6 - 1) * (q ^ 2 + 1))) := by
  unfold firstChunk
  rw [LawfulInverse.inverseO_ne x hx, h.conj_eq, Outcome.map_ok]
  simp only [h.frob]
  have e : x ^ q ^ 6 * x⁻¹ = x ^ (q ^ 6 - 1) := by
    rw [pow_sub₀ x hx (Nat.one_le_pow _ _ h.prime.pos), pow_one]
  rw [e, ← pow_succ, ← pow_mul]

omit [Fintype K] in
theorem firstChunk_zero : A.firstChunk 0 = .abort := by
  unfold firstChunk
  rw [LawfulInverse.inverseO_zero]; rfl

end Ate12
end
end Libff
