import Verif.Lemmas.Cyclo
import Verif.Lemmas.Witness

/-!
# C22: the cyclotomic subgroup

`K` is the prime field with `p` elements. The subgroup of `Fp4` is `x^(p²+1) = 1`, that of `Fp6_2over3` is
`x^(p²-p+1) = 1`, that of `Fp12` is `x^(p⁴-p²+1) = 1` (the cyclotomic polynomials Φ₄(p), Φ₆(p), Φ₁₂(p)).
-/
namespace Libff
set_option synthInstance.maxSize 2000

section
variable {K : Type*} [Field K] [Fintype K] (p : ℕ) [hp : Fact p.Prime] [CharP K p]

/-! ## Fp4 -/

theorem fp4_unitary_eq_pow (hcard : Fintype.card K = p) (hp2 : p ≠ 2) (β : K)
    (hβ : ¬ IsSquare β) (hβ' : ¬ IsSquare (-β)) (x : Fp4 K β β) : x.unitaryInverse = x ^ p ^ 2 := by
  haveI : Fact (¬ IsSquare β) := ⟨hβ⟩
  exact Quad.unitaryInverse_eq_pow p 2 hp2 (by rw [Quad.card, hcard]) (not_isSquare_gen2 _ β hβ') x

/-- **C22.** `Fp4::unitary_inverse` inverts every element of the cyclotomic subgroup. -/
theorem C22_fp4_unitary_inverse (hcard : Fintype.card K = p) (hp2 : p ≠ 2) (β : K)
    (hβ : ¬ IsSquare β) (hβ' : ¬ IsSquare (-β)) (x : Fp4 K β β) (hx : x ^ (p ^ 2 + 1) = 1) :
    x * x.unitaryInverse = 1 := by
  rw [fp4_unitary_eq_pow p hcard hp2 β hβ hβ', ← pow_succ', hx]

/-- **C22.** `Fp4::cyclotomic_squared` squares every element of the cyclotomic subgroup. -/
theorem C22_fp4_cyclotomic_squared (hcard : Fintype.card K = p) (hp2 : p ≠ 2) (β : K)
    (hβ : ¬ IsSquare β) (hβ' : ¬ IsSquare (-β)) (x : Fp4 K β β) (hx : x ^ (p ^ 2 + 1) = 1) :
    x.cyclotomicSquared4 = x * x := by
  have h := C22_fp4_unitary_inverse p hcard hp2 β hβ hβ' x hx
  have h0 : x.c0 * x.c0 - Quad.gen * (x.c1 * x.c1) = 1 := by
    have := congrArg Quad.c0 h
    simp only [Quad.unitaryInverse, Quad.mul_c0, Quad.one_c0] at this
    linear_combination this
  apply Quad.ext <;>
    simp only [Quad.cyclotomicSquared4, LawfulSquared.squared_eq, MulBy.mulBy, Quad.mul_c0, Quad.mul_c1]
  · linear_combination -h0
  · linear_combination h0

/-- **C22.** `Fp4::cyclotomic_exp` is exponentiation on the cyclotomic subgroup, for every exponent whose
recoding does not overflow. -/
theorem C22_fp4_cyclotomic_exp (hcard : Fintype.card K = p) (hp2 : p ≠ 2) (β : K)
    (hβ : ¬ IsSquare β) (hβ' : ¬ IsSquare (-β)) (x : Fp4 K β β) (hx : x ^ (p ^ 2 + 1) = 1)
    (e : List Limb) (he : val e + 2 ≤ 2 ^ (64 * e.length)) :
    cyclotomicExpNaf Quad.cyclotomicSquared4 x e = .ok (x ^ val e) := by
  haveI : Fact (¬ IsSquare β) := ⟨hβ⟩
  haveI : Fact (¬ IsSquare (Quad.gen : Fp2 K β)) := ⟨not_isSquare_gen2 _ β hβ'⟩
  have h := C22_fp4_unitary_inverse p hcard hp2 β hβ hβ' x hx
  obtain ⟨ds, h1, -, h3, h4, -⟩ := findWnaf_spec 1 le_rfl (by norm_num) e he
  have hx0 : x ≠ 0 := by rintro rfl; simp at hx
  have hinv : x.unitaryInverse = x⁻¹ := eq_inv_of_mul_eq_one_right h
  have hsq : ∀ n : Int, Quad.cyclotomicSquared4 (x ^ n) = x ^ n * x ^ n := by
    intro n
    apply C22_fp4_cyclotomic_squared p hcard hp2 β hβ hβ'
    rw [← zpow_natCast, ← zpow_mul, mul_comm, zpow_mul, zpow_natCast, hx, one_zpow]
  have := nafExpLoop_eq Quad.cyclotomicSquared4 x hx0 hsq ds.reverse (fun d hd => by
    rcases h4 d (List.mem_reverse.1 hd) with h | ⟨h, h'⟩
    · exact Or.inl h
    · rw [abs_lt] at h'; omega) 0 false (fun _ => rfl)
  rw [zpow_zero, foldl_reverse_digits, h3, zpow_natCast] at this
  rw [cyclotomicExpNaf, h1, Outcome.map_ok, hinv, this]

/-- **C22.** The subgroup is what the pairing code produces: `y^(p²−1)` is in it for every `y ≠ 0`. -/
theorem C22_fp4_subgroup (hcard : Fintype.card K = p) (β : K)
    (hβ : ¬ IsSquare β) (hβ' : ¬ IsSquare (-β)) (y : Fp4 K β β) (hy : y ≠ 0) :
    (y ^ (p ^ 2 - 1)) ^ (p ^ 2 + 1) = 1 := by
  haveI : Fact (¬ IsSquare β) := ⟨hβ⟩
  haveI : Fact (¬ IsSquare (Quad.gen : Fp2 K β)) := ⟨not_isSquare_gen2 _ β hβ'⟩
  have hc : Fintype.card (Fp4 K β β) - 1 = (p ^ 2 - 1) * (p ^ 2 + 1) := by
    rw [Quad.card, Quad.card, hcard, mul_comm, ← Nat.sq_sub_sq (p ^ 2) 1, one_pow]
  rw [← pow_mul, ← hc]
  exact FiniteField.pow_card_sub_one_eq_one y hy

/-! ## Fp6_2over3 -/

theorem fp6_unitary_eq_pow (hcard : Fintype.card K = p) (hp2 : p ≠ 2) (β : K)
    (hβ : ¬ IsSquare β) (hβ' : ¬ ∃ y, y ^ 3 = β) (x : Fp6_2over3 K β β) :
    x.unitaryInverse = x ^ p ^ 3 := by
  haveI : Fact (∀ y : K, y * y * y ≠ β) := ⟨fun y hy => hβ' ⟨y, by rw [← hy]; ring⟩⟩
  exact Quad.unitaryInverse_eq_pow p 3 hp2 (by rw [Cubic.card, hcard]) (not_isSquare_gen3 _ β hβ) x

theorem phi6_mul (p : ℕ) : (p ^ 2 - p + 1) * (p + 1) = p ^ 3 + 1 := by
  have : p ≤ p ^ 2 := by rw [pow_two]; exact Nat.le_mul_self p
  zify [this]; ring

theorem phi12_mul (p : ℕ) : (p ^ 4 - p ^ 2 + 1) * (p ^ 2 + 1) = p ^ 6 + 1 := by
  have : p ^ 2 ≤ p ^ 4 := by rw [show p ^ 4 = p ^ 2 * p ^ 2 by ring]; exact Nat.le_mul_self _
  zify [this]; ring

/-- **C22.** `Fp6_2over3::unitary_inverse` inverts every element of the cyclotomic subgroup. -/
theorem C22_fp6_2over3_unitary_inverse (hcard : Fintype.card K = p) (hp2 : p ≠ 2) (β : K)
    (hβ : ¬ IsSquare β) (hβ' : ¬ ∃ y, y ^ 3 = β) (x : Fp6_2over3 K β β)
    (hx : x ^ (p ^ 2 - p + 1) = 1) : x * x.unitaryInverse = 1 := by
  rw [fp6_unitary_eq_pow p hcard hp2 β hβ hβ', ← pow_succ', ← phi6_mul, pow_mul, hx, one_pow]

/-- **C22.** `Fp6_2over3::cyclotomic_squared` squares every element of the cyclotomic subgroup
(`my_Fp2::non_residue` being the non-residue `β` of `Fp3`, as in mnt6 and edwards). -/
theorem C22_fp6_2over3_cyclotomic_squared (hcard : Fintype.card K = p) (hp6 : p % 6 = 1) (β : K)
    (hβ : ¬ IsSquare β) (hβ' : ¬ ∃ y, y ^ 3 = β) (x : Fp6_2over3 K β β)
    (hx : x ^ (p ^ 2 - p + 1) = 1) : Fp6_2over3.cyclotomicSquared β x = x * x := by
  rw [cyclo_square_of_pow p 1 (by rwa [pow_one]) (by rwa [pow_one]) hβ hβ' x (by
    rw [pow_one, ← pow_two]; exact hx)]
  unfold Fp6_2over3.cyclotomicSquared
  simp only [LawfulSquared.squared_eq, Quad.mul_c0, Quad.mul_c1]
  congr 2 <;> ring

/-- **C22.** `Fp6_2over3::cyclotomic_exp` is exponentiation on the cyclotomic subgroup. -/
theorem C22_fp6_2over3_cyclotomic_exp (hcard : Fintype.card K = p) (hp6 : p % 6 = 1) (β : K)
    (hβ : ¬ IsSquare β) (hβ' : ¬ ∃ y, y ^ 3 = β) (x : Fp6_2over3 K β β)
    (hx : x ^ (p ^ 2 - p + 1) = 1) (e : List Limb) (he : val e + 2 ≤ 2 ^ (64 * e.length)) :
    cyclotomicExpNaf (Fp6_2over3.cyclotomicSquared β) x e = .ok (x ^ val e) := by
  haveI : Fact (∀ y : K, y * y * y ≠ β) := ⟨fun y hy => hβ' ⟨y, by rw [← hy]; ring⟩⟩
  haveI : Fact (¬ IsSquare (Cubic.gen : Fp3 K β)) := ⟨not_isSquare_gen3 _ β hβ⟩
  have h := C22_fp6_2over3_unitary_inverse p hcard (by omega) β hβ hβ' x hx
  obtain ⟨ds, h1, -, h3, h4, -⟩ := findWnaf_spec 1 le_rfl (by norm_num) e he
  have hx0 : x ≠ 0 := by rintro rfl; simp at hx
  have hinv : x.unitaryInverse = x⁻¹ := eq_inv_of_mul_eq_one_right h
  have hsq : ∀ n : Int, Fp6_2over3.cyclotomicSquared β (x ^ n) = x ^ n * x ^ n := by
    intro n
    apply C22_fp6_2over3_cyclotomic_squared p hcard hp6 β hβ hβ'
    rw [← zpow_natCast, ← zpow_mul, mul_comm, zpow_mul, zpow_natCast, hx, one_zpow]
  have := nafExpLoop_eq (Fp6_2over3.cyclotomicSquared β) x hx0 hsq ds.reverse (fun d hd => by
    rcases h4 d (List.mem_reverse.1 hd) with h | ⟨h, h'⟩
    · exact Or.inl h
    · rw [abs_lt] at h'; omega) 0 false (fun _ => rfl)
  rw [zpow_zero, foldl_reverse_digits, h3, zpow_natCast] at this
  rw [cyclotomicExpNaf, h1, Outcome.map_ok, hinv, this]

/-- **C22.** `y^((p³−1)(p+1))` is in the subgroup for every `y ≠ 0`. -/
theorem C22_fp6_2over3_subgroup (hcard : Fintype.card K = p) (β : K)
    (hβ : ¬ IsSquare β) (hβ' : ¬ ∃ y, y ^ 3 = β) (y : Fp6_2over3 K β β) (hy : y ≠ 0) :
    (y ^ ((p ^ 3 - 1) * (p + 1))) ^ (p ^ 2 - p + 1) = 1 := by
  haveI : Fact (∀ y : K, y * y * y ≠ β) := ⟨fun y hy => hβ' ⟨y, by rw [← hy]; ring⟩⟩
  haveI : Fact (¬ IsSquare (Cubic.gen : Fp3 K β)) := ⟨not_isSquare_gen3 _ β hβ⟩
  have hc : Fintype.card (Fp6_2over3 K β β) - 1 = (p ^ 3 - 1) * (p + 1) * (p ^ 2 - p + 1) := by
    rw [Quad.card, Cubic.card, hcard, mul_assoc, mul_comm (p + 1), phi6_mul, mul_comm,
      ← Nat.sq_sub_sq (p ^ 3) 1, one_pow]
  rw [← pow_mul, ← hc]
  exact FiniteField.pow_card_sub_one_eq_one y hy

/-! ## Fp12 -/

theorem fp12_unitary_eq_pow (hcard : Fintype.card K = p) (hp2 : p ≠ 2) (β : K) (ξ : Fp2 K β)
    (hβ : ¬ IsSquare β) (hξ : ¬ ∃ y, y * y * y = ξ) (hξ' : ¬ IsSquare ξ) (x : Fp12 K β ξ ξ) :
    x.unitaryInverse = x ^ p ^ 6 := by
  haveI : Fact (¬ IsSquare β) := ⟨hβ⟩
  haveI : Fact (∀ y : Fp2 K β, y * y * y ≠ ξ) := ⟨fun y hy => hξ ⟨y, hy⟩⟩
  exact Quad.unitaryInverse_eq_pow p 6 hp2 (by rw [Cubic.card, Quad.card, hcard]; ring)
    (not_isSquare_gen3 _ ξ hξ') x

/-- **C22.** `Fp12::unitary_inverse` inverts every element of the cyclotomic subgroup (and more: every
element with `x^(p⁶+1) = 1`). -/
theorem C22_fp12_unitary_inverse (hcard : Fintype.card K = p) (hp2 : p ≠ 2) (β : K) (ξ : Fp2 K β)
    (hβ : ¬ IsSquare β) (hξ : ¬ ∃ y, y * y * y = ξ) (hξ' : ¬ IsSquare ξ) (x : Fp12 K β ξ ξ)
    (hx : x ^ (p ^ 6 + 1) = 1) : x * x.unitaryInverse = 1 := by
  rw [fp12_unitary_eq_pow p hcard hp2 β ξ hβ hξ hξ', ← pow_succ', hx]

/-- **C22.** `Fp12::cyclotomic_squared` squares every element of the cyclotomic subgroup. -/
theorem C22_fp12_cyclotomic_squared (hcard : Fintype.card K = p) (hp6 : p % 6 = 1) (β : K)
    (ξ : Fp2 K β) (hβ : ¬ IsSquare β) (hξ : ¬ ∃ y, y * y * y = ξ) (hξ' : ¬ IsSquare ξ)
    (x : Fp12 K β ξ ξ) (hx : x ^ (p ^ 4 - p ^ 2 + 1) = 1) : Fp12.cyclotomicSquared x = x * x := by
  haveI : Fact (¬ IsSquare β) := ⟨hβ⟩
  rw [cyclo_square_of_pow p 2 (by rw [Nat.pow_mod, hp6]) (by rw [Quad.card, hcard]) hξ'
    (fun ⟨y, hy⟩ => hξ ⟨y, by rw [← hy]; ring⟩) x (by
      rw [show p ^ 2 * p ^ 2 = p ^ 4 by ring]; exact hx)]
  unfold Fp12.cyclotomicSquared
  simp only
  congr 2 <;> ring

/-- **C22.** `Fp12::cyclotomic_exp` is exponentiation on the cyclotomic subgroup, for every exponent. -/
theorem C22_fp12_cyclotomic_exp (hcard : Fintype.card K = p) (hp6 : p % 6 = 1) (β : K)
    (ξ : Fp2 K β) (hβ : ¬ IsSquare β) (hξ : ¬ ∃ y, y * y * y = ξ) (hξ' : ¬ IsSquare ξ)
    (x : Fp12 K β ξ ξ) (hx : x ^ (p ^ 4 - p ^ 2 + 1) = 1) (e : List Limb) :
    cyclotomicExpBits Fp12.cyclotomicSquared x e = x ^ val e := by
  apply cyclotomicExpBits_eq
  intro n
  apply C22_fp12_cyclotomic_squared p hcard hp6 β ξ hβ hξ hξ'
  rw [← pow_mul, mul_comm, pow_mul, hx, one_pow]

/-- **C22.** `y^((p⁶−1)(p²+1))` is in the subgroup for every `y ≠ 0`. -/
theorem C22_fp12_subgroup (hcard : Fintype.card K = p) (β : K) (ξ : Fp2 K β)
    (hβ : ¬ IsSquare β) (hξ : ¬ ∃ y, y * y * y = ξ) (hξ' : ¬ IsSquare ξ)
    (y : Fp12 K β ξ ξ) (hy : y ≠ 0) :
    (y ^ ((p ^ 6 - 1) * (p ^ 2 + 1))) ^ (p ^ 4 - p ^ 2 + 1) = 1 := by
  haveI : Fact (¬ IsSquare β) := ⟨hβ⟩
  haveI : Fact (∀ y : Fp2 K β, y * y * y ≠ ξ) := ⟨fun y hy => hξ ⟨y, hy⟩⟩
  haveI : Fact (¬ IsSquare (Cubic.gen : Fp6_3over2 K β ξ)) := ⟨not_isSquare_gen3 _ ξ hξ'⟩
  have hc : Fintype.card (Fp12 K β ξ ξ) - 1 = (p ^ 6 - 1) * (p ^ 2 + 1) * (p ^ 4 - p ^ 2 + 1) := by
    rw [Quad.card, Cubic.card, Quad.card, hcard, mul_assoc, mul_comm (p ^ 2 + 1), phi12_mul, mul_comm,
      ← Nat.sq_sub_sq (p ^ 6) 1, one_pow]
    congr 1; ring
  rw [← pow_mul, ← hc]
  exact FiniteField.pow_card_sub_one_eq_one y hy

end

/-! ## Witnesses, and what happens outside the subgroup -/
section Witness
open Witness

/-- **C22.** Outside the subgroup the shortcuts compute something else: in `Fp4` over the field with 5
elements, `cyclotomic_squared` of 2 is not 4 and `unitary_inverse` of 2 is not an inverse. -/
theorem C22_fails_outside :
    (Quad.cyclotomicSquared4 (⟨⟨2, 0⟩, ⟨0, 0⟩⟩ : Fp4 (ZMod 5) 2 2) ≠ ⟨⟨2, 0⟩, ⟨0, 0⟩⟩ * ⟨⟨2, 0⟩, ⟨0, 0⟩⟩) ∧
    ((⟨⟨2, 0⟩, ⟨0, 0⟩⟩ : Fp4 (ZMod 5) 2 2) * Quad.unitaryInverse ⟨⟨2, 0⟩, ⟨0, 0⟩⟩ ≠ 1) ∧
    (Fp6_2over3.cyclotomicSquared 3 (⟨⟨2, 0, 0⟩, ⟨0, 0, 0⟩⟩ : Fp6_2over3 (ZMod 7) 3 3) ≠
      ⟨⟨2, 0, 0⟩, ⟨0, 0, 0⟩⟩ * ⟨⟨2, 0, 0⟩, ⟨0, 0, 0⟩⟩) ∧
    (Fp12.cyclotomicSquared (⟨⟨⟨2, 0⟩, 0, 0⟩, ⟨0, 0, 0⟩⟩ : Fp12 (ZMod 7) 6 ⟨2, 1⟩ ⟨2, 1⟩) ≠
      ⟨⟨⟨2, 0⟩, 0, 0⟩, ⟨0, 0, 0⟩⟩ * ⟨⟨⟨2, 0⟩, 0, 0⟩, ⟨0, 0, 0⟩⟩) := by
  decide +kernel

/-- Nontrivial elements of the subgroups. -/
example : ∃ x : Fp4 (ZMod 5) 2 2, x ^ (5 ^ 2 + 1) = 1 ∧ x.c0.c0 ≠ 0 ∧ x.c1.c0 ≠ 0 :=
  ⟨⟨⟨1, 2⟩, ⟨3, 1⟩⟩ ^ (5 ^ 2 - 1), by decide +kernel, by decide +kernel⟩
example : (⟨⟨6, 5, 5⟩, ⟨3, 6, 0⟩⟩ : Fp6_2over3 (ZMod 7) 3 3) ^ (7 ^ 2 - 7 + 1) = 1 := by decide +kernel
example : (⟨⟨⟨3, 6⟩, ⟨1, 1⟩, ⟨4, 3⟩⟩, ⟨⟨5, 2⟩, ⟨6, 5⟩, ⟨1, 4⟩⟩⟩ : Fp12 (ZMod 7) 6 ⟨2, 1⟩ ⟨2, 1⟩) ^
    (7 ^ 4 - 7 ^ 2 + 1) = 1 := by
  have h := powerBigint_eq
    (⟨⟨⟨3, 6⟩, ⟨1, 1⟩, ⟨4, 3⟩⟩, ⟨⟨5, 2⟩, ⟨6, 5⟩, ⟨1, 4⟩⟩⟩ : Fp12 (ZMod 7) 6 ⟨2, 1⟩ ⟨2, 1⟩) [2353]
  rw [show 7 ^ 4 - 7 ^ 2 + 1 = val [2353] by decide, ← h]
  decide +kernel

end Witness
end Libff
