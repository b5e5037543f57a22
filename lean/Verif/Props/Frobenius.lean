import Verif.Props.Ext

/-! # C23: Frobenius maps -/
namespace Libff
set_option synthInstance.maxSize 2000

section
variable {K : Type*} [Field K] [Fintype K] (p : ℕ) [hp : Fact p.Prime] [CharP K p]

/-- C23. `Fp2::Frobenius_map(k)` is `x ↦ x^(p^k)` for every `k`, when `Frobenius_coeffs_c1[i]` is
`β^((p^i-1)/2)` for `i = 0, 1`. -/
theorem C23_fp2_frobenius (hcard : Fintype.card K = p) (hodd : p % 2 = 1) (β : K)
    (hβ : ¬ IsSquare β) (c : Nat → K) (hc : ∀ i < 2, c i = β ^ ((p ^ i - 1) / 2)) (k : Nat)
    (x : Fp2 K β) : Fp2.frobeniusMap c k x = x ^ p ^ k := by
  haveI : Fact (¬ IsSquare β) := ⟨hβ⟩
  have hcard2 : Fintype.card (Fp2 K β) = p ^ 2 := by rw [Quad.card, hcard]
  unfold Fp2.frobeniusMap
  refine Quad.frobMap_eq p _ _ id (fun _ _ => rfl) (fun k y => (pow_char_pow_prime p hcard k y).symm) 2
    (by norm_num) hcard2 c (fun i hi => ?_) k x
  rw [id, hc i hi, ← Quad.gen_pow, ← dvd_pow_sub_one p 2 i hodd hp.out.pos]

/-- C23. `Fp3`: `Frobenius_coeffs_c1[i] = β^((p^i-1)/3)`, `Frobenius_coeffs_c2[i] = β^(2(p^i-1)/3)`. -/
theorem C23_fp3_frobenius (hcard : Fintype.card K = p) (hp3 : p % 3 = 1) (β : K)
    (hβ : ¬ ∃ y, y ^ 3 = β) (c1 c2 : Nat → K) (hc1 : ∀ i < 3, c1 i = β ^ ((p ^ i - 1) / 3))
    (hc2 : ∀ i < 3, c2 i = β ^ (2 * ((p ^ i - 1) / 3))) (k : Nat)
    (x : Fp3 K β) : Fp3.frobeniusMap c1 c2 k x = x ^ p ^ k := by
  haveI : Fact (∀ y : K, y * y * y ≠ β) := ⟨fun y hy => hβ ⟨y, by rw [← hy]; ring⟩⟩
  have hcard3 : Fintype.card (Fp3 K β) = p ^ 3 := by rw [Cubic.card, hcard]
  have hd := fun i => dvd_pow_sub_one p 3 i hp3 hp.out.pos
  unfold Fp3.frobeniusMap
  refine Cubic.frobMap_eq p _ _ id (fun _ _ => rfl) (fun k y => (pow_char_pow_prime p hcard k y).symm) 3
    (by norm_num) hcard3 c1 c2 (fun i hi => ?_) (fun i hi => ?_) k x
  · rw [id, hc1 i hi, ← Cubic.gen_pow, ← pow_succ, ← hd]
  · rw [id, hc2 i hi, ← Cubic.gen_pow]
    conv_rhs => rw [hd]
    ring

/-- C23. `Fp4`: coefficients `β^((p^i-1)/4)`, `i < 4`. -/
theorem C23_fp4_frobenius (hcard : Fintype.card K = p) (hp4 : p % 4 = 1) (β : K)
    (hβ : ¬ IsSquare β) (hβ' : ¬ IsSquare (-β)) (c2 c4 : Nat → K)
    (hc2 : ∀ i < 2, c2 i = β ^ ((p ^ i - 1) / 2)) (hc4 : ∀ i < 4, c4 i = β ^ ((p ^ i - 1) / 4))
    (k : Nat) (x : Fp4 K β β) : Fp4.frobeniusMap c2 c4 k x = x ^ p ^ k := by
  haveI : Fact (¬ IsSquare β) := ⟨hβ⟩
  haveI : Fact (¬ IsSquare (Quad.gen : Fp2 K β)) := ⟨not_isSquare_gen2 _ β hβ'⟩
  have hcard4 : Fintype.card (Fp4 K β β) = p ^ 4 := by rw [Quad.card, Quad.card, hcard]; ring
  unfold Fp4.frobeniusMap
  refine Quad.frobMap_eq p _ _ Quad.ofBase (fun c y => ?_)
    (fun k y => C23_fp2_frobenius p hcard (by omega) β hβ c2 hc2 k y) 4 (by norm_num) hcard4 c4
    (fun i hi => ?_) k x
  · unfold Quad.scale; ext <;> simp
  · rw [hc4 i hi, ← Quad.gen_pow4, ← dvd_pow_sub_one p 4 i hp4 hp.out.pos]

/-- C23. `Fp6_2over3`: coefficients `β^((p^i-1)/6)`, `i < 6`. -/
theorem C23_fp6_2over3_frobenius (hcard : Fintype.card K = p) (hp6 : p % 6 = 1) (β : K)
    (hβ : ¬ IsSquare β) (hβ' : ¬ ∃ y, y ^ 3 = β) (c31 c32 c6 : Nat → K)
    (hc31 : ∀ i < 3, c31 i = β ^ ((p ^ i - 1) / 3)) (hc32 : ∀ i < 3, c32 i = β ^ (2 * ((p ^ i - 1) / 3)))
    (hc6 : ∀ i < 6, c6 i = β ^ ((p ^ i - 1) / 6))
    (k : Nat) (x : Fp6_2over3 K β β) : Fp6_2over3.frobeniusMap c31 c32 c6 k x = x ^ p ^ k := by
  haveI : Fact (∀ y : K, y * y * y ≠ β) := ⟨fun y hy => hβ' ⟨y, by rw [← hy]; ring⟩⟩
  haveI : Fact (¬ IsSquare (Cubic.gen : Fp3 K β)) := ⟨not_isSquare_gen3 _ β hβ⟩
  have hcard6 : Fintype.card (Fp6_2over3 K β β) = p ^ 6 := by rw [Quad.card, Cubic.card, hcard]; ring
  unfold Fp6_2over3.frobeniusMap
  refine Quad.frobMap_eq p _ _ Cubic.ofBase (fun c y => ?_)
    (fun k y => C23_fp3_frobenius p hcard (by omega) β hβ' c31 c32 hc31 hc32 k y) 6 (by norm_num)
    hcard6 c6 (fun i hi => ?_) k x
  · unfold Cubic.scale; ext <;> simp
  · rw [hc6 i hi, ← Quad.gen_pow6, ← dvd_pow_sub_one p 6 i hp6 hp.out.pos]

/-- C23. `Fp6_3over2`: coefficients `ξ^((p^i-1)/3)` and `ξ^(2(p^i-1)/3)`, `i < 6`. -/
theorem C23_fp6_3over2_frobenius (hcard : Fintype.card K = p) (hp2 : p % 2 = 1) (hp3 : p % 3 = 1)
    (β : K) (ξ : Fp2 K β) (hβ : ¬ IsSquare β) (hξ : ¬ ∃ y, y * y * y = ξ) (c2 : Nat → K)
    (c61 c62 : Nat → Fp2 K β) (hc2 : ∀ i < 2, c2 i = β ^ ((p ^ i - 1) / 2))
    (hc61 : ∀ i < 6, c61 i = ξ ^ ((p ^ i - 1) / 3)) (hc62 : ∀ i < 6, c62 i = ξ ^ (2 * ((p ^ i - 1) / 3)))
    (k : Nat) (x : Fp6_3over2 K β ξ) : Fp6_3over2.frobeniusMap c2 c61 c62 k x = x ^ p ^ k := by
  haveI : Fact (¬ IsSquare β) := ⟨hβ⟩
  haveI : Fact (∀ y : Fp2 K β, y * y * y ≠ ξ) := ⟨fun y hy => hξ ⟨y, hy⟩⟩
  have hcard6 : Fintype.card (Fp6_3over2 K β ξ) = p ^ 6 := by rw [Cubic.card, Quad.card, hcard]; ring
  have hd := fun i => dvd_pow_sub_one p 3 i hp3 hp.out.pos
  unfold Fp6_3over2.frobeniusMap
  refine Cubic.frobMap_eq p _ _ id (fun _ _ => rfl)
    (fun k y => C23_fp2_frobenius p hcard hp2 β hβ c2 hc2 k y) 6
    (by norm_num) hcard6 c61 c62 (fun i hi => ?_) (fun i hi => ?_) k x
  · rw [id, hc61 i hi, ← Cubic.gen_pow, ← pow_succ, ← hd]
  · rw [id, hc62 i hi, ← Cubic.gen_pow]
    conv_rhs => rw [hd]
    ring

/-- C23. `Fp12`: coefficients `ξ^((p^i-1)/6)`, `i < 12`. -/
theorem C23_fp12_frobenius (hcard : Fintype.card K = p) (hp6 : p % 6 = 1)
    (β : K) (ξ : Fp2 K β) (hβ : ¬ IsSquare β) (hξ : ¬ ∃ y, y * y * y = ξ) (hξ' : ¬ IsSquare ξ)
    (c2 : Nat → K) (c61 c62 c12 : Nat → Fp2 K β) (hc2 : ∀ i < 2, c2 i = β ^ ((p ^ i - 1) / 2))
    (hc61 : ∀ i < 6, c61 i = ξ ^ ((p ^ i - 1) / 3)) (hc62 : ∀ i < 6, c62 i = ξ ^ (2 * ((p ^ i - 1) / 3)))
    (hc12 : ∀ i < 12, c12 i = ξ ^ ((p ^ i - 1) / 6))
    (k : Nat) (x : Fp12 K β ξ ξ) : Fp12.frobeniusMap c2 c61 c62 c12 k x = x ^ p ^ k := by
  haveI : Fact (¬ IsSquare β) := ⟨hβ⟩
  haveI : Fact (∀ y : Fp2 K β, y * y * y ≠ ξ) := ⟨fun y hy => hξ ⟨y, hy⟩⟩
  haveI : Fact (¬ IsSquare (Cubic.gen : Fp6_3over2 K β ξ)) := ⟨not_isSquare_gen3 _ ξ hξ'⟩
  have hcard12 : Fintype.card (Fp12 K β ξ ξ) = p ^ 12 := by
    rw [Quad.card, Cubic.card, Quad.card, hcard]; ring
  unfold Fp12.frobeniusMap
  refine Quad.frobMap_eq p _ _ Cubic.ofBase (fun c y => ?_)
    (fun k y => C23_fp6_3over2_frobenius p hcard (by omega) (by omega) β ξ hβ hξ c2 c61 c62 hc2 hc61
      hc62 k y) 12 (by norm_num) hcard12 c12 (fun i hi => ?_) k x
  · unfold Cubic.scale; ext <;> simp
  · rw [hc12 i hi, ← Quad.gen_pow12, ← dvd_pow_sub_one p 6 i hp6 hp.out.pos]

end

/-! ## Witnesses -/
section Witness
open Witness

example (k : Nat) (x : Fp2 (ZMod 7) 3) :
    Fp2.frobeniusMap (fun i => 3 ^ ((7 ^ i - 1) / 2)) k x = x ^ 7 ^ k :=
  C23_fp2_frobenius 7 (ZMod.card 7) (by norm_num) 3 (by decide) _ (fun _ _ => rfl) k x
example : Fp2.frobeniusMap (fun i => 3 ^ ((7 ^ i - 1) / 2)) 1 (⟨2, 5⟩ : Fp2 (ZMod 7) 3) = ⟨2, 2⟩ := by
  decide
example (k : Nat) (x : Fp3 (ZMod 7) 3) :
    Fp3.frobeniusMap (fun i => 3 ^ ((7 ^ i - 1) / 3)) (fun i => 3 ^ (2 * ((7 ^ i - 1) / 3))) k x = x ^ 7 ^ k :=
  C23_fp3_frobenius 7 (ZMod.card 7) (by norm_num) 3 (by decide) _ _ (fun _ _ => rfl) (fun _ _ => rfl) k x
example (k : Nat) (x : Fp4 (ZMod 5) 2 2) :
    Fp4.frobeniusMap (fun i => 2 ^ ((5 ^ i - 1) / 2)) (fun i => 2 ^ ((5 ^ i - 1) / 4)) k x = x ^ 5 ^ k :=
  C23_fp4_frobenius 5 (ZMod.card 5) (by norm_num) 2 (by decide) (by decide) _ _ (fun _ _ => rfl)
    (fun _ _ => rfl) k x
example (k : Nat) (x : Fp6_2over3 (ZMod 7) 3 3) :
    Fp6_2over3.frobeniusMap (fun i => 3 ^ ((7 ^ i - 1) / 3)) (fun i => 3 ^ (2 * ((7 ^ i - 1) / 3)))
      (fun i => 3 ^ ((7 ^ i - 1) / 6)) k x = x ^ 7 ^ k :=
  C23_fp6_2over3_frobenius 7 (ZMod.card 7) (by norm_num) 3 (by decide) (by decide) _ _ _ (fun _ _ => rfl)
    (fun _ _ => rfl) (fun _ _ => rfl) k x
example (k : Nat) (x : Fp6_3over2 (ZMod 7) 6 ⟨2, 1⟩) :
    Fp6_3over2.frobeniusMap (fun i => 6 ^ ((7 ^ i - 1) / 2)) (fun i => ⟨2, 1⟩ ^ ((7 ^ i - 1) / 3))
      (fun i => ⟨2, 1⟩ ^ (2 * ((7 ^ i - 1) / 3))) k x = x ^ 7 ^ k :=
  C23_fp6_3over2_frobenius 7 (ZMod.card 7) (by norm_num) (by norm_num) 6 ⟨2, 1⟩ (by decide)
    (by decide +kernel) _ _ _ (fun _ _ => rfl) (fun _ _ => rfl) (fun _ _ => rfl) k x
example (k : Nat) (x : Fp12 (ZMod 7) 6 ⟨2, 1⟩ ⟨2, 1⟩) :
    Fp12.frobeniusMap (fun i => 6 ^ ((7 ^ i - 1) / 2)) (fun i => ⟨2, 1⟩ ^ ((7 ^ i - 1) / 3))
      (fun i => ⟨2, 1⟩ ^ (2 * ((7 ^ i - 1) / 3))) (fun i => ⟨2, 1⟩ ^ ((7 ^ i - 1) / 6)) k x = x ^ 7 ^ k :=
  C23_fp12_frobenius 7 (ZMod.card 7) (by norm_num) 6 ⟨2, 1⟩ (by decide)
    (by decide +kernel) (not_isSquare_of_norm _ _ _ (by decide +kernel)) _ _ _ _ (fun _ _ => rfl)
    (fun _ _ => rfl) (fun _ _ => rfl) (fun _ _ => rfl) k x

end Witness
end Libff
