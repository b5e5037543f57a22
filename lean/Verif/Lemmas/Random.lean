import Verif.Model.Random
import Verif.Lemmas.Bigint
import Mathlib.Data.Nat.Count
import Mathlib.Data.Int.CardIntervalMod

namespace Libff

theorem maskLoop_spec (modulus : List Limb) (B : Nat) (hB : B < 64 * modulus.length)
    (hlo : 2 ^ B ≤ val modulus) (hhi : val modulus < 2 ^ (B + 1)) (k : Nat) (hk : B < k)
    (r : List Limb) (hk2 : k ≤ 64 * r.length) (hr : val r < 2 ^ k) :
    ∃ m, maskLoop modulus k r = .ok m ∧ m.length = r.length ∧ val m = val r % 2 ^ (B + 1) := by
  induction k generalizing r with
  | zero => omega
  | succ k ih =>
    unfold maskLoop
    by_cases hkB : k = B
    · subst hkB
      have : testBit modulus k = true := by
        rw [testBit_eq, Nat.testBit_eq_decide_div_mod_eq, decide_eq_true_iff]
        have h1 : val modulus / 2 ^ k = 1 := by
          rw [Nat.div_eq_iff (by positivity)]
          rw [Nat.pow_succ] at hhi
          omega
        rw [h1]
      rw [if_pos this]
      exact ⟨r, rfl, rfl, (Nat.mod_eq_of_lt hr).symm⟩
    · have hlt : B < k := by omega
      have : testBit modulus k = false := by
        rw [testBit_eq]
        apply Nat.testBit_lt_two_pow
        exact lt_of_lt_of_le hhi (Nat.pow_le_pow_right (by norm_num) (by omega))
      rw [if_neg (by simp [this])]
      have hcv : val (clearBit r k) = val r % 2 ^ k := by
        apply Nat.eq_of_testBit_eq
        intro j
        rw [clearBit_testBit _ _ _ (by omega), Nat.testBit_mod_two_pow]
        by_cases hj : j < k
        · have : j ≠ k := by omega
          simp [hj, this]
        · by_cases hjk : j = k
          · simp [hjk]
          · have : (val r).testBit j = false := by
              apply Nat.testBit_lt_two_pow
              exact lt_of_lt_of_le hr (Nat.pow_le_pow_right (by norm_num) (by omega))
            simp [this]
      obtain ⟨m, h1, h2, h3⟩ := ih hlt (clearBit r k) (by rw [clearBit_length]; omega)
        (by rw [hcv]; exact Nat.mod_lt _ (by positivity))
      refine ⟨m, h1, by rw [h2, clearBit_length], ?_⟩
      rw [h3, hcv, Nat.mod_mod_of_dvd _ (Nat.pow_dvd_pow 2 (by omega))]

/-- Number of `w < 2^N` with `w ≡ v (mod 2^B)`, for `v < 2^B`. -/
theorem card_mod_eq (N B v : Nat) (hB : B ≤ N) (hv : v < 2 ^ B) :
    ((Finset.range (2 ^ N)).filter (fun w => w % 2 ^ B = v)).card = 2 ^ (N - B) := by
  have h := Nat.count_modEq_card (2 ^ N) (r := 2 ^ B) (by positivity) v
  rw [Nat.count_eq_card_filter_range] at h
  have e : 2 ^ N = 2 ^ (N - B) * 2 ^ B := by rw [← Nat.pow_add]; congr 1; omega
  have e1 : 2 ^ N / 2 ^ B = 2 ^ (N - B) := by rw [e]; exact Nat.mul_div_cancel _ (by positivity)
  have e2 : 2 ^ N % 2 ^ B = 0 := by rw [e]; exact Nat.mul_mod_left _ _
  rw [e1, e2] at h
  simp only [Nat.not_lt_zero, if_false, Nat.add_zero] at h
  rw [← h]
  congr 1
  apply Finset.filter_congr
  intro w _
  rw [Nat.ModEq, Nat.mod_eq_of_lt hv]

end Libff
