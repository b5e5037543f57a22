import Verif.Model.Utils
import Verif.Lemmas.Algorithms
import Mathlib.Data.Nat.Log
import Mathlib.Data.Nat.Size
import Mathlib.GroupTheory.OrderOfElement

namespace Libff

theorem log2Loop_spec (f : Nat) (n : BitVec 64) (r : Nat) (h : n.toNat < 2 ^ f * 2) :
    log2Loop f n r = r + Nat.log 2 n.toNat := by
  induction f generalizing n r with
  | zero =>
    have : Nat.log 2 n.toNat = 0 := Nat.log_of_lt (by simpa using h)
    rw [log2Loop, this]; rfl
  | succ f ih =>
    rw [log2Loop]
    by_cases hn : n > 1
    · rw [if_pos hn]
      have hn' : 1 < n.toNat := by simpa [BitVec.lt_def] using hn
      have hs : (n >>> 1).toNat = n.toNat / 2 := by
        rw [BitVec.toNat_ushiftRight, Nat.shiftRight_eq_div_pow]
      rw [ih _ _ (by rw [hs]; rw [Nat.pow_succ] at h; omega), hs, Nat.log_of_one_lt_of_le (by norm_num) (by omega : 2 ≤ n.toNat)]
      omega
    · rw [if_neg hn]
      have hn' : ¬ 1 < n.toNat := by simpa [BitVec.lt_def] using hn
      rw [Nat.log_of_lt (by omega)]; rfl

theorem and_pred_eq_zero (n : BitVec 64) :
    (n &&& (n - 1)) = 0 ↔ n.toNat = 0 ∨ ∃ k, n.toNat = 2 ^ k := by
  by_cases h0 : n.toNat = 0
  · have : n = 0 := BitVec.eq_of_toNat_eq h0
    subst this; simp
  · have h1 : (n - 1).toNat = n.toNat - 1 := by
      rw [BitVec.toNat_sub_of_le]
      · rfl
      · rw [BitVec.le_def]; simp; omega
    have h2 : (n &&& (n - 1)) = 0 ↔ n.toNat &&& (n.toNat - 1) = 0 := by
      rw [← h1, ← BitVec.toNat_and]
      exact ⟨fun h => by rw [h]; rfl, fun h => BitVec.eq_of_toNat_eq h⟩
    rw [h2, Nat.and_sub_one_eq_zero_iff_isPowerOfTwo h0]
    simp [h0, Nat.isPowerOfTwo]

theorem log2_eq_clog (n : BitVec 64) : log2 n = Nat.clog 2 n.toNat := by
  rw [log2, log2Loop_spec 64 n _ (by have := n.isLt; omega)]
  by_cases h : (n &&& (n - 1)) = 0
  · rw [if_pos h]
    rcases (and_pred_eq_zero n).1 h with h0 | ⟨k, hk⟩
    · rw [h0]; simp
    · rw [hk, Nat.log_pow (by norm_num), Nat.clog_pow _ _ (by norm_num)]; omega
  · rw [if_neg h]
    have h' := (not_congr (and_pred_eq_zero n)).1 h
    push Not at h'
    obtain ⟨h0, hk⟩ := h'
    apply le_antisymm
    · have : Nat.log 2 n.toNat < Nat.clog 2 n.toNat := by
        rw [Nat.lt_clog_iff_pow_lt (by norm_num)]
        exact lt_of_le_of_ne (Nat.pow_log_le_self 2 h0) (Ne.symm (hk _))
      omega
    · rw [Nat.clog_le_iff_le_pow (by norm_num), Nat.add_comm]
      exact (Nat.lt_pow_succ_log_self (by norm_num) _).le

theorem smear_step (m n : BitVec 64) (k : Nat)
    (h : ∀ i, n.getLsbD i = true ↔ ∃ j < k, m.getLsbD (i + j) = true) :
    ∀ i, (n ||| (n >>> k)).getLsbD i = true ↔ ∃ j < k + k, m.getLsbD (i + j) = true := by
  intro i
  rw [BitVec.getLsbD_or, BitVec.getLsbD_ushiftRight, Bool.or_eq_true, h, h]
  constructor
  · rintro (⟨j, hj, e⟩ | ⟨j, hj, e⟩)
    · exact ⟨j, by omega, e⟩
    · exact ⟨k + j, by omega, by rw [← Nat.add_assoc, Nat.add_comm i k]; exact e⟩
  · rintro ⟨j, hj, e⟩
    by_cases hk : j < k
    · exact Or.inl ⟨j, hk, e⟩
    · exact Or.inr ⟨j - k, by omega, by rw [← e]; congr 1; omega⟩

/-- After the or-shifts, every bit at or below the highest one is set. -/
theorem getPowerOfTwo_toNat (n : BitVec 64) :
    (getPowerOfTwo n).toNat = 2 ^ (Nat.size (n - 1).toNat) % 2 ^ 64 := by
  unfold getPowerOfTwo
  simp only
  generalize n - 1 = m
  have h1 := smear_step m m 1 (by intro i; constructor
                                  · intro h; exact ⟨0, by omega, h⟩
                                  · rintro ⟨j, hj, e⟩; have : j = 0 := by omega
                                    subst this; exact e)
  have h2 := smear_step m _ 2 h1
  have h3 := smear_step m _ 4 h2
  have h4 := smear_step m _ 8 h3
  have h5 := smear_step m _ 16 h4
  have h6 := smear_step m _ 32 h5
  clear h1 h2 h3 h4 h5
  generalize (_ ||| _ : BitVec 64) = q at h6 ⊢
  have hq : q.toNat = 2 ^ (Nat.size m.toNat) - 1 := by
    apply Nat.eq_of_testBit_eq
    intro i
    rw [Nat.testBit_two_pow_sub_one, BitVec.testBit_toNat, Bool.eq_iff_iff, h6, decide_eq_true_iff,
      Nat.lt_size]
    constructor
    · rintro ⟨j, _, e⟩
      rw [← BitVec.testBit_toNat] at e
      have := Nat.ge_two_pow_of_testBit e
      exact le_trans (Nat.pow_le_pow_right (by norm_num) (by omega)) this
    · intro hle
      have hne : m.toNat ≠ 0 := by have := Nat.two_pow_pos i; omega
      have hlog : i ≤ Nat.log2 m.toNat := (Nat.le_log2 hne).2 hle
      have hlt : Nat.log2 m.toNat < 64 := (Nat.log2_lt hne).2 m.isLt
      refine ⟨Nat.log2 m.toNat - i, by omega, ?_⟩
      rw [← BitVec.testBit_toNat, show i + (Nat.log2 m.toNat - i) = Nat.log2 m.toNat by omega]
      exact Nat.testBit_log2 hne
  rw [BitVec.toNat_add, hq]
  have := Nat.two_pow_pos (Nat.size m.toNat)
  rw [show (1 : BitVec 64).toNat = 1 from rfl, Nat.sub_add_cancel this]

theorem bitreverseLoop_bit (l : Nat) (r n : BitVec 64) (i : Nat) (hi : i < 64) :
    (bitreverseLoop l r n).getLsbD i = if i < l then n.getLsbD (l - 1 - i) else r.getLsbD (i - l) := by
  induction l generalizing r n with
  | zero => simp [bitreverseLoop]
  | succ l ih =>
    rw [bitreverseLoop, ih]
    have h1 : ∀ j, (1 : BitVec 64).getLsbD j = decide (j = 0) := by
      intro j; simp [BitVec.getLsbD_one]
    by_cases h : i < l
    · rw [if_pos h, if_pos (by omega), BitVec.getLsbD_ushiftRight]; congr 1; omega
    · rw [if_neg h, BitVec.getLsbD_or, BitVec.getLsbD_shiftLeft, BitVec.getLsbD_and, h1]
      by_cases he : i = l
      · subst he
        simp
      · rw [if_neg (by omega)]
        have e0 : i - l ≠ 0 := by omega
        have e1 : ¬ (i - l < 1) := by omega
        simp only [e0, e1, decide_false, Bool.and_false, Bool.or_false, Bool.not_false, Bool.and_true]
        rw [show i - l - 1 = i - (l + 1) by omega]
        simp [show i - l < 64 by omega]

theorem squareTimes_eq {K : Type*} [Monoid K] (k : Nat) (x : K) : squareTimes k x = x ^ 2 ^ k := by
  induction k generalizing x with
  | zero => simp [squareTimes]
  | succ k ih => rw [squareTimes, ih, ← pow_two, ← pow_mul, Nat.pow_succ, Nat.mul_comm]

end Libff
