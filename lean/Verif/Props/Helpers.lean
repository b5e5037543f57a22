import Verif.Model.Helpers
import Verif.Props.Fp
import Verif.Props.Utils
import Verif.Props.Binary

/-!
# C05, C42, C44, C77: small helpers
-/
namespace Libff

/-- C05. `set_ulong(x)` makes the object the residue of `x`, for every word. -/
theorem C05_set_ulong (P : FpParams) (hP : P.Valid) (x : BitVec 64) :
    ∃ r, setUlong P x = .ok r ∧ Represents P r (x.toNat : ZMod P.p) := by
  obtain ⟨r, h1, h2⟩ := C05_of_long P hP x true (Or.inl rfl)
  refine ⟨r, h1, ?_⟩
  simpa using h2

/-- C44. `exp2(k)` is 2 to the power `k` for `k < 64`, and undefined from there on. -/
theorem C44_exp2 (k : BitVec 64) :
    (k.toNat < 64 → ∃ v, exp2 k = .ok v ∧ v.toNat = 2 ^ k.toNat) ∧ (64 ≤ k.toNat → exp2 k = .ub) := by
  refine ⟨fun h => ⟨_, if_neg (by omega), ?_⟩, fun h => if_pos h⟩
  rw [BitVec.shiftLeft_eq', BitVec.toNat_shiftLeft, Nat.shiftLeft_eq]
  have : 2 ^ k.toNat < 2 ^ 64 := Nat.pow_lt_pow_right (by norm_num) h
  rw [BitVec.toNat_ofNat, Nat.mod_eq_of_lt (by norm_num : 1 < 2 ^ 64), one_mul, Nat.mod_eq_of_lt this]

/-- C44. `exp2(log2(n))` is the smallest power of 2 that is not less than `n`, as utils.hpp promises, for every `n` up to 2^63. -/
theorem C44_exp2_log2 (n : BitVec 64) (h : n.toNat ≤ 2 ^ 63) :
    ∃ v, exp2 (BitVec.ofNat 64 (log2 n)) = .ok v ∧ n.toNat ≤ v.toNat ∧ v.toNat = 2 ^ log2 n ∧ ∀ k, n.toNat ≤ 2 ^ k → v.toNat ≤ 2 ^ k := by
  have hl := (C44_log2 n).2 63 h
  have e : (BitVec.ofNat 64 (log2 n)).toNat = log2 n := by rw [BitVec.toNat_ofNat]; omega
  obtain ⟨v, h1, h2⟩ := (C44_exp2 (BitVec.ofNat 64 (log2 n))).1 (by omega)
  rw [e] at h2
  exact ⟨v, h1, h2 ▸ (C44_log2 n).1, h2, fun k hk => h2 ▸ Nat.pow_le_pow_right (by norm_num) ((C44_log2 n).2 k hk)⟩

theorem squareMultiLoop_eq {K : Type} [Monoid K] (num : BitVec 8) : ∀ (f : Nat) (i : BitVec 8) (pt : K), 0 ≤ i.toInt → num.toInt - i.toInt ≤ f →
    squareMultiLoop num f i pt = pt ^ 2 ^ (num.toInt - i.toInt).toNat
  | 0, i, pt, _, hf => by
    rw [squareMultiLoop, Int.toNat_of_nonpos (by exact_mod_cast hf), pow_zero, pow_one]
  | f + 1, i, pt, hi, hf => by
    rw [squareMultiLoop]
    split_ifs with h
    · rw [BitVec.slt, decide_eq_true_eq] at h
      have hn := BitVec.toInt_lt (x := num)
      have e : (i + 1).toInt = i.toInt + 1 := by
        rw [BitVec.toInt_add, show (1 : BitVec 8).toInt = 1 from rfl, Int.bmod_def]
        norm_num at hn ⊢
        omega
      rw [squareMultiLoop_eq num f (i + 1) (pt * pt) (by omega) (by rw [e]; push_cast at hf; omega), e, ← pow_two, ← pow_mul, ← pow_succ']
      congr 2
      omega
    · rw [BitVec.slt, decide_eq_true_eq] at h
      rw [Int.toNat_of_nonpos (by omega), pow_zero, pow_one]

/-- C42. `square_multi(pt, n)` raises to the power 2^n; a negative count changes nothing. -/
theorem C42_square_multi : (∀ (a : GF32) (n : BitVec 8), squareMulti a n = a ^ 2 ^ n.toInt.toNat) ∧
    ∀ (a : GF64) (n : BitVec 8), squareMulti a n = a ^ 2 ^ n.toInt.toNat := by
  have h : ∀ n : BitVec 8, n.toInt - (0 : BitVec 8).toInt ≤ ((128 : Nat) : Int) := fun n => by
    have := BitVec.toInt_lt (x := n)
    simp at this ⊢
    omega
  refine ⟨fun a n => ?_, fun a n => ?_⟩
  · have := squareMultiLoop_eq n 128 0 a (by decide) (h n)
    simpa [squareMulti] using this
  · have := squareMultiLoop_eq n 128 0 a (by decide) (h n)
    simpa [squareMulti] using this

/-- C77. `curve_size_in_bits` is the sum of the sizes as long as it fits a `size_t`. -/
theorem C77_curve_size_in_bits {α : Type} (size : BitVec 64) (v : List α) (h : (v.map fun _ => size.toNat).sum < 2 ^ 64) (hl : v.length < 2 ^ 64) :
    (curveSizeInBits size v).toNat = (v.map fun _ => size.toNat).sum := by
  rw [List.map_const', List.sum_replicate, smul_eq_mul] at h ⊢
  rw [curveSizeInBits, BitVec.toNat_mul, BitVec.toNat_ofNat, Nat.mod_eq_of_lt hl, Nat.mod_eq_of_lt h]

/-- C14. The test on which `SHA512_rng` insists (`assert(is_little_endian())`) passes exactly on machines that store the lowest byte first. -/
theorem C14_is_little_endian (m : Bool) : isLittleEndian m = m := by cases m <;> decide

example : exp2 10 = .ok 1024 := by decide
example : squareMulti (⟨2⟩ : GF32) 3 = ⟨256⟩ := by decide +kernel
example : ∃ v, exp2 (BitVec.ofNat 64 (log2 5)) = .ok v ∧ v.toNat = 8 := ⟨8, by decide, rfl⟩
example : (curveSizeInBits 254 [0, 1, 2]).toNat = 762 := C77_curve_size_in_bits 254 [0, 1, 2] (by decide) (by decide)

end Libff
