import Verif.Lemmas.Utils

/-! # C44, C45: integer helpers -/
namespace Libff

/-! ## C44 -/

/-- C44. `log2(n)` is the least `k` with `n ≤ 2^k`, for every 64-bit `n` (0 included). -/
theorem C44_log2 (n : BitVec 64) :
    n.toNat ≤ 2 ^ log2 n ∧ ∀ k, n.toNat ≤ 2 ^ k → log2 n ≤ k := by
  rw [log2_eq_clog]
  exact ⟨Nat.le_pow_clog (by norm_num) _, fun k h => (Nat.clog_le_iff_le_pow (by norm_num)).2 h⟩

/-- C44. `is_power_of_2`. -/
theorem C44_is_power_of_2 (n : BitVec 64) : isPowerOf2 n = true ↔ ∃ k, n.toNat = 2 ^ k := by
  unfold isPowerOf2
  rw [Bool.and_eq_true, beq_iff_eq, and_pred_eq_zero, bne_iff_ne]
  have h0 : n = 0 ↔ n.toNat = 0 := ⟨fun h => by rw [h]; rfl, fun h => BitVec.eq_of_toNat_eq h⟩
  rw [ne_eq, h0]
  constructor
  · rintro ⟨h, h' | h'⟩
    · exact absurd h' h
    · exact h'
  · rintro ⟨k, hk⟩
    have := Nat.two_pow_pos k
    exact ⟨by omega, Or.inr ⟨k, hk⟩⟩

theorem size_pred (n : Nat) (hn : 1 ≤ n) : Nat.size (n - 1) = Nat.clog 2 n := by
  apply eq_of_forall_ge_iff
  intro k
  rw [Nat.size_le, Nat.clog_le_iff_le_pow (by norm_num)]
  omega

/-- C44. For `1 ≤ n ≤ 2^63`, `get_power_of_two(n)` and `round_to_next_power_of_2(n)` are both the least
power of two not below `n`. -/
theorem C44_next_power (n : BitVec 64) (h1 : 1 ≤ n.toNat) (h2 : n.toNat ≤ 2 ^ 63) :
    roundToNextPowerOf2 n = .ok (getPowerOfTwo n) ∧
    n.toNat ≤ (getPowerOfTwo n).toNat ∧ (∃ k, (getPowerOfTwo n).toNat = 2 ^ k) ∧
    ∀ k, n.toNat ≤ 2 ^ k → (getPowerOfTwo n).toNat ≤ 2 ^ k := by
  have hs : (n - 1).toNat = n.toNat - 1 := by
    rw [BitVec.toNat_sub_of_le]
    · rfl
    · rw [BitVec.le_def]; simpa using h1
  have hc : Nat.clog 2 n.toNat ≤ 63 := (Nat.clog_le_iff_le_pow (by norm_num)).2 h2
  have hlt : 2 ^ Nat.clog 2 n.toNat < 2 ^ 64 := Nat.pow_lt_pow_right (by norm_num) (by omega)
  have hg : (getPowerOfTwo n).toNat = 2 ^ Nat.clog 2 n.toNat := by
    rw [getPowerOfTwo_toNat, hs, size_pred _ h1, Nat.mod_eq_of_lt hlt]
  refine ⟨?_, ?_, ⟨_, hg⟩, ?_⟩
  · rw [roundToNextPowerOf2, if_pos (by rw [log2_eq_clog]; omega)]
    congr 1
    apply BitVec.eq_of_toNat_eq
    rw [hg, BitVec.toNat_shiftLeft, log2_eq_clog, Nat.shiftLeft_eq, show (1 : BitVec 64).toNat = 1 from rfl,
      Nat.one_mul, Nat.mod_eq_of_lt hlt]
  · rw [hg]; exact Nat.le_pow_clog (by norm_num) _
  · intro k hk
    rw [hg]
    exact Nat.pow_le_pow_right (by norm_num) ((Nat.clog_le_iff_le_pow (by norm_num)).2 hk)

/-- C44. The remaining inputs: `get_power_of_two` wraps to 0 for `n = 0` and for `n > 2^63`;
`round_to_next_power_of_2(0) = 1`, and it is undefined (a shift by 64) for `n > 2^63`. -/
theorem C44_next_power_edge (n : BitVec 64) :
    getPowerOfTwo 0 = 0 ∧ roundToNextPowerOf2 0 = .ok 1 ∧
    (2 ^ 63 < n.toNat → getPowerOfTwo n = 0 ∧ roundToNextPowerOf2 n = .ub) := by
  refine ⟨by decide, by decide, fun h => ?_⟩
  have hc : 64 ≤ Nat.clog 2 n.toNat := Nat.succ_le_of_lt ((Nat.lt_clog_iff_pow_lt (by norm_num)).2 h)
  constructor
  · apply BitVec.eq_of_toNat_eq
    have hs : (n - 1).toNat = n.toNat - 1 := by
      rw [BitVec.toNat_sub_of_le]
      · rfl
      · rw [BitVec.le_def]; simp; omega
    rw [getPowerOfTwo_toNat, hs, size_pred _ (by omega)]
    exact Nat.mod_eq_zero_of_dvd (Nat.pow_dvd_pow 2 hc)
  · rw [roundToNextPowerOf2, if_neg (by rw [log2_eq_clog]; omega)]

/-- C44. Bit `i` of `bitreverse(n, l)` is bit `l-1-i` of `n`, and no higher bit is set. -/
theorem C44_bitreverse (n : BitVec 64) (l : Nat) (hl : l ≤ 64) (i : Nat) :
    (bitreverse n l).getLsbD i = (decide (i < l) && n.getLsbD (l - 1 - i)) := by
  by_cases hi : i < 64
  · rw [bitreverse, bitreverseLoop_bit l 0 n i hi]
    by_cases h : i < l
    · simp [h]
    · simp [h]
  · rw [BitVec.getLsbD_of_ge _ _ (by omega)]
    simp; omega

/-- C44. Reversing twice keeps the low `l` bits. -/
theorem C44_bitreverse_involutive (n : BitVec 64) (l : Nat) (hl : l ≤ 64) :
    (bitreverse (bitreverse n l) l).toNat = n.toNat % 2 ^ l := by
  apply Nat.eq_of_testBit_eq
  intro i
  rw [BitVec.testBit_toNat, Nat.testBit_mod_two_pow, BitVec.testBit_toNat, C44_bitreverse _ _ hl,
    C44_bitreverse _ _ hl]
  by_cases h : i < l
  · have h2 : l - 1 - i < l := by omega
    rw [show l - 1 - (l - 1 - i) = i by omega]
    simp [h, h2]
  · simp [h]

/-- C44. `div_ceil` is division rounded up for all non-negative dividends and positive divisors that do
not overflow, and rejects a zero divisor. -/
theorem C44_div_ceil (x y : Int) (hx : 0 ≤ x) (hy : 0 < y) (hov : x + (y - 1) < 2 ^ 63) :
    ∃ q, divCeil x y = .ok q ∧ x ≤ q * y ∧ (q - 1) * y < x ∧ divCeil x 0 = .abort := by
  have hd : Int.tdiv (x + (y - 1)) y = (x + (y - 1)) / y := Int.tdiv_eq_ediv_of_nonneg (by omega)
  have hq0 : 0 ≤ (x + (y - 1)) / y := Int.ediv_nonneg (by omega) (by omega)
  have hq1 : (x + (y - 1)) / y ≤ x + (y - 1) := Int.ediv_le_self _ (by omega)
  have hm := Int.emod_add_mul_ediv (x + (y - 1)) y
  have hr0 := Int.emod_nonneg (x + (y - 1)) (by omega : y ≠ 0)
  have hr1 := Int.emod_lt_of_pos (x + (y - 1)) hy
  refine ⟨(x + (y - 1)) / y, ?_, ?_, ?_, by simp [divCeil]⟩
  · unfold divCeil
    rw [if_neg (by omega), hd]
    have f1 : fitsI64 (y - 1) = true := by
      simp only [fitsI64, Bool.and_eq_true, decide_eq_true_eq]; omega
    have f2 : fitsI64 (x + (y - 1)) = true := by
      simp only [fitsI64, Bool.and_eq_true, decide_eq_true_eq]; omega
    have f3 : fitsI64 ((x + (y - 1)) / y) = true := by
      simp only [fitsI64, Bool.and_eq_true, decide_eq_true_eq]; omega
    rw [f1, f2, f3]; simp
  · have : (x + (y - 1)) / y * y = y * ((x + (y - 1)) / y) := Int.mul_comm _ _
    omega
  · have : ((x + (y - 1)) / y - 1) * y = y * ((x + (y - 1)) / y) - y := by ring
    omega

example : log2 1000 = 10 ∧ (getPowerOfTwo 1000).toNat = 1024 ∧ isPowerOf2 1024 = true ∧
    bitreverse 6 4 = 6 ∧ bitreverse 1 4 = 8 ∧ divCeil 7 2 = .ok 4 := by decide

/-! ## C45 -/

/-- C45. For every width `1 ≤ w ≤ 62` and every `int` in the range of the width, the encoding is the
value modulo `2^w` and decoding restores it. -/
theorem C45_twos_complement (i : Int) (w : Nat) (hw1 : 1 ≤ w) (hw2 : w ≤ 62)
    (h32 : -2 ^ 31 ≤ i ∧ i < 2 ^ 31) (hr : -2 ^ (w - 1) ≤ i ∧ i < 2 ^ (w - 1)) :
    ∃ u, toTwosComplement i w = .ok u ∧ (u.toNat : Int) = i % 2 ^ w ∧ fromTwosComplement u w = .ok i := by
  have hp : (2 : Int) ^ w = 2 * 2 ^ (w - 1) := by
    rw [← pow_succ']; congr 1; omega
  have hp' : (2 : Nat) ^ w = 2 * 2 ^ (w - 1) := by
    rw [← pow_succ']; congr 1; omega
  have hW : (2 : Int) ^ w ≤ 2 ^ 62 := by
    have := Nat.pow_le_pow_right (n := 2) (by norm_num) hw2
    exact_mod_cast this
  have hcast : ((2 ^ (w - 1) : Nat) : Int) = 2 ^ (w - 1) := by push_cast; rfl
  have hWpos : (0 : Int) < 2 ^ (w - 1) := by positivity
  have back : ∀ u : BitVec 64, (u.toNat : Int) = i % 2 ^ w → fromTwosComplement u w = .ok i := by
    intro u hu
    have hWn : (2 : Nat) ^ w ≤ 2 ^ 62 := Nat.pow_le_pow_right (by norm_num) hw2
    have hult : u.toNat < 2 ^ w := by
      have := Int.emod_lt_of_pos i (by positivity : (0 : Int) < 2 ^ w)
      rw [← hu] at this
      exact_mod_cast this
    unfold fromTwosComplement
    rw [if_neg (by omega), if_neg (by omega)]
    simp only
    congr 1
    by_cases hneg : 0 ≤ i
    · have e : (u.toNat : Int) = i := by rw [hu, Int.emod_eq_of_lt hneg (by omega)]
      rw [if_pos (by omega)]
      rw [BitVec.toInt_setWidth, Int.bmod_eq_of_le]
      · exact e
      · norm_num <;> omega
      · norm_num; omega
    · have e : (u.toNat : Int) = i + 2 ^ w := by
        rw [hu, ← Int.add_emod_right i, Int.emod_eq_of_lt (by omega) (by omega)]
      rw [if_neg (by omega)]
      have hsh : ((1 : BitVec 64) <<< w).toNat = 2 ^ w := by
        rw [BitVec.toNat_shiftLeft, Nat.shiftLeft_eq, show (1 : BitVec 64).toNat = 1 from rfl, Nat.one_mul,
          Nat.mod_eq_of_lt (by omega)]
      have hsub : (u - (1 : BitVec 64) <<< w).toNat = 2 ^ 64 - 2 ^ w + u.toNat := by
        rw [BitVec.toNat_sub, hsh]
        apply Nat.mod_eq_of_lt
        omega
      rw [BitVec.toInt_setWidth, hsub]
      have hcw : ((2 ^ w : Nat) : Int) = 2 ^ w := by push_cast; rfl
      have : ((2 ^ 64 - 2 ^ w + u.toNat : Nat) : Int) = i + 2 ^ 32 * 2 ^ 32 := by
        rw [Nat.cast_add, Nat.cast_sub (by omega), e, hcw]; norm_num
        ring
      rw [this, show ((2 : Nat) ^ 32 : Nat) = 4294967296 from rfl]
      rw [show (i + 2 ^ 32 * 2 ^ 32 : Int) = i + ((4294967296 : Nat) : Int) * 2 ^ 32 by norm_num,
        Int.add_mul_bmod_self_left, Int.bmod_eq_of_le]
      · norm_num; omega
      · norm_num; omega
  unfold toTwosComplement
  rw [if_neg (by omega), oneShl, if_pos (by omega), Outcome.bind_ok, if_neg (by omega),
    if_neg (by omega)]
  by_cases hneg : 0 ≤ i
  · rw [if_pos (by omega)]
    have hu : ((BitVec.ofInt 64 i).toNat : Int) = i % 2 ^ w := by
      rw [BitVec.toNat_ofInt, Int.emod_eq_of_lt hneg (by omega), Int.emod_eq_of_lt hneg (by norm_num; omega)]
      omega
    exact ⟨_, rfl, hu, back _ hu⟩
  · rw [if_neg (by omega), oneShl, if_pos (by omega), Outcome.map_ok]
    have hu : ((BitVec.ofInt 64 (i + 2 ^ w)).toNat : Int) = i % 2 ^ w := by
      rw [BitVec.toNat_ofInt, ← Int.add_emod_right i, Int.emod_eq_of_lt (a := i + 2 ^ w) (b := 2 ^ w) (by omega) (by omega),
        Int.emod_eq_of_lt (by omega) (by norm_num; omega)]
      omega
    exact ⟨_, rfl, hu, back _ hu⟩

/-- C45. Values outside the range are rejected by the assertions, in both directions. -/
theorem C45_out_of_range (i : Int) (u : BitVec 64) (w : Nat) (hw1 : 1 ≤ w) (hw2 : w ≤ 62) :
    (¬ (-2 ^ (w - 1) ≤ i ∧ i < 2 ^ (w - 1)) → toTwosComplement i w = .abort) ∧
    (2 ^ w ≤ u.toNat → fromTwosComplement u w = .abort) := by
  constructor
  · intro h
    unfold toTwosComplement
    rw [if_neg (by omega), oneShl, if_pos (by omega), Outcome.bind_ok]
    by_cases h1 : i ≥ -2 ^ (w - 1)
    · rw [if_neg (by omega), if_pos (by omega)]
    · rw [if_pos h1]
  · intro h
    unfold fromTwosComplement
    rw [if_neg (by omega), if_pos (by omega)]

/-- C45. Widths 0 and 64 (and 63 for negative values) shift out of range. -/
theorem C45_undefined_widths (i : Int) :
    toTwosComplement i 0 = .ub ∧ toTwosComplement i 64 = .ub ∧ toTwosComplement (-1) 63 = .ub := by
  refine ⟨rfl, rfl, ?_⟩
  decide

example : toTwosComplement (-3) 5 = .ok 29 ∧ fromTwosComplement 29 5 = .ok (-3) := by decide

end Libff
