import Verif.Lemmas.Stream

/-! # C06, C07: big integers -/
namespace Libff

/-! ## C06 -/

/-- C06. Equality, order and zero test decide the corresponding relations of the values. -/
theorem C06_compare (a b : List Limb) (h : a.length = b.length) :
    (fpEq a b = true ↔ val a = val b) ∧ (bigintLt a b = true ↔ val a < val b) ∧
    (limbsIsZero a = true ↔ val a = 0) := by
  refine ⟨?_, ?_, limbsIsZero_iff a⟩
  · rw [fpEq, mpn_cmp_spec a b h]; simp
  · rw [bigintLt, mpn_cmp_spec a b h, isEq_compare]; simp

/-- C06. `test_bit` is the bit of the value, for every position (false beyond the range). -/
theorem C06_test_bit (a : List Limb) (i : Nat) : testBit a i = (val a).testBit i := testBit_eq a i

/-- C06. Clearing a bit clears exactly that bit. -/
theorem C06_clear_bit (a : List Limb) (i j : Nat) (hi : i < bigintMaxBits a) :
    (clearBit a i).length = a.length ∧
      testBit (clearBit a i) j = (testBit a j && decide (j ≠ i)) := by
  rw [bigintMaxBits] at hi
  rw [testBit_eq, testBit_eq, clearBit_testBit _ _ _ (by omega)]
  exact ⟨clearBit_length a i, rfl⟩

/-- C06. `num_bits` is the bit length of the value: the position of the highest set bit plus one. -/
theorem C06_num_bits (a : List Limb) :
    val a < 2 ^ bigintNumBits a ∧ (bigintNumBits a ≠ 0 → 2 ^ (bigintNumBits a - 1) ≤ val a) :=
  numBitsLoop_spec a

/-- C06. `max_bits` bounds the value. -/
theorem C06_max_bits (a : List Limb) : val a < 2 ^ bigintMaxBits a := by
  rw [bigintMaxBits, Nat.mul_comm]; exact val_lt a

/-- C06. `bigint(unsigned long)`, `is_even`, and conversion to and from `mpz`. -/
theorem C06_conversions (n : Nat) (x : Limb) (a : List Limb) (k : Nat) :
    (0 < n → val (smallBigint n x) = x.toNat ∧ (smallBigint n x).length = n) ∧
    (bigintIsEven a = true ↔ val a % 2 = 0) ∧
    bigintToMpz a = val a ∧
    (k < 2 ^ (64 * n) → ∃ l, bigintOfMpz n k = .ok l ∧ l.length = n ∧ val l = k) ∧
    (2 ^ (64 * n) ≤ k → bigintOfMpz n k = .abort) := by
  refine ⟨fun h => ⟨val_smallBigint n x h, by simp⟩, ?_, bigintToMpz_eq a, fun h => ?_,
    bigintOfMpz_abort n k⟩
  · have h1 := and_shiftLeft_one_ne_zero (a.headD 0) 0 (by norm_num)
    have h2 : (val a).testBit 0 = (a.headD 0).toNat.testBit 0 := by
      rw [testBit_val]; cases a <;> rfl
    rw [← h2] at h1
    unfold bigintIsEven
    have h3 : ((1 : Limb) <<< 0) = 1 := rfl
    rw [h3, bne, Nat.testBit_zero] at h1
    cases h4 : (a.headD 0 &&& 1 == 0)
    · rw [h4] at h1; simp at h1; simp; omega
    · rw [h4] at h1; simp at h1; simp; omega
  · exact ⟨_, bigintOfMpz_eq n k h, by simp, by rw [val_limbsOf, Nat.mod_eq_of_lt h]⟩

example : bigintNumBits (limbsOf 3 (2 ^ 100)) = 101 ∧ testBit (limbsOf 3 (2 ^ 100)) 100 = true ∧
    testBit (limbsOf 3 (2 ^ 100)) 99 = false ∧ (100 : Nat) < bigintMaxBits (limbsOf 3 (2 ^ 100)) := by
  decide +kernel

/-! ## C07 -/

/-- C07. The decimal constructor on the decimal text of a value below `2^(64 n)` yields that value. -/
theorem C07_of_decimal (n v : Nat) (h : v < 2 ^ (64 * n)) :
    ∃ l, bigintOfString n (writeNat v) = .ok l ∧ l.length = n ∧ val l = v :=
  ⟨_, bigintOfString_writeNat n v h, by simp, by rw [val_limbsOf, Nat.mod_eq_of_lt h]⟩

/-- C07. Any nonempty digit string (leading zeros allowed): the positional value when it fits,
otherwise the write runs past the object (undefined behaviour, before the assertion is reached). -/
theorem C07_of_digits (n : Nat) (ds : List Nat) (hd : ∀ d ∈ ds, d < 10) (hne : ds ≠ []) :
    bigintOfString n (ds.map digitCode) =
      if Nat.ofDigits 10 ds.reverse < 2 ^ (64 * n) then .ok (limbsOf n (Nat.ofDigits 10 ds.reverse))
      else .ub := by
  unfold bigintOfString
  rw [digitVals_codes ds hd, Outcome.bind_ok, if_neg hne, ← setStrVal_eq]
  have := limbCount_le_iff (setStrVal ds) n
  by_cases h : setStrVal ds < 2 ^ (64 * n)
  · rw [if_pos h, if_neg (by rw [← this] at h; omega)]
  · rw [if_neg h, if_pos (by rw [← this] at h; omega)]

/-- C07. A character that is not a digit is rejected by the assertion. -/
theorem C07_non_digit (n : Nat) (s : List Byte)
    (h : ∃ c ∈ s, ¬ (48 ≤ c.toNat ∧ c.toNat ≤ 57)) : bigintOfString n s = .abort := by
  have : digitVals s = .abort := by
    induction s with
    | nil => simp at h
    | cons c s ih =>
      rw [digitVals]
      by_cases hc : 48 ≤ c.toNat ∧ c.toNat ≤ 57
      · rw [if_pos hc, ih]
        · rfl
        · obtain ⟨x, hx, hx'⟩ := h
          rcases List.mem_cons.1 hx with rfl | hx
          · exact absurd hc hx'
          · exact ⟨x, hx, hx'⟩
      · rw [if_neg hc]
  rw [bigintOfString, this]; rfl

/-- C07. The empty string (also: reading from an exhausted text stream) is an out-of-bounds read. -/
theorem C07_empty (n : Nat) : bigintOfString n [] = .ub := rfl

/-- C07. Stream round trip in text and binary mode, with exact consumption.  In text mode the number
must be followed by white space or the end of the stream, in binary mode by anything. -/
theorem C07_stream_roundtrip (binary : Bool) (n : Nat) :
    RoundTrips (fun a : List Limb => a.length = n) (ContOk binary) (bigintWrite binary)
      (bigintRead binary n) := by
  intro a rest ha hr
  subst ha
  exact bigintRead_write binary a rest hr

example : bigintRead false 2 (bigintWrite false (limbsOf 2 (2 ^ 70 + 5)) ++ [32, 49]) =
    .ok (limbsOf 2 (2 ^ 70 + 5), [32, 49]) ∧ ContOk false [32, 49] :=
  ⟨C07_stream_roundtrip false 2 _ _ (by simp) (Or.inr (by decide)), Or.inr (by decide)⟩

end Libff
