import Verif.Model.Stream
import Verif.Lemmas.FpRepr
import Mathlib.Data.Nat.Bitwise
import Mathlib.Data.Nat.Log
import Mathlib.Data.List.Induction

namespace Libff

theorem isEq_compare {a b : Nat} : (compare a b == Ordering.lt) = decide (a < b) := by
  rcases Nat.lt_trichotomy a b with h | h | h
  · rw [Nat.compare_eq_lt.2 h]; simp; omega
  · rw [Nat.compare_eq_eq.2 h]; simp; omega
  · rw [Nat.compare_eq_gt.2 h]; simp; omega

theorem and_shiftLeft_one_ne_zero (x : Limb) (b : Nat) (hb : b < 64) :
    ((x &&& ((1 : Limb) <<< b)) != 0) = x.toNat.testBit b := by
  have h : (x &&& ((1 : Limb) <<< b)) = if x.getLsbD b then (1 : Limb) <<< b else 0 := by
    apply BitVec.eq_of_getLsbD_eq
    intro i hi
    by_cases hx : x.getLsbD b = true
    · rw [if_pos hx]
      simp only [BitVec.getLsbD_and, BitVec.getLsbD_shiftLeft]
      by_cases hib : i = b
      · subst hib; simp [hx]
      · have : ((1 : Limb)).getLsbD (i - b) = decide (i - b = 0) := by
          simp [BitVec.getLsbD_one]
        rw [this]
        by_cases hlt : i < b
        · simp [hlt]
        · have : i - b ≠ 0 := by omega
          simp [this]
    · rw [if_neg hx]
      simp only [BitVec.getLsbD_and, BitVec.getLsbD_shiftLeft]
      by_cases hib : i = b
      · subst hib; simp at hx; simp [hx]
      · have : ((1 : Limb)).getLsbD (i - b) = decide (i - b = 0) := by
          simp [BitVec.getLsbD_one]
        rw [this]
        by_cases hlt : i < b
        · simp [hlt]
        · have : i - b ≠ 0 := by omega
          simp [this]
  rw [h, BitVec.testBit_toNat]
  by_cases hx : x.getLsbD b = true
  · rw [if_pos hx, hx]
    have : (1 : Limb) <<< b ≠ 0 := by
      intro h0
      have := congrArg (fun v => v.getLsbD b) h0
      simp [hb] at this
    simpa using this
  · rw [if_neg hx]; simp at hx; simp [hx]

theorem testBit_val_cons (x : Limb) (l : List Limb) (i : Nat) :
    (val (x :: l)).testBit i = if i < 64 then x.toNat.testBit i else (val l).testBit (i - 64) := by
  rw [val_cons, Nat.add_comm, Nat.testBit_two_pow_mul_add _ x.isLt]

theorem testBit_val (l : List Limb) (i : Nat) :
    (val l).testBit i = (l.getD (i / 64) 0).toNat.testBit (i % 64) := by
  induction l generalizing i with
  | nil => simp
  | cons x l ih =>
    rw [testBit_val_cons]
    split
    · rename_i h
      rw [Nat.div_eq_of_lt h, Nat.mod_eq_of_lt h]; rfl
    · rename_i h
      rw [ih]
      have h1 : i / 64 = (i - 64) / 64 + 1 := by omega
      have h2 : (i - 64) % 64 = i % 64 := by omega
      rw [h1, h2]; rfl

theorem testBit_eq (a : List Limb) (i : Nat) : testBit a i = (val a).testBit i := by
  unfold testBit
  split
  · rename_i h
    have h1 := val_lt a
    have h2 : 2 ^ (64 * a.length) ≤ 2 ^ i := Nat.pow_le_pow_right (by norm_num) (by omega)
    rw [Nat.testBit_lt_two_pow (by omega)]
  · have : i - 64 * (i / 64) = i % 64 := by omega
    simp only
    rw [this, and_shiftLeft_one_ne_zero _ _ (by omega), ← testBit_val]

theorem toMpzLoop_eq (r : Nat) (l : List Limb) :
    toMpzLoop r l.reverse = r * 2 ^ (64 * l.length) + val l := by
  induction l using List.reverseRecOn generalizing r with
  | nil => simp [toMpzLoop]
  | append_singleton l x ih =>
    rw [List.reverse_append, List.reverse_singleton, List.singleton_append, toMpzLoop, ih, val_append,
      val_cons, val_nil, List.length_append]
    simp only [List.length_cons, List.length_nil]
    rw [show 64 * (l.length + (0 + 1)) = 64 + 64 * l.length by ring, Nat.pow_add]
    ring

theorem bigintToMpz_eq (a : List Limb) : bigintToMpz a = val a := by
  rw [bigintToMpz, toMpzLoop_eq]; simp

theorem bigintOfMpz_eq (n k : Nat) (h : k < 2 ^ (64 * n)) : bigintOfMpz n k = .ok (limbsOf n k) := by
  induction n generalizing k with
  | zero => simp at h; simp [bigintOfMpz, h, limbsOf]
  | succ n ih =>
    rw [bigintOfMpz, ih, Outcome.map_ok, limbsOf]
    rw [Nat.div_lt_iff_lt_mul (by norm_num), ← Nat.pow_add]
    exact h

theorem bigintOfMpz_abort (n k : Nat) (h : 2 ^ (64 * n) ≤ k) : bigintOfMpz n k = .abort := by
  induction n generalizing k with
  | zero => simp at h; simp [bigintOfMpz]; omega
  | succ n ih =>
    rw [bigintOfMpz, ih]
    · rfl
    · rw [Nat.le_div_iff_mul_le (by norm_num), ← Nat.pow_add]
      exact h

theorem numBitsLoop_spec (l : List Limb) :
    val l < 2 ^ numBitsLoop l.reverse ∧
      (numBitsLoop l.reverse ≠ 0 → 2 ^ (numBitsLoop l.reverse - 1) ≤ val l) := by
  induction l using List.reverseRecOn with
  | nil => simp [numBitsLoop]
  | append_singleton l x ih =>
    rw [List.reverse_append, List.reverse_singleton, List.singleton_append, numBitsLoop, val_append,
      val_cons, val_nil]
    by_cases hx : x = 0
    · rw [if_pos hx]; subst hx; simpa using ih
    · rw [if_neg hx]
      have hx0 : x.toNat ≠ 0 := fun h => hx ((limb_eq_zero_iff x).2 h)
      have hlt := x.isLt
      have hl := val_lt l
      have hlog : Nat.log2 x.toNat < 64 := (Nat.log2_lt hx0).2 hlt
      have h1 : 2 ^ Nat.log2 x.toNat ≤ x.toNat := Nat.log2_self_le hx0
      have h2 : x.toNat < 2 ^ (Nat.log2 x.toNat + 1) := (Nat.log2_lt hx0).1 (Nat.lt_succ_self _)
      have e : (l.reverse.length + 1) * 64 - clzl x = 64 * l.length + (Nat.log2 x.toNat + 1) := by
        rw [clzl, List.length_reverse]; omega
      rw [e]
      simp only [Nat.mul_zero, Nat.add_zero]
      constructor
      · rw [Nat.pow_add]
        calc _ < 2 ^ (64 * l.length) * 1 + 2 ^ (64 * l.length) * x.toNat := by omega
          _ = 2 ^ (64 * l.length) * (x.toNat + 1) := by ring
          _ ≤ _ := Nat.mul_le_mul_left _ h2
      · intro _
        rw [show 64 * l.length + (Nat.log2 x.toNat + 1) - 1 = 64 * l.length + Nat.log2 x.toNat by omega,
          Nat.pow_add]
        have := Nat.mul_le_mul_left (2 ^ (64 * l.length)) h1
        omega

theorem limbCount_le_iff (v n : Nat) : limbCount v ≤ n ↔ v < 2 ^ (64 * n) := by
  unfold limbCount
  by_cases h : v = 0
  · subst h; simp
  · rw [if_neg h, ← Nat.log2_lt h]; omega


theorem digitVals_codes (ds : List Nat) (h : ∀ d ∈ ds, d < 10) :
    digitVals (ds.map digitCode) = .ok ds := by
  induction ds with
  | nil => rfl
  | cons d ds ih =>
    have hd : d < 10 := h d (by simp)
    have hc : (digitCode d).toNat = 48 + d := by
      rw [digitCode, BitVec.toNat_ofNat, Nat.mod_eq_of_lt (by omega)]
    rw [List.map_cons, digitVals, hc, if_pos (by omega), ih (fun x hx => h x (by simp [hx])),
      Outcome.map_ok]
    congr 2; omega

theorem clearBit_length (a : List Limb) (i : Nat) : (clearBit a i).length = a.length := by
  simp [clearBit]

theorem clearBit_testBit (a : List Limb) (i j : Nat) (hi : i < 64 * a.length) :
    (val (clearBit a i)).testBit j = ((val a).testBit j && decide (j ≠ i)) := by
  rw [testBit_val, testBit_val]
  unfold clearBit
  simp only
  have e : i - 64 * (i / 64) = i % 64 := by omega
  rw [e]
  by_cases hp : j / 64 = i / 64
  · rw [hp]
    have hlen : i / 64 < a.length := by omega
    rw [List.getD_eq_getElem?_getD, List.getElem?_set_self hlen, Option.getD_some]
    rw [BitVec.testBit_toNat, BitVec.testBit_toNat]
    rw [BitVec.getLsbD_and, BitVec.getLsbD_not, BitVec.getLsbD_shiftLeft]
    have hj : j % 64 < 64 := by omega
    have h1 : ((1 : Limb)).getLsbD (j % 64 - i % 64) = decide (j % 64 - i % 64 = 0) := by
      simp [BitVec.getLsbD_one]
    rw [h1]
    by_cases hji : j = i
    · subst hji; simp
    · have hne : j % 64 ≠ i % 64 := by omega
      by_cases hlt : j % 64 < i % 64
      · simp [hlt, hj, hji]
      · have : j % 64 - i % 64 ≠ 0 := by omega
        simp [hlt, hj, hji, this]
  · have hji : j ≠ i := by rintro rfl; exact hp rfl
    rw [List.getD_eq_getElem?_getD, List.getElem?_set_ne (fun h => hp h.symm),
      ← List.getD_eq_getElem?_getD]
    simp [hji]

end Libff
