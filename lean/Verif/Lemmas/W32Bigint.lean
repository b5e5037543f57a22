import Verif.Model.W32Bigint
import Verif.Lemmas.W32
import Verif.Lemmas.Bigint
import Verif.Lemmas.Group
import Verif.Lemmas.Stream

/-!
# Lemmas on `bigint<n>` with limbs of 32 bits
-/
namespace Libff.W32



theorem and_shiftLeft_one_ne_zero (x : Limb) (b : Nat) (hb : b < 32) :
    ((x &&& ((1 : Limb) <<< b)) != 0) = x.toNat.testBit b := by
  have h : (x &&& ((1 : Limb) <<< b)) = if x.getLsbD b then (1 : Limb) <<< b else 0 := by
    apply BitVec.eq_of_getLsbD_eq
    intro i hi
    by_cases hx : x.getLsbD b = true
    · rw [if_pos hx]
      simp only [BitVec.getLsbD_and, BitVec.getLsbD_shiftLeft]
      by_cases hib : i = b
      · subst hib; simp [hx]
      · have : ((1 : Limb)).getLsbD (i - b) = decide (i - b = 0) := by
          simp [BitVec.getLsbD_one]
        rw [this]
        by_cases hlt : i < b
        · simp [hlt]
        · have : i - b ≠ 0 := by omega
          simp [this]
    · rw [if_neg hx]
      simp only [BitVec.getLsbD_and, BitVec.getLsbD_shiftLeft]
      by_cases hib : i = b
      · subst hib; simp at hx; simp [hx]
      · have : ((1 : Limb)).getLsbD (i - b) = decide (i - b = 0) := by
          simp [BitVec.getLsbD_one]
        rw [this]
        by_cases hlt : i < b
        · simp [hlt]
        · have : i - b ≠ 0 := by omega
          simp [this]
  rw [h, BitVec.testBit_toNat]
  by_cases hx : x.getLsbD b = true
  · rw [if_pos hx, hx]
    have : (1 : Limb) <<< b ≠ 0 := by
      intro h0
      have := congrArg (fun v => v.getLsbD b) h0
      simp [hb] at this
    simpa using this
  · rw [if_neg hx]; simp at hx; simp [hx]

theorem testBit_val_cons (x : Limb) (l : List Limb) (i : Nat) :
    (val (x :: l)).testBit i = if i < 32 then x.toNat.testBit i else (val l).testBit (i - 32) := by
  rw [val_cons, Nat.add_comm, Nat.testBit_two_pow_mul_add _ x.isLt]

theorem testBit_val (l : List Limb) (i : Nat) :
    (val l).testBit i = (l.getD (i / 32) 0).toNat.testBit (i % 32) := by
  induction l generalizing i with
  | nil => simp
  | cons x l ih =>
    rw [testBit_val_cons]
    split
    · rename_i h
      rw [Nat.div_eq_of_lt h, Nat.mod_eq_of_lt h]; rfl
    · rename_i h
      rw [ih]
      have h1 : i / 32 = (i - 32) / 32 + 1 := by omega
      have h2 : (i - 32) % 32 = i % 32 := by omega
      rw [h1, h2]; rfl

theorem testBit_eq (a : List Limb) (i : Nat) : testBit a i = (val a).testBit i := by
  unfold testBit
  split
  · rename_i h
    have h1 := val_lt a
    have h2 : 2 ^ (32 * a.length) ≤ 2 ^ i := Nat.pow_le_pow_right (by norm_num) (by omega)
    rw [Nat.testBit_lt_two_pow (by omega)]
  · have : i - 32 * (i / 32) = i % 32 := by omega
    simp only
    rw [this, and_shiftLeft_one_ne_zero _ _ (by omega), ← testBit_val]

theorem toMpzLoop_eq (r : Nat) (l : List Limb) :
    toMpzLoop r l.reverse = r * 2 ^ (32 * l.length) + val l := by
  induction l using List.reverseRecOn generalizing r with
  | nil => simp [toMpzLoop]
  | append_singleton l x ih =>
    rw [List.reverse_append, List.reverse_singleton, List.singleton_append, toMpzLoop, ih, val_append,
      val_cons, val_nil, List.length_append]
    simp only [List.length_cons, List.length_nil]
    rw [show 32 * (l.length + (0 + 1)) = 32 + 32 * l.length by ring, Nat.pow_add]
    ring

theorem bigintToMpz_eq (a : List Limb) : bigintToMpz a = val a := by
  rw [bigintToMpz, toMpzLoop_eq]; simp

theorem bigintOfMpz_eq (n k : Nat) (h : k < 2 ^ (32 * n)) : bigintOfMpz n k = .ok (limbsOf n k) := by
  induction n generalizing k with
  | zero => simp at h; simp [bigintOfMpz, h, limbsOf]
  | succ n ih =>
    rw [bigintOfMpz, ih, Outcome.map_ok, limbsOf]
    rw [Nat.div_lt_iff_lt_mul (by norm_num), ← Nat.pow_add]
    exact h

theorem bigintOfMpz_abort (n k : Nat) (h : 2 ^ (32 * n) ≤ k) : bigintOfMpz n k = .abort := by
  induction n generalizing k with
  | zero => simp at h; simp [bigintOfMpz]; omega
  | succ n ih =>
    rw [bigintOfMpz, ih]
    · rfl
    · rw [Nat.le_div_iff_mul_le (by norm_num), ← Nat.pow_add]
      exact h

theorem numBitsLoop_spec (l : List Limb) :
    val l < 2 ^ numBitsLoop l.reverse ∧
      (numBitsLoop l.reverse ≠ 0 → 2 ^ (numBitsLoop l.reverse - 1) ≤ val l) := by
  induction l using List.reverseRecOn with
  | nil => simp [numBitsLoop]
  | append_singleton l x ih =>
    rw [List.reverse_append, List.reverse_singleton, List.singleton_append, numBitsLoop, val_append,
      val_cons, val_nil]
    by_cases hx : x = 0
    · rw [if_pos hx]; subst hx; simpa using ih
    · rw [if_neg hx]
      have hx0 : x.toNat ≠ 0 := fun h => hx ((limb_eq_zero_iff x).2 h)
      have hlt := x.isLt
      have hl := val_lt l
      have hlog : Nat.log2 x.toNat < 32 := (Nat.log2_lt hx0).2 hlt
      have h1 : 2 ^ Nat.log2 x.toNat ≤ x.toNat := Nat.log2_self_le hx0
      have h2 : x.toNat < 2 ^ (Nat.log2 x.toNat + 1) := (Nat.log2_lt hx0).1 (Nat.lt_succ_self _)
      have e : (l.reverse.length + 1) * 32 - clzl x = 32 * l.length + (Nat.log2 x.toNat + 1) := by
        rw [clzl, List.length_reverse]; omega
      rw [e]
      simp only [Nat.mul_zero, Nat.add_zero]
      constructor
      · rw [Nat.pow_add]
        calc _ < 2 ^ (32 * l.length) * 1 + 2 ^ (32 * l.length) * x.toNat := by omega
          _ = 2 ^ (32 * l.length) * (x.toNat + 1) := by ring
          _ ≤ _ := Nat.mul_le_mul_left _ h2
      · intro _
        rw [show 32 * l.length + (Nat.log2 x.toNat + 1) - 1 = 32 * l.length + Nat.log2 x.toNat by omega,
          Nat.pow_add]
        have := Nat.mul_le_mul_left (2 ^ (32 * l.length)) h1
        omega

theorem limbCount_le_iff (v n : Nat) : limbCount v ≤ n ↔ v < 2 ^ (32 * n) := by
  unfold limbCount
  by_cases h : v = 0
  · subst h; simp
  · rw [if_neg h, ← Nat.log2_lt h]; omega

theorem clearBit_length (a : List Limb) (i : Nat) : (clearBit a i).length = a.length := by
  simp [clearBit]

theorem clearBit_testBit (a : List Limb) (i j : Nat) (hi : i < 32 * a.length) :
    (val (clearBit a i)).testBit j = ((val a).testBit j && decide (j ≠ i)) := by
  rw [testBit_val, testBit_val]
  unfold clearBit
  simp only
  have e : i - 32 * (i / 32) = i % 32 := by omega
  rw [e]
  by_cases hp : j / 32 = i / 32
  · rw [hp]
    have hlen : i / 32 < a.length := by omega
    rw [List.getD_eq_getElem?_getD, List.getElem?_set_self hlen, Option.getD_some]
    rw [BitVec.testBit_toNat, BitVec.testBit_toNat]
    rw [BitVec.getLsbD_and, BitVec.getLsbD_not, BitVec.getLsbD_shiftLeft]
    have hj : j % 32 < 32 := by omega
    have h1 : ((1 : Limb)).getLsbD (j % 32 - i % 32) = decide (j % 32 - i % 32 = 0) := by
      simp [BitVec.getLsbD_one]
    rw [h1]
    by_cases hji : j = i
    · subst hji; simp
    · have hne : j % 32 ≠ i % 32 := by omega
      by_cases hlt : j % 32 < i % 32
      · simp [hlt, hj, hji]
      · have : j % 32 - i % 32 ≠ 0 := by omega
        simp [hlt, hj, hji, this]
  · have hji : j ≠ i := by rintro rfl; exact hp rfl
    rw [List.getD_eq_getElem?_getD, List.getElem?_set_ne (fun h => hp h.symm),
      ← List.getD_eq_getElem?_getD]
    simp [hji]

theorem rshift1_spec (l : List Limb) : val (rshift1 l) = val l / 2 ∧ (rshift1 l).length = l.length := by
  induction l with
  | nil => simp [rshift1]
  | cons x l ih =>
    obtain ⟨h1, h2⟩ := ih
    refine ⟨?_, by simp [rshift1, h2]⟩
    simp only [rshift1, val_cons, h1, BitVec.toNat_ofNat]
    have hx := x.isLt
    have hl : val l % 2 = (l.headD 0).toNat % 2 := by
      cases l with
      | nil => simp
      | cons y l => simp only [val_cons, List.headD_cons]; omega
    rw [← hl]
    rw [Nat.mod_eq_of_lt (by omega)]
    omega

theorem headD_mod (c : List Limb) (k : Nat) (hk : k ≤ 32) :
    (c.headD 0).toNat % 2 ^ k = val c % 2 ^ k := by
  cases c with
  | nil => simp
  | cons x l =>
    simp only [List.headD_cons, val_cons]
    have : 2 ^ 32 = 2 ^ k * 2 ^ (32 - k) := by rw [← pow_add]; congr 1; omega
    rw [this, Nat.mul_assoc, Nat.add_mul_mod_self_left]

theorem headD_odd (c : List Limb) : ((c.headD 0 &&& 1) == 1) = decide (val c % 2 = 1) := by
  have h := headD_mod c 1 (by norm_num)
  rw [pow_one] at h
  rw [← h]
  generalize c.headD 0 = x
  rw [Bool.eq_iff_iff]
  simp only [beq_iff_eq, decide_eq_true_eq]
  rw [← BitVec.toNat_inj, BitVec.toNat_and]
  simp


end Libff.W32
