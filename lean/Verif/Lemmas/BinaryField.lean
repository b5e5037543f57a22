import Verif.Lemmas.Binary
import Verif.Lemmas.Primality
import Verif.Spec.Binary
import Mathlib.RingTheory.AdjoinRoot
import Mathlib.FieldTheory.Finite.Basic
import Mathlib.GroupTheory.OrderOfElement
import Mathlib.RingTheory.Ideal.Quotient.Basic

/-!
# Quotients of GF(2)[X] and their computation in the kernel
-/
namespace Libff
open Polynomial

section
variable {R : Type*} [CommRing R]

/-- The polynomial with the low `n` bits of `v` as coefficients, at `x`. -/
def nEval (x : R) (n v : ℕ) : R := ∑ i ∈ Finset.range n, if v.testBit i then x ^ i else 0

theorem bvEval_eq_nEval (x : R) {w : ℕ} (v : BitVec w) : bvEval x v = nEval x w v.toNat := rfl

theorem nEval_xor [CharP R 2] (x : R) (n a b : ℕ) : nEval x n (a ^^^ b) = nEval x n a + nEval x n b := by
  unfold nEval
  rw [← Finset.sum_add_distrib]
  refine Finset.sum_congr rfl fun i _ => ?_
  rw [Nat.testBit_xor]
  cases a.testBit i <;> cases b.testBit i <;> simp [CharTwo.add_self_eq_zero]

theorem nEval_zero (x : R) (n : ℕ) : nEval x n 0 = 0 := by simp [nEval]

theorem nEval_two_pow (x : R) (n i : ℕ) (h : i < n) : nEval x n (2 ^ i) = x ^ i := by
  unfold nEval
  rw [Finset.sum_eq_single_of_mem i (Finset.mem_range.2 h)]
  · rw [Nat.testBit_two_pow_self, if_pos rfl]
  · intro j _ hj
    rw [if_neg]
    simpa [Nat.testBit_two_pow] using fun h => hj h.symm

theorem nEval_one (x : R) (n : ℕ) (h : 0 < n) : nEval x n 1 = 1 := by
  simpa using nEval_two_pow x n 0 h

/-- Bits above a power of two. -/
theorem nEval_add_mul (x : R) (n k a b : ℕ) (ha : a < 2 ^ n) :
    nEval x (n + k) (a + 2 ^ n * b) = nEval x n a + x ^ n * nEval x k b := by
  unfold nEval
  rw [Finset.sum_range_add, Finset.mul_sum]
  have key : ∀ j, (a + 2 ^ n * b).testBit j = if j < n then a.testBit j else b.testBit (j - n) := by
    intro j
    rw [add_comm, Nat.testBit_two_pow_mul_add _ ha]
  congr 1
  · refine Finset.sum_congr rfl fun i hi => ?_
    rw [key, if_pos (Finset.mem_range.1 hi)]
  · refine Finset.sum_congr rfl fun i _ => ?_
    rw [key, if_neg (show ¬ n + i < n by omega), Nat.add_sub_cancel_left, mul_ite, mul_zero, pow_add]

theorem nEval_ge (x : R) (n k a : ℕ) (ha : a < 2 ^ n) : nEval x (n + k) a = nEval x n a := by
  have := nEval_add_mul x n k a 0 ha
  simpa [nEval_zero] using this

/-! ## Kernel arithmetic -/

/-- Multiplication by the indeterminate modulo `X^n + m`. -/
def bMulx (n m a : ℕ) : ℕ := if Nat.testBit a (n - 1) then Nat.xor (2 * a % 2 ^ n) m else 2 * a % 2 ^ n

theorem bMulx_lt (n m a : ℕ) (hm : m < 2 ^ n) : bMulx n m a < 2 ^ n := by
  unfold bMulx
  split
  · exact Nat.xor_lt_two_pow (Nat.mod_lt _ (by positivity)) hm
  · exact Nat.mod_lt _ (by positivity)

theorem nEval_bMulx [CharP R 2] (x : R) (n m a : ℕ) (hn : 0 < n) (hx : x ^ n = nEval x n m) (ha : a < 2 ^ n) :
    nEval x n (bMulx n m a) = x * nEval x n a := by
  obtain ⟨w, rfl⟩ : ∃ w, n = w + 1 := ⟨n - 1, by omega⟩
  have h := bvEval_shl x (BitVec.ofNat (w + 1) a)
  have e1 : (BitVec.ofNat (w + 1) a).toNat = a := by rw [BitVec.toNat_ofNat, Nat.mod_eq_of_lt ha]
  have e2 : (BitVec.ofNat (w + 1) a <<< 1).toNat = 2 * a % 2 ^ (w + 1) := by
    rw [BitVec.toNat_shiftLeft, e1, Nat.shiftLeft_eq, pow_one, Nat.mul_comm]
  rw [bvEval_eq_nEval, bvEval_eq_nEval, e1, e2, BitVec.getLsbD, e1] at h
  unfold bMulx
  rw [Nat.add_sub_cancel]
  split
  · rename_i h0
    rw [if_pos h0, hx] at h
    rw [← h]; exact nEval_xor x _ _ _
  · rename_i h0
    rw [if_neg h0, add_zero] at h
    exact h

/-- Shift-and-add product. -/
def bMul (n m : ℕ) : ℕ → ℕ → ℕ → ℕ → ℕ
  | 0, _, _, acc => acc
  | k + 1, a, b, acc => bMul n m k (bMulx n m a) (b / 2) (if b % 2 = 1 then Nat.xor acc a else acc)

theorem bMul_spec [CharP R 2] (x : R) (n m : ℕ) (hn : 0 < n) (hm : m < 2 ^ n) (hx : x ^ n = nEval x n m) (k : ℕ) :
    ∀ a b acc, a < 2 ^ n → acc < 2 ^ n → bMul n m k a b acc < 2 ^ n ∧
      nEval x n (bMul n m k a b acc) = nEval x n acc + nEval x n a * nEval x k b := by
  induction k with
  | zero =>
    intro a b acc _ h
    refine ⟨h, ?_⟩
    rw [bMul, show nEval x 0 b = 0 from Finset.sum_range_zero _, mul_zero, add_zero]
  | succ k ih =>
    intro a b acc ha hacc
    have h1 : (if b % 2 = 1 then Nat.xor acc a else acc) < 2 ^ n := by
      split
      · exact Nat.xor_lt_two_pow hacc ha
      · exact hacc
    obtain ⟨h2, h3⟩ := ih (bMulx n m a) (b / 2) _ (bMulx_lt n m a hm) h1
    refine ⟨h2, ?_⟩
    rw [bMul, h3, nEval_bMulx x n m a hn hx ha]
    have h4 : nEval x (k + 1) b = (if b % 2 = 1 then 1 else 0) + x * nEval x k (b / 2) := by
      have := nEval_add_mul x 1 k (b % 2) (b / 2) (Nat.mod_lt _ (by norm_num))
      rw [pow_one, Nat.mod_add_div, add_comm 1 k] at this
      rw [this, pow_one]
      congr 1
      rcases Nat.mod_two_eq_zero_or_one b with h | h <;> simp [h, nEval]
    rw [h4]
    split
    · have : nEval x n (Nat.xor acc a) = nEval x n acc + nEval x n a := nEval_xor x n acc a
      rw [this]; ring
    · ring

/-- Reduce modulo `X^n +` the sum of `X^t` for the `taps`, `r` times. -/
def bRed (n : ℕ) (taps : List ℕ) : ℕ → ℕ → ℕ
  | 0, s => s
  | r + 1, s =>
    bRed n taps r (taps.foldl (fun acc t => Nat.xor acc (Nat.shiftLeft (Nat.shiftRight s n) t)) (s % 2 ^ n))

/-- A fast squaring: spread the bits by shifts and masks, then reduce. -/
def bSq (steps : List (ℕ × ℕ)) (n : ℕ) (taps : List ℕ) (a : ℕ) : ℕ :=
  let s := steps.foldl (fun y st => Nat.land (Nat.xor y (Nat.shiftLeft y st.1)) st.2) a
  bRed n taps (if n = 32 then 5 else 2) s

theorem foldl_xor {α : Type*} (g : ℕ → α → ℕ) (hg : ∀ a b t, g (a ^^^ b) t = g a t ^^^ g b t) (l : List α) :
    ∀ a b, l.foldl g (a ^^^ b) = l.foldl g a ^^^ l.foldl g b := by
  induction l with
  | nil => intro a b; rfl
  | cons t l ih => intro a b; rw [List.foldl_cons, List.foldl_cons, List.foldl_cons, hg, ih]

theorem bSq_xor (steps : List (ℕ × ℕ)) (n : ℕ) (taps : List ℕ) (a b : ℕ) :
    bSq steps n taps (a ^^^ b) = bSq steps n taps a ^^^ bSq steps n taps b := by
  unfold bSq
  have h1 := foldl_xor (fun (y : ℕ) (st : ℕ × ℕ) => Nat.land (Nat.xor y (Nat.shiftLeft y st.1)) st.2)
    (fun a b t => by
      apply Nat.eq_of_testBit_eq
      intro i
      show ((a ^^^ b ^^^ ((a ^^^ b) <<< t.1)) &&& t.2).testBit i =
        (((a ^^^ (a <<< t.1)) &&& t.2) ^^^ ((b ^^^ (b <<< t.1)) &&& t.2)).testBit i
      simp only [Nat.testBit_xor, Nat.testBit_and, Nat.testBit_shiftLeft]
      cases a.testBit i <;> cases b.testBit i <;> cases t.2.testBit i <;> simp <;>
        cases decide (i ≥ t.1) <;> simp) steps a b
  have h2 : ∀ s t : ℕ, taps.foldl (fun acc k => Nat.xor acc (Nat.shiftLeft (Nat.shiftRight (s ^^^ t) n) k)) ((s ^^^ t) % 2 ^ n)
      = taps.foldl (fun acc k => Nat.xor acc (Nat.shiftLeft (Nat.shiftRight s n) k)) (s % 2 ^ n) ^^^
        taps.foldl (fun acc k => Nat.xor acc (Nat.shiftLeft (Nat.shiftRight t n) k)) (t % 2 ^ n) := by
    intro s t
    have key : ∀ (l : List ℕ) (u v : ℕ),
        l.foldl (fun acc k => Nat.xor acc (Nat.shiftLeft (Nat.shiftRight (s ^^^ t) n) k)) (u ^^^ v)
        = l.foldl (fun acc k => Nat.xor acc (Nat.shiftLeft (Nat.shiftRight s n) k)) u ^^^
          l.foldl (fun acc k => Nat.xor acc (Nat.shiftLeft (Nat.shiftRight t n) k)) v := by
      intro l
      induction l with
      | nil => intro u v; rfl
      | cons k l ih =>
        intro u v
        rw [List.foldl_cons, List.foldl_cons, List.foldl_cons, ← ih]
        congr 1
        show u ^^^ v ^^^ (((s ^^^ t) >>> n) <<< k) = u ^^^ ((s >>> n) <<< k) ^^^ (v ^^^ ((t >>> n) <<< k))
        rw [Nat.shiftRight_xor_distrib, Nat.shiftLeft_xor_distrib]
        ac_rfl
    rw [← key, Nat.xor_mod_two_pow]
  have h3 : ∀ r s t, bRed n taps r (s ^^^ t) = bRed n taps r s ^^^ bRed n taps r t := by
    intro r
    induction r with
    | zero => intro s t; rfl
    | succ r ih => intro s t; rw [bRed, h2, ih]; rfl
  rw [← h3, ← h1]

/-- A linear map that squares the powers of `x` squares everything. -/
theorem linear_sq [CharP R 2] (x : R) (n : ℕ) (L : ℕ → ℕ) (hL : ∀ a b, L (a ^^^ b) = L a ^^^ L b)
    (hb : ∀ i < n, nEval x n (L (2 ^ i)) = (x ^ i) ^ 2) (a : ℕ) (ha : a < 2 ^ n) :
    nEval x n (L a) = nEval x n a ^ 2 := by
  have h0 : L 0 = 0 := by have := hL 0 0; rw [Nat.xor_self] at this; rw [this, Nat.xor_self]
  have key : ∀ k ≤ n, ∀ a < 2 ^ k, nEval x n (L a) = nEval x n a ^ 2 := by
    intro k
    induction k with
    | zero =>
      intro _ a ha
      have : a = 0 := by simpa using ha
      rw [this, h0, nEval_zero]; simp
    | succ k ih =>
      intro hk a ha
      by_cases hbit : a.testBit k = true
      · have e : a = (a ^^^ 2 ^ k) ^^^ 2 ^ k := by rw [Nat.xor_assoc, Nat.xor_self, Nat.xor_zero]
        have hlt : a ^^^ 2 ^ k < 2 ^ k := by
          apply Nat.lt_pow_two_of_testBit
          intro i hi
          rw [Nat.testBit_xor, Nat.testBit_two_pow]
          rcases Nat.eq_or_lt_of_le hi with rfl | h
          · simp [hbit]
          · rw [Nat.testBit_lt_two_pow (lt_of_lt_of_le ha (Nat.pow_le_pow_right (by norm_num) h))]
            simp; omega
        rw [e, hL, nEval_xor, nEval_xor, ih (by omega) _ hlt, hb k (by omega), nEval_two_pow x n k (by omega)]
        rw [CharTwo.add_sq]
      · refine ih (by omega) a ?_
        apply Nat.lt_pow_two_of_testBit
        intro i hi
        rcases Nat.eq_or_lt_of_le hi with rfl | h
        · simpa using hbit
        · exact Nat.testBit_lt_two_pow (lt_of_lt_of_le ha (Nat.pow_le_pow_right (by norm_num) h))
  exact key n le_rfl a ha

/-- Powers of `g` (of at most four bits), from the high bits of `e` down. -/
def bPow (sq : ℕ → ℕ) (n m g e : ℕ) : ℕ → ℕ → ℕ
  | 0, r => r
  | k + 1, r =>
    let s := sq r
    bPow sq n m g e k (if Nat.testBit e k then bMul n m 4 s g 0 else s)

theorem bPow_spec [CharP R 2] (x : R) (n m g : ℕ) (sq : ℕ → ℕ) (hn : 4 ≤ n) (hm : m < 2 ^ n) (hg : g < 2 ^ 4)
    (hx : x ^ n = nEval x n m) (hs : ∀ a < 2 ^ n, sq a < 2 ^ n ∧ nEval x n (sq a) = nEval x n a ^ 2) (e k : ℕ) :
    ∀ r < 2 ^ n, bPow sq n m g e k r < 2 ^ n ∧
      nEval x n (bPow sq n m g e k r) = nEval x n r ^ 2 ^ k * nEval x n g ^ (e % 2 ^ k) := by
  induction k with
  | zero => intro r hr; exact ⟨hr, by simp [bPow, Nat.mod_one]⟩
  | succ k ih =>
    intro r hr
    obtain ⟨h1, h2⟩ := hs r hr
    have hg4 : nEval x 4 g = nEval x n g := by
      obtain ⟨j, rfl⟩ := Nat.exists_eq_add_of_le hn
      exact (nEval_ge x 4 j g hg).symm
    obtain ⟨h3, h4⟩ := bMul_spec x n m (by omega) hm hx 4 (sq r) g 0 h1 (by positivity)
    rw [nEval_zero, zero_add, hg4, h2] at h4
    rw [bPow]
    have hmod : e % 2 ^ (k + 1) = e % 2 ^ k + 2 ^ k * (if e.testBit k then 1 else 0) := by
      rw [Nat.mod_pow_succ, Nat.testBit_eq_decide_div_mod_eq]
      rcases Nat.mod_two_eq_zero_or_one (e / 2 ^ k) with h | h <;> simp [h]
    split
    · rename_i hb
      obtain ⟨h5, h6⟩ := ih _ h3
      refine ⟨h5, ?_⟩
      rw [h6, h4, hmod, if_pos hb, mul_one, mul_pow, ← pow_mul, mul_assoc, ← pow_add]
      congr 2
      · rw [pow_succ, mul_comm]
      · rw [add_comm]
    · rename_i hb
      obtain ⟨h5, h6⟩ := ih _ h1
      refine ⟨h5, ?_⟩
      rw [h6, h2, hmod, if_neg hb, mul_zero, add_zero, ← pow_mul]
      congr 2
      rw [pow_succ, mul_comm]

/-- The squaring steps for numbers of at most 256 bits. -/
def sqSteps : List (ℕ × ℕ) :=
  [(128, 0x00000000000000000000000000000000ffffffffffffffffffffffffffffffff00000000000000000000000000000000ffffffffffffffffffffffffffffffff),
   (64, 0x0000000000000000ffffffffffffffff0000000000000000ffffffffffffffff0000000000000000ffffffffffffffff0000000000000000ffffffffffffffff),
   (32, 0x00000000ffffffff00000000ffffffff00000000ffffffff00000000ffffffff00000000ffffffff00000000ffffffff00000000ffffffff00000000ffffffff),
   (16, 0x0000ffff0000ffff0000ffff0000ffff0000ffff0000ffff0000ffff0000ffff0000ffff0000ffff0000ffff0000ffff0000ffff0000ffff0000ffff0000ffff),
   (8, 0x00ff00ff00ff00ff00ff00ff00ff00ff00ff00ff00ff00ff00ff00ff00ff00ff00ff00ff00ff00ff00ff00ff00ff00ff00ff00ff00ff00ff00ff00ff00ff00ff),
   (4, 0x0f0f0f0f0f0f0f0f0f0f0f0f0f0f0f0f0f0f0f0f0f0f0f0f0f0f0f0f0f0f0f0f0f0f0f0f0f0f0f0f0f0f0f0f0f0f0f0f0f0f0f0f0f0f0f0f0f0f0f0f0f0f0f0f),
   (2, 0x33333333333333333333333333333333333333333333333333333333333333333333333333333333333333333333333333333333333333333333333333333333),
   (1, 0x55555555555555555555555555555555555555555555555555555555555555555555555555555555555555555555555555555555555555555555555555555555)]

/-- The squares of the powers of `x` below `x^n` come out right. -/
def sqOk (n m : ℕ) (taps : List ℕ) : ℕ → ℕ → ℕ → Bool
  | 0, _, _ => true
  | k + 1, i, t => (bSq sqSteps n taps (2 ^ i) == t) && sqOk n m taps k (i + 1) (bMulx n m (bMulx n m t))

theorem sqOk_spec [CharP R 2] (x : R) (n m : ℕ) (taps : List ℕ) (hn : 0 < n) (hm : m < 2 ^ n)
    (hx : x ^ n = nEval x n m) (k : ℕ) : ∀ i t, t < 2 ^ n → nEval x n t = (x ^ i) ^ 2 → sqOk n m taps k i t = true →
      ∀ j, i ≤ j → j < i + k → bSq sqSteps n taps (2 ^ j) < 2 ^ n ∧
        nEval x n (bSq sqSteps n taps (2 ^ j)) = (x ^ j) ^ 2 := by
  induction k with
  | zero => intro i t _ _ _ j h1 h2; omega
  | succ k ih =>
    intro i t ht h h0 j h1 h2
    rw [sqOk, Bool.and_eq_true, beq_iff_eq] at h0
    rcases Nat.eq_or_lt_of_le h1 with rfl | h3
    · rw [h0.1]; exact ⟨ht, h⟩
    · refine ih (i + 1) _ (bMulx_lt _ _ _ hm) ?_ h0.2 j h3 (by omega)
      rw [nEval_bMulx x n m _ hn hx (bMulx_lt _ _ _ hm), nEval_bMulx x n m _ hn hx ht, h]
      ring

theorem bSq_lt_of_basis (n : ℕ) (taps : List ℕ) (h : ∀ j < n, bSq sqSteps n taps (2 ^ j) < 2 ^ n) :
    ∀ k ≤ n, ∀ a < 2 ^ k, bSq sqSteps n taps a < 2 ^ n := by
  have h0 : bSq sqSteps n taps 0 = 0 := by
    have := bSq_xor sqSteps n taps 0 0; rw [Nat.xor_self] at this; rw [this, Nat.xor_self]
  intro k
  induction k with
  | zero =>
    intro _ a ha
    have : a = 0 := by simpa using ha
    rw [this, h0]; positivity
  | succ k ih =>
    intro hk a ha
    by_cases hbit : a.testBit k = true
    · have e : a = (a ^^^ 2 ^ k) ^^^ 2 ^ k := by rw [Nat.xor_assoc, Nat.xor_self, Nat.xor_zero]
      have hlt : a ^^^ 2 ^ k < 2 ^ k := by
        apply Nat.lt_pow_two_of_testBit
        intro i hi
        rw [Nat.testBit_xor, Nat.testBit_two_pow]
        rcases Nat.eq_or_lt_of_le hi with rfl | h
        · simp [hbit]
        · rw [Nat.testBit_lt_two_pow (lt_of_lt_of_le ha (Nat.pow_le_pow_right (by norm_num) h))]
          simp; omega
      rw [e, bSq_xor]
      exact Nat.xor_lt_two_pow (ih (by omega) _ hlt) (h k (by omega))
    · refine ih (by omega) a ?_
      apply Nat.lt_pow_two_of_testBit
      intro i hi
      rcases Nat.eq_or_lt_of_le hi with rfl | h
      · simpa using hbit
      · exact Nat.testBit_lt_two_pow (lt_of_lt_of_le ha (Nat.pow_le_pow_right (by norm_num) h))

/-- The fast squaring is right. -/
theorem bSq_spec [CharP R 2] (x : R) (n m : ℕ) (taps : List ℕ) (hn : 0 < n) (hm : m < 2 ^ n)
    (hx : x ^ n = nEval x n m) (hok : sqOk n m taps n 0 1 = true) (a : ℕ) (ha : a < 2 ^ n) :
    bSq sqSteps n taps a < 2 ^ n ∧ nEval x n (bSq sqSteps n taps a) = nEval x n a ^ 2 := by
  have h := sqOk_spec x n m taps hn hm hx n 0 1 (Nat.one_lt_two_pow hn.ne') (by rw [nEval_one x n hn]; simp) hok
  exact ⟨bSq_lt_of_basis n taps (fun j hj => (h j (by omega) (by omega)).1) n le_rfl a ha,
    linear_sq x n _ (bSq_xor sqSteps n taps) (fun i hi => (h i (by omega) (by omega)).2) a ha⟩

/-- `g ^ e` in the kernel. -/
def bPowK (n m : ℕ) (taps : List ℕ) (g e : ℕ) : ℕ := bPow (bSq sqSteps n taps) n m g e n 1

theorem bPowK_spec [CharP R 2] (x : R) (n m : ℕ) (taps : List ℕ) (hn : 4 ≤ n) (hm : m < 2 ^ n) (g e : ℕ) (hg : g < 2 ^ 4)
    (he : e < 2 ^ n) (hx : x ^ n = nEval x n m) (hok : sqOk n m taps n 0 1 = true) :
    bPowK n m taps g e < 2 ^ n ∧ nEval x n (bPowK n m taps g e) = nEval x n g ^ e := by
  have h := bPow_spec x n m g _ hn hm hg hx (bSq_spec x n m taps (by omega) hm hx hok) e n 1
    (Nat.one_lt_two_pow (by omega))
  rw [nEval_one x n (by omega), one_pow, one_mul, Nat.mod_eq_of_lt he] at h
  exact h

end
end Libff
