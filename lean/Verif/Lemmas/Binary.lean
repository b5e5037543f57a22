import Verif.Model.Binary
import Verif.Lemmas.Algorithms
import Mathlib.Algebra.BigOperators.Intervals
import Mathlib.Algebra.CharP.Two
import Mathlib.Tactic.Ring
import Mathlib.Tactic.LinearCombination

/-!
# Evaluating words at an element of a ring of characteristic two
-/
namespace Libff

section
variable {R : Type*} [CommRing R]

/-- The polynomial with the bits of `v` as coefficients, at `x`. -/
def bvEval (x : R) {w : Nat} (v : BitVec w) : R :=
  ∑ i ∈ Finset.range w, if v.getLsbD i then x ^ i else 0

theorem bvEval_zero (x : R) (w : Nat) : bvEval x (0 : BitVec w) = 0 := by
  simp [bvEval]

theorem bvEval_xor [CharP R 2] (x : R) {w : Nat} (a b : BitVec w) :
    bvEval x (a ^^^ b) = bvEval x a + bvEval x b := by
  unfold bvEval
  rw [← Finset.sum_add_distrib]
  refine Finset.sum_congr rfl fun i _ => ?_
  rw [BitVec.getLsbD_xor]
  cases a.getLsbD i <;> cases b.getLsbD i <;> simp [CharTwo.add_self_eq_zero]

/-- A one-bit left shift; the top bit falls out. -/
theorem bvEval_shl (x : R) {w : Nat} (a : BitVec (w + 1)) :
    bvEval x (a <<< 1) + (if a.getLsbD w then x ^ (w + 1) else 0) = x * bvEval x a := by
  unfold bvEval
  rw [Finset.sum_range_succ', Finset.sum_range_succ (n := w) (f := fun i => if a.getLsbD i then x ^ i else 0),
    mul_add, Finset.mul_sum]
  have h0 : (if (a <<< 1).getLsbD 0 then x ^ 0 else 0) = (0 : R) := by simp
  rw [h0, add_zero]
  congr 1
  · refine Finset.sum_congr rfl fun i hi => ?_
    have hi := Finset.mem_range.1 hi
    rw [BitVec.getLsbD_shiftLeft]
    have h1 : decide (i + 1 < w + 1) = true := by simpa using hi
    simp only [h1, Bool.true_and, show ¬ (i + 1 < 1) by omega, decide_false, Bool.not_false, Nat.add_sub_cancel]
    rw [mul_ite, mul_zero, pow_succ, mul_comm]
  · rw [mul_ite, mul_zero, pow_succ, mul_comm]

/-- The top bit of a word, in `R`. -/
def topBit (a : BitVec 64) : R := if a.getLsbD 63 then 1 else 0

theorem bvEval_shl64 (x : R) (a : BitVec 64) : bvEval x (a <<< 1) + x ^ 64 * topBit a = x * bvEval x a := by
  rw [← bvEval_shl x (w := 63) a, topBit, mul_ite, mul_one, mul_zero]

/-- A word shifted up by one bit with the top bit of the word below shifted in. -/
theorem bvEval_shl_or [CharP R 2] (x : R) (a c : BitVec 64) :
    bvEval x ((a <<< 1) ||| (c >>> 63)) = x * bvEval x a + x ^ 64 * topBit a + topBit c := by
  have h1 : (a <<< 1) ||| (c >>> 63) = (a <<< 1) ^^^ (c >>> 63) := by
    apply BitVec.eq_of_getLsbD_eq
    intro i hi
    rw [BitVec.getLsbD_or, BitVec.getLsbD_xor, BitVec.getLsbD_shiftLeft, BitVec.getLsbD_ushiftRight]
    rcases Nat.eq_zero_or_pos i with rfl | h0
    · simp
    · rw [BitVec.getLsbD_of_ge c (63 + i) (by omega)]; simp
  have h2 : bvEval x (c >>> 63) = if c.getLsbD 63 then 1 else 0 := by
    unfold bvEval
    rw [Finset.sum_range_succ' _ 63]
    rw [Finset.sum_eq_zero]
    · simp [BitVec.getLsbD_ushiftRight]
    · intro i _
      rw [BitVec.getLsbD_ushiftRight, BitVec.getLsbD_of_ge c _ (by omega)]; simp
  rw [h1, bvEval_xor, h2, ← bvEval_shl64 x a, add_assoc (bvEval x (a <<< 1)), CharTwo.add_self_eq_zero, add_zero]
  rfl

/-- A single word with the same value. -/
theorem bvEval_zeroExtend (x : R) {w v : Nat} (a : BitVec w) (h : w ≤ v) :
    bvEval x (a.zeroExtend v) = bvEval x a := by
  unfold bvEval
  obtain ⟨k, rfl⟩ := Nat.exists_eq_add_of_le h
  rw [Finset.sum_range_add, Finset.sum_eq_zero (s := Finset.range k), add_zero]
  · refine Finset.sum_congr rfl fun i hi => ?_
    have hi := Finset.mem_range.1 hi
    simp [BitVec.getLsbD_setWidth, show i < w + k by omega]
  · intro i _
    simp [BitVec.getLsbD_setWidth]

/-- A left shift that loses no bit. -/
theorem bvEval_shl_zeroExtend (x : R) (b : BitVec 64) (i : Nat) (hi : i ≤ 64) :
    bvEval x (b.zeroExtend 128 <<< i) = x ^ i * bvEval x b := by
  unfold bvEval
  obtain ⟨k, hk⟩ := Nat.exists_eq_add_of_le hi
  rw [show Finset.range 128 = Finset.range (i + 64 + k) by rw [show i + 64 + k = 128 by omega],
    Finset.sum_range_add, Finset.sum_range_add, Finset.sum_eq_zero (s := Finset.range i),
    Finset.sum_eq_zero (s := Finset.range k), add_zero, zero_add, Finset.mul_sum]
  · refine Finset.sum_congr rfl fun j hj => ?_
    have hj := Finset.mem_range.1 hj
    rw [BitVec.getLsbD_shiftLeft]
    simp [BitVec.getLsbD_setWidth, show i + j < 128 by omega, show j < 128 by omega, pow_add]
  · intro j hj
    rw [BitVec.getLsbD_shiftLeft]
    have : b.getLsbD (i + 64 + j - i) = false := BitVec.getLsbD_of_ge _ _ (by omega)
    simp [BitVec.getLsbD_setWidth, this]
  · intro j hj
    have hj := Finset.mem_range.1 hj
    rw [BitVec.getLsbD_shiftLeft]
    simp [hj]

theorem bvEval_split (x : R) (v : BitVec 128) :
    bvEval x v = bvEval x (v.extractLsb' 0 64) + x ^ 64 * bvEval x (v.extractLsb' 64 64) := by
  unfold bvEval
  rw [show Finset.range 128 = Finset.range (64 + 64) from rfl, Finset.sum_range_add, Finset.mul_sum]
  congr 1
  · refine Finset.sum_congr rfl fun i hi => ?_
    have hi := Finset.mem_range.1 hi
    rw [BitVec.getLsbD_extractLsb']; simp [hi]
  · refine Finset.sum_congr rfl fun i hi => ?_
    have hi := Finset.mem_range.1 hi
    rw [BitVec.getLsbD_extractLsb']; simp [hi, pow_add]

/-- A 128-bit register at `x`. -/
def M128.eval (x : R) (a : M128) : R := bvEval x a.lo + x ^ 64 * bvEval x a.hi

theorem M128.eval_clmul64 [CharP R 2] (x : R) (a b : BitVec 64) :
    (M128.clmul64 a b).eval x = bvEval x a * bvEval x b := by
  unfold M128.clmul64 M128.eval
  simp only
  rw [← bvEval_split]
  have key : ∀ k, k ≤ 64 → bvEval x ((List.range k).foldl
      (fun acc i => if a.getLsbD i then acc ^^^ (b.zeroExtend 128 <<< i) else acc) (0 : BitVec 128)) =
      (∑ i ∈ Finset.range k, if a.getLsbD i then x ^ i else 0) * bvEval x b := by
    intro k hk
    induction k with
    | zero => simpa using bvEval_zero x 128
    | succ k ih =>
      rw [List.range_succ, List.foldl_append, List.foldl_cons, List.foldl_nil, Finset.sum_range_succ,
        add_mul, ← ih (by omega)]
      split
      · rw [bvEval_xor, bvEval_shl_zeroExtend _ _ _ (by omega)]
      · simp
  exact key 64 le_rfl

theorem M128.eval_xor [CharP R 2] (x : R) (a b : M128) : (M128.xor a b).eval x = a.eval x + b.eval x := by
  simp only [M128.eval, M128.xor, bvEval_xor]; ring

theorem M128.eval_def (x : R) (a : M128) : a.eval x = bvEval x a.lo + x ^ 64 * bvEval x a.hi := rfl

theorem M128.eval_slli8 (x : R) (a : M128) : a.slli8.eval x = x ^ 64 * bvEval x a.lo := by
  simp only [M128.eval, M128.slli8, bvEval_zero]; ring

theorem M128.eval_srli8 (x : R) (a : M128) : a.srli8.eval x = bvEval x a.hi := by
  simp only [M128.eval, M128.srli8, bvEval_zero]; ring

theorem M128.eval_clmul_00 [CharP R 2] (x : R) (a b : M128) :
    (M128.clmul a b 0x00).eval x = bvEval x a.lo * bvEval x b.lo := M128.eval_clmul64 x _ _
theorem M128.eval_clmul_01 [CharP R 2] (x : R) (a b : M128) :
    (M128.clmul a b 0x01).eval x = bvEval x a.hi * bvEval x b.lo := M128.eval_clmul64 x _ _
theorem M128.eval_clmul_10 [CharP R 2] (x : R) (a b : M128) :
    (M128.clmul a b 0x10).eval x = bvEval x a.lo * bvEval x b.hi := M128.eval_clmul64 x _ _
theorem M128.eval_clmul_11 [CharP R 2] (x : R) (a b : M128) :
    (M128.clmul a b 0x11).eval x = bvEval x a.hi * bvEval x b.hi := M128.eval_clmul64 x _ _

theorem M128.lo_xor [CharP R 2] (x : R) (a b : M128) :
    bvEval x (M128.xor a b).lo = bvEval x a.lo + bvEval x b.lo := bvEval_xor x _ _
theorem M128.hi_xor [CharP R 2] (x : R) (a b : M128) :
    bvEval x (M128.xor a b).hi = bvEval x a.hi + bvEval x b.hi := bvEval_xor x _ _

theorem bitAt_eq_getLsbD (w : BitVec 64) (i : Nat) : bitAt w i = w.getLsbD i := by
  rw [bitAt_eq, BitVec.getLsbD]

/-- The shift-and-add loop over one word: each round adds `shifted` if the bit is set, and multiplies
`shifted` by `x`. -/
theorem shiftLoop {S : Type*} (φ : S → R) (x : R) (bit : Nat → Bool) (step : S × S → Nat → S × S)
    (h1 : ∀ st j, φ (step st j).1 = φ st.1 + if bit j then φ st.2 else 0)
    (h2 : ∀ st j, φ (step st j).2 = x * φ st.2) (k : Nat) (st : S × S) :
    φ ((List.range k).foldl step st).1 =
        φ st.1 + φ st.2 * (∑ i ∈ Finset.range k, if bit i then x ^ i else 0) ∧
      φ ((List.range k).foldl step st).2 = x ^ k * φ st.2 := by
  induction k with
  | zero => simp
  | succ k ih =>
    rw [List.range_succ, List.foldl_append, List.foldl_cons, List.foldl_nil, h1, h2, ih.1, ih.2,
      Finset.sum_range_succ]
    refine ⟨?_, by ring⟩
    split <;> ring

/-! ## Products -/

variable [CharP R 2] {x : R}

theorem two_eq_zero' : (2 : R) = 0 := CharTwo.two_eq_zero

namespace GF32
/-- The element of `R` represented by `a`. -/
def eval (x : R) (a : GF32) : R := bvEval x a.value

theorem eval_add (x : R) (a b : GF32) : (a + b).eval x = a.eval x + b.eval x := bvEval_xor x _ _

theorem eval_shift (hx : x ^ 32 = x ^ 22 + x ^ 2 + x + 1) (s : BitVec 32) :
    bvEval x (if bitAt (s.zeroExtend 64) 31 then (((s <<< 1).zeroExtend 64) ^^^ modulus).truncate 32
      else s <<< 1) = x * bvEval x s := by
  have hb : bitAt (s.zeroExtend 64) 31 = s.getLsbD 31 := by
    rw [bitAt_eq_getLsbD]; simp [BitVec.getLsbD_setWidth]
  have hm : bvEval x (modulus.truncate 32) = x ^ 32 := by
    rw [hx]
    have : modulus.truncate 32 = 0b10000000000000000000111#32 := by decide
    rw [this]
    simp only [bvEval, Finset.sum_range_succ, Finset.sum_range_zero]
    simp; ring
  have := bvEval_shl x (w := 31) s
  rw [hb]
  split
  · rename_i h
    rw [h, if_pos rfl] at this
    have e : (((s <<< 1).zeroExtend 64) ^^^ modulus).truncate 32 = (s <<< 1) ^^^ modulus.truncate 32 := by
      apply BitVec.eq_of_getLsbD_eq
      intro i hi
      simp [BitVec.getLsbD_setWidth, BitVec.getLsbD_xor, hi, show i < 64 by omega]
    rw [e, bvEval_xor, hm, ← this]
  · rename_i h
    rw [if_neg h] at this
    rw [← this, add_zero]

theorem eval_mul (hx : x ^ 32 = x ^ 22 + x ^ 2 + x + 1) (a b : GF32) :
    (a * b).eval x = a.eval x * b.eval x := by
  have := (shiftLoop (bvEval x) x (fun j => bitAt (b.value.zeroExtend 64) j) (mulStep b.value)
    (fun st j => by
      simp only [mulStep]
      split
      · rw [bvEval_xor]
      · simp)
    (fun st j => eval_shift hx st.2) 32 (0, a.value)).1
  have h2 : (∑ i ∈ Finset.range 32, if bitAt (b.value.zeroExtend 64) i then x ^ i else 0) = bvEval x b.value := by
    unfold bvEval
    refine Finset.sum_congr rfl fun i hi => ?_
    have hi := Finset.mem_range.1 hi
    rw [bitAt_eq_getLsbD]
    simp [BitVec.getLsbD_setWidth, show i < 64 by omega]
  rw [h2, bvEval_zero, zero_add] at this
  exact this
end GF32

namespace GF64
/-- The element of `R` represented by `a`. -/
def eval (x : R) (a : GF64) : R := bvEval x a.value

theorem eval_add (x : R) (a b : GF64) : (a + b).eval x = a.eval x + b.eval x := bvEval_xor x _ _

theorem eval_modulus (x : R) : bvEval x modulus = x ^ 4 + x ^ 3 + x + 1 := by
  simp only [bvEval, Finset.sum_range_succ, Finset.sum_range_zero, modulus]
  simp; ring

theorem eval_mul (hx : x ^ 64 = x ^ 4 + x ^ 3 + x + 1) (a b : GF64) :
    (a * b).eval x = a.eval x * b.eval x := by
  have := (shiftLoop (bvEval x) x (fun j => bitAt b.value j) (mulStep b.value)
    (fun st j => by
      simp only [mulStep]
      split
      · rw [bvEval_xor]
      · simp)
    (fun st j => by
      have := bvEval_shl x (w := 63) st.2
      simp only [mulStep, bitAt_eq_getLsbD]
      split
      · rename_i h
        rw [h, if_pos rfl] at this
        rw [bvEval_xor, eval_modulus, ← hx, ← this]
      · rename_i h
        rw [if_neg h] at this
        rw [← this, add_zero]) 64 (0, a.value)).1
  simp only [bitAt_eq_getLsbD, bvEval_zero, zero_add] at this
  exact this

/-- The high half of the product of the modulus with a word has at most four bits, so that its product with
the modulus has no high half. -/
theorem hi_hi (b : BitVec 64) : (M128.clmul64 modulus (M128.clmul64 modulus b).hi).hi = 0 := by
  have h : ∀ c : BitVec 64, (M128.clmul64 modulus c).hi = (c >>> 63) ^^^ (c >>> 61) ^^^ (c >>> 60) := by
    intro c
    have e : M128.clmul64 modulus c =
        (let v := (0 : BitVec 128) ^^^ (c.zeroExtend 128 <<< 0) ^^^ (c.zeroExtend 128 <<< 1) ^^^
          (c.zeroExtend 128 <<< 3) ^^^ (c.zeroExtend 128 <<< 4)
        ⟨v.extractLsb' 0 64, v.extractLsb' 64 64⟩) := by rfl
    rw [e]
    apply BitVec.eq_of_getLsbD_eq
    intro i hi
    have h0 : c.getLsbD (64 + i) = false := BitVec.getLsbD_of_ge _ _ (by omega)
    simp [BitVec.getLsbD_extractLsb', BitVec.getLsbD_setWidth, hi, h0, show ∀ k, 64 + i - k < 128 by omega,
      show 64 + i < 128 by omega, show 64 + i - 1 = 63 + i by omega, show 64 + i - 3 = 61 + i by omega,
      show 64 + i - 4 = 60 + i by omega, show ¬ 64 + i < 1 by omega, show ¬ 64 + i < 3 by omega,
      show ¬ 64 + i < 4 by omega]
  rw [h, h]
  apply BitVec.eq_of_getLsbD_eq
  intro i hi
  have h0 : ∀ j, 64 ≤ j → b.getLsbD j = false := fun j hj => BitVec.getLsbD_of_ge _ _ hj
  simp [h0, show 64 ≤ 63 + (63 + i) by omega, show 64 ≤ 63 + (61 + i) by omega,
    show 64 ≤ 63 + (60 + i) by omega, show 64 ≤ 61 + (63 + i) by omega, show 64 ≤ 61 + (61 + i) by omega,
    show 64 ≤ 61 + (60 + i) by omega, show 64 ≤ 60 + (63 + i) by omega, show 64 ≤ 60 + (61 + i) by omega,
    show 64 ≤ 60 + (60 + i) by omega]

theorem eval_mulAsm (hx : x ^ 64 = x ^ 4 + x ^ 3 + x + 1) (a b : GF64) :
    (a.mulAsm b).eval x = a.eval x * b.eval x := by
  have e1 := M128.eval_clmul64 x a.value b.value
  have e2 := M128.eval_clmul64 x modulus (M128.clmul64 a.value b.value).hi
  have e3 := M128.eval_clmul64 x modulus (M128.clmul64 modulus (M128.clmul64 a.value b.value).hi).hi
  have e4 := hi_hi (M128.clmul64 a.value b.value).hi
  unfold M128.eval at e1 e2 e3
  rw [e4, bvEval_zero, mul_zero, add_zero] at e3
  rw [eval_modulus, ← hx] at e2 e3
  have : (a.mulAsm b).eval x = bvEval x (M128.clmul64 a.value b.value).lo +
      bvEval x (M128.clmul64 modulus (M128.clmul64 a.value b.value).hi).lo +
      bvEval x (M128.clmul64 modulus (M128.clmul64 modulus (M128.clmul64 a.value b.value).hi).hi).lo := by
    rw [← bvEval_xor, ← bvEval_xor]; rfl
  rw [this, e3, eval, eval, ← e1, ← e2]
  ring
end GF64

namespace GF128
/-- The element of `R` represented by `a`. -/
def eval (x : R) (a : GF128) : R := bvEval x a.v0 + x ^ 64 * bvEval x a.v1

theorem eval_add (x : R) (a b : GF128) : (a + b).eval x = a.eval x + b.eval x := by
  have : a + b = GF128.mk (a.v0 ^^^ b.v0) (a.v1 ^^^ b.v1) := rfl
  rw [this]
  simp only [eval, bvEval_xor]; ring

theorem eval_modulus (x : R) : bvEval x modulus = x ^ 7 + x ^ 2 + x + 1 := by
  simp only [bvEval, Finset.sum_range_succ, Finset.sum_range_zero, modulus]
  simp; ring

theorem eval_step2 (hx : x ^ 128 = x ^ 7 + x ^ 2 + x + 1) (w : BitVec 64) (st : GF128 × GF128) (j : Nat) :
    (mulStep w st j).2.eval x = x * st.2.eval x := by
  have h0 := bvEval_shl64 x st.2.v0
  have hm := eval_modulus x
  rw [← hx] at hm
  simp only [mulStep, bitAt_eq_getLsbD]
  have two := two_eq_zero' (R := R)
  by_cases h : st.2.v1.getLsbD 63 = true
  · rw [if_pos h]
    simp only [eval, bvEval_xor, bvEval_shl_or, hm]
    have ht : (topBit st.2.v1 : R) = 1 := if_pos h
    rw [ht]
    linear_combination h0 + (x ^ 128) * two
  · rw [if_neg h]
    simp only [eval, bvEval_shl_or]
    have ht : (topBit st.2.v1 : R) = 0 := if_neg h
    rw [ht]
    linear_combination h0

theorem eval_mul (hx : x ^ 128 = x ^ 7 + x ^ 2 + x + 1) (a b : GF128) : (a * b).eval x = a.eval x * b.eval x := by
  have key := fun (w : BitVec 64) (st : GF128 × GF128) =>
    shiftLoop (eval x) x (fun j => bitAt w j) (mulStep w)
      (fun st j => by
        simp only [mulStep]
        split
        · exact eval_add x _ _
        · simp) (eval_step2 hx w) 64 st
  have hs : ∀ w : BitVec 64, (∑ i ∈ Finset.range 64, if bitAt w i then x ^ i else 0) = bvEval x w := by
    intro w; simp only [bitAt_eq_getLsbD]; rfl
  simp only [hs] at key
  have e : a * b = ([b.v0, b.v1].foldl (fun st word => (List.range 64).foldl (mulStep word) st)
    (⟨0, 0⟩, a)).1 := rfl
  have z : eval x (⟨0, 0⟩ : GF128) = 0 := by simp only [eval, bvEval_zero]; ring
  rw [e]
  simp only [List.foldl_cons, List.foldl_nil, (key _ _).1, (key _ _).2, z]
  simp only [eval]
  ring
theorem eval_mulAsm (hx : x ^ 128 = x ^ 7 + x ^ 2 + x + 1) (a b : GF128) :
    (a.mulAsm b).eval x = a.eval x * b.eval x := by
  unfold mulAsm
  extract_lets A B md high low mid1 mid2 mid high1 low1 t1 low2 high2 t2 low3
  have hm : bvEval x md.lo = x ^ 128 := by rw [hx]; exact eval_modulus x
  have e1 : high.eval x = bvEval x a.v1 * bvEval x b.v1 := M128.eval_clmul_11 x A B
  have e2 : low.eval x = bvEval x a.v0 * bvEval x b.v0 := M128.eval_clmul_00 x A B
  have e3 : mid.eval x = bvEval x a.v1 * bvEval x b.v0 + bvEval x a.v0 * bvEval x b.v1 := by
    rw [M128.eval_xor]
    exact congrArg₂ _ (M128.eval_clmul_01 x A B) (M128.eval_clmul_10 x A B)
  have e4 : high1.eval x = high.eval x + bvEval x mid.hi := by rw [M128.eval_xor, M128.eval_srli8]
  have e5 : low1.eval x = low.eval x + x ^ 64 * bvEval x mid.lo := by rw [M128.eval_xor, M128.eval_slli8]
  have e6 : t1.eval x = bvEval x high1.hi * x ^ 128 := by rw [M128.eval_clmul_01, hm]
  have e7 : low2.eval x = low1.eval x + x ^ 64 * bvEval x t1.lo := by rw [M128.eval_xor, M128.eval_slli8]
  have e8 : bvEval x high2.lo = bvEval x high1.lo + bvEval x t1.hi := M128.lo_xor x _ _
  have e9 : t2.eval x = bvEval x high2.lo * x ^ 128 := by rw [M128.eval_clmul_00, hm]
  have e10 : low3.eval x = low2.eval x + t2.eval x := M128.eval_xor x _ _
  have r : (GF128.mk low3.lo low3.hi).eval x = low3.eval x := rfl
  rw [r, e10, e9, e8, e7, e5, e2]
  rw [M128.eval_def] at e3 e6
  rw [M128.eval_def x high1, e1] at e4
  simp only [eval]
  linear_combination x ^ 64 * e3 + x ^ 64 * e6 + x ^ 128 * e4
end GF128

namespace GF192
/-- The element of `R` represented by `a`. -/
def eval (x : R) (a : GF192) : R := bvEval x a.v0 + x ^ 64 * bvEval x a.v1 + x ^ 128 * bvEval x a.v2

theorem eval_add (x : R) (a b : GF192) : (a + b).eval x = a.eval x + b.eval x := by
  have : a + b = GF192.mk (a.v0 ^^^ b.v0) (a.v1 ^^^ b.v1) (a.v2 ^^^ b.v2) := rfl
  rw [this]
  simp only [eval, bvEval_xor]; ring

theorem eval_modulus (x : R) : bvEval x modulus = x ^ 7 + x ^ 2 + x + 1 := by
  simp only [bvEval, Finset.sum_range_succ, Finset.sum_range_zero, modulus]
  simp; ring

theorem eval_step2 (hx : x ^ 192 = x ^ 7 + x ^ 2 + x + 1) (w : BitVec 64) (st : GF192 × GF192) (j : Nat) :
    (mulStep w st j).2.eval x = x * st.2.eval x := by
  have h0 := bvEval_shl64 x st.2.v0
  have hm := eval_modulus x
  rw [← hx] at hm
  simp only [mulStep, bitAt_eq_getLsbD]
  have two := two_eq_zero' (R := R)
  by_cases h : st.2.v2.getLsbD 63 = true
  · rw [if_pos h]
    simp only [eval, bvEval_xor, bvEval_shl_or, hm]
    have ht : (topBit st.2.v2 : R) = 1 := if_pos h
    rw [ht]
    linear_combination h0 + (x ^ 192 + x ^ 128 * topBit st.2.v1) * two
  · rw [if_neg h]
    simp only [eval, bvEval_shl_or]
    have ht : (topBit st.2.v2 : R) = 0 := if_neg h
    rw [ht]
    linear_combination h0 + (x ^ 128 * topBit st.2.v1) * two

theorem eval_mul (hx : x ^ 192 = x ^ 7 + x ^ 2 + x + 1) (a b : GF192) : (a * b).eval x = a.eval x * b.eval x := by
  have key := fun (w : BitVec 64) (st : GF192 × GF192) =>
    shiftLoop (eval x) x (fun j => bitAt w j) (mulStep w)
      (fun st j => by
        simp only [mulStep]
        split
        · exact eval_add x _ _
        · simp) (eval_step2 hx w) 64 st
  have hs : ∀ w : BitVec 64, (∑ i ∈ Finset.range 64, if bitAt w i then x ^ i else 0) = bvEval x w := by
    intro w; simp only [bitAt_eq_getLsbD]; rfl
  simp only [hs] at key
  have e : a * b = ([b.v0, b.v1, b.v2].foldl (fun st word => (List.range 64).foldl (mulStep word) st)
    (⟨0, 0, 0⟩, a)).1 := rfl
  have z : eval x (⟨0, 0, 0⟩ : GF192) = 0 := by simp only [eval, bvEval_zero]; ring
  rw [e]
  simp only [List.foldl_cons, List.foldl_nil, (key _ _).1, (key _ _).2, z]
  simp only [eval]
  ring
theorem eval_mulAsm (hx : x ^ 192 = x ^ 7 + x ^ 2 + x + 1) (a b : GF192) :
    (a.mulAsm b).eval x = a.eval x * b.eval x := by
  unfold mulAsm
  extract_lets ab0 ab1 ab2 md c0 c4 t xor01 c1' c1 xor12 c3' c3 xor02 c2' c2 d0 d2 d1 t1 d1' t2 d1'' d0' t3 d0''
  have hm : bvEval x md.lo = x ^ 192 := by rw [hx]; exact eval_modulus x
  have two := two_eq_zero' (R := R)
  have h0 : c0.eval x = bvEval x a.v0 * bvEval x b.v0 := M128.eval_clmul_01 x _ _
  have h4 : c4.eval x = bvEval x a.v2 * bvEval x b.v2 := M128.eval_clmul_01 x _ _
  have ht : t.eval x = bvEval x a.v1 * bvEval x b.v1 := M128.eval_clmul_01 x _ _
  have h1 : c1.eval x = (bvEval x a.v0 + bvEval x a.v1) * (bvEval x b.v0 + bvEval x b.v1) + c0.eval x + t.eval x := by
    rw [M128.eval_xor, M128.eval_xor, M128.eval_clmul_01, M128.lo_xor, M128.hi_xor]; rfl
  have h3 : c3.eval x = (bvEval x a.v1 + bvEval x a.v2) * (bvEval x b.v1 + bvEval x b.v2) + c4.eval x + t.eval x := by
    rw [M128.eval_xor, M128.eval_xor, M128.eval_clmul_01, M128.lo_xor, M128.hi_xor]; rfl
  have h2 : c2.eval x = (bvEval x a.v0 + bvEval x a.v2) * (bvEval x b.v0 + bvEval x b.v2) + c0.eval x + c4.eval x +
      t.eval x := by
    rw [M128.eval_xor, M128.eval_xor, M128.eval_xor, M128.eval_clmul_01, M128.lo_xor, M128.hi_xor]; rfl
  have g0 : d0.eval x = c0.eval x + x ^ 64 * bvEval x c1.lo := by rw [M128.eval_xor, M128.eval_slli8]
  have g2 : d2.eval x = c4.eval x + bvEval x c3.hi := by rw [M128.eval_xor, M128.eval_srli8]
  have g1 : d1.eval x = c2.eval x + bvEval x c1.hi + x ^ 64 * bvEval x c3.lo := by
    rw [M128.eval_xor, M128.eval_xor, M128.eval_slli8, M128.eval_srli8]
  have e1 : t1.eval x = bvEval x d2.hi * x ^ 192 := by rw [M128.eval_clmul_01, hm]
  have e2 : d1'.eval x = d1.eval x + t1.eval x := M128.eval_xor x _ _
  have e3 : t2.eval x = bvEval x d2.lo * x ^ 192 := by rw [M128.eval_clmul_00, hm]
  have e4 : d1''.eval x = d1'.eval x + bvEval x t2.hi := by rw [M128.eval_xor, M128.eval_srli8]
  have e5 : d0'.eval x = d0.eval x + x ^ 64 * bvEval x t2.lo := by rw [M128.eval_xor, M128.eval_slli8]
  have e6 : t3.eval x = bvEval x d1''.hi * x ^ 192 := by rw [M128.eval_clmul_01, hm]
  have e7 : d0''.eval x = d0'.eval x + t3.eval x := M128.eval_xor x _ _
  have r : (GF192.mk d0''.lo d0''.hi d1''.lo).eval x = d0''.eval x + x ^ 128 * bvEval x d1''.lo := rfl
  rw [r, e7, e6, e5, g0]
  rw [e2, e1, g1, h2, M128.eval_def] at e4
  rw [h0, ht, M128.eval_def] at h1
  rw [h4, ht, M128.eval_def] at h3
  rw [M128.eval_def] at e3
  rw [h4, M128.eval_def] at g2
  simp only [eval]
  rw [h0, h4, ht] at e4
  rw [h0]
  linear_combination x ^ 128 * e4 + x ^ 64 * e3 + x ^ 256 * g2 + x ^ 64 * h1 + x ^ 192 * h3 +
    (x ^ 64 * (bvEval x a.v0 * bvEval x b.v0 + bvEval x a.v1 * bvEval x b.v1) +
     x ^ 128 * (bvEval x a.v0 * bvEval x b.v0 + bvEval x a.v2 * bvEval x b.v2) +
     x ^ 192 * (bvEval x a.v1 * bvEval x b.v1 + bvEval x a.v2 * bvEval x b.v2)) * two
end GF192

namespace GF256
/-- The element of `R` represented by `a`. -/
def eval (x : R) (a : GF256) : R := bvEval x a.v0 + x ^ 64 * bvEval x a.v1 + x ^ 128 * bvEval x a.v2 + x ^ 192 * bvEval x a.v3

theorem eval_add (x : R) (a b : GF256) : (a + b).eval x = a.eval x + b.eval x := by
  have : a + b = GF256.mk (a.v0 ^^^ b.v0) (a.v1 ^^^ b.v1) (a.v2 ^^^ b.v2) (a.v3 ^^^ b.v3) := rfl
  rw [this]
  simp only [eval, bvEval_xor]; ring

theorem eval_modulus (x : R) : bvEval x modulus = x ^ 10 + x ^ 5 + x ^ 2 + 1 := by
  simp only [bvEval, Finset.sum_range_succ, Finset.sum_range_zero, modulus]
  simp; ring

theorem eval_step2 (hx : x ^ 256 = x ^ 10 + x ^ 5 + x ^ 2 + 1) (w : BitVec 64) (st : GF256 × GF256) (j : Nat) :
    (mulStep w st j).2.eval x = x * st.2.eval x := by
  have h0 := bvEval_shl64 x st.2.v0
  have hm := eval_modulus x
  rw [← hx] at hm
  simp only [mulStep, bitAt_eq_getLsbD]
  have two := two_eq_zero' (R := R)
  by_cases h : st.2.v3.getLsbD 63 = true
  · simp only [if_pos h]
    simp only [eval, bvEval_xor, bvEval_shl_or, hm]
    have ht : (topBit st.2.v3 : R) = 1 := if_pos h
    rw [ht]
    linear_combination h0 + (x ^ 256 + x ^ 128 * topBit st.2.v1 + x ^ 192 * topBit st.2.v2) * two
  · simp only [if_neg h]
    simp only [eval, bvEval_shl_or]
    have ht : (topBit st.2.v3 : R) = 0 := if_neg h
    rw [ht]
    linear_combination h0 + (x ^ 128 * topBit st.2.v1 + x ^ 192 * topBit st.2.v2) * two

theorem eval_mul (hx : x ^ 256 = x ^ 10 + x ^ 5 + x ^ 2 + 1) (a b : GF256) : (a * b).eval x = a.eval x * b.eval x := by
  have key := fun (w : BitVec 64) (st : GF256 × GF256) =>
    shiftLoop (eval x) x (fun j => bitAt w j) (mulStep w)
      (fun st j => by
        simp only [mulStep]
        split
        · exact eval_add x _ _
        · simp) (eval_step2 hx w) 64 st
  have hs : ∀ w : BitVec 64, (∑ i ∈ Finset.range 64, if bitAt w i then x ^ i else 0) = bvEval x w := by
    intro w; simp only [bitAt_eq_getLsbD]; rfl
  simp only [hs] at key
  have e : a * b = ([b.v0, b.v1, b.v2, b.v3].foldl (fun st word => (List.range 64).foldl (mulStep word) st)
    (⟨0, 0, 0, 0⟩, a)).1 := rfl
  have z : eval x (⟨0, 0, 0, 0⟩ : GF256) = 0 := by simp only [eval, bvEval_zero]; ring
  rw [e]
  simp only [List.foldl_cons, List.foldl_nil, (key _ _).1, (key _ _).2, z]
  simp only [eval]
  ring
theorem eval_asmReduce (hx : x ^ 256 = x ^ 10 + x ^ 5 + x ^ 2 + 1) (c0 c1 c2 c3 c4 c5 c6 : M128) :
    (asmReduce c0 c1 c2 c3 c4 c5 c6 (M128.loadl modulus)).eval x =
      c0.eval x + x ^ 64 * c1.eval x + x ^ 128 * c2.eval x + x ^ 192 * c3.eval x + x ^ 256 * c4.eval x +
        x ^ 320 * c5.eval x + x ^ 384 * c6.eval x := by
  unfold asmReduce
  extract_lets d0 d1 d2 d3 t1 d2' d1' t2 d1'' t3 d1''' d0' t4 d0''
  have hm : bvEval x (M128.loadl modulus).lo = x ^ 256 := by rw [hx]; exact eval_modulus x
  have g0 : d0.eval x = c0.eval x + x ^ 64 * bvEval x c1.lo := by rw [M128.eval_xor, M128.eval_slli8]
  have g1 : d1.eval x = c2.eval x + bvEval x c1.hi + x ^ 64 * bvEval x c3.lo := by
    rw [M128.eval_xor, M128.eval_xor, M128.eval_slli8, M128.eval_srli8]
  have g2 : d2.eval x = c4.eval x + bvEval x c3.hi + x ^ 64 * bvEval x c5.lo := by
    rw [M128.eval_xor, M128.eval_xor, M128.eval_slli8, M128.eval_srli8]
  have g3 : d3.eval x = c6.eval x + bvEval x c5.hi := by rw [M128.eval_xor, M128.eval_srli8]
  have e1 : t1.eval x = bvEval x d3.hi * x ^ 256 := by rw [M128.eval_clmul_01, hm]
  have e2 : d2'.eval x = d2.eval x + bvEval x t1.hi := by rw [M128.eval_xor, M128.eval_srli8]
  have e3 : d1'.eval x = d1.eval x + x ^ 64 * bvEval x t1.lo := by rw [M128.eval_xor, M128.eval_slli8]
  have e4 : t2.eval x = bvEval x d3.lo * x ^ 256 := by rw [M128.eval_clmul_00, hm]
  have e5 : d1''.eval x = d1'.eval x + t2.eval x := M128.eval_xor x _ _
  have e6 : t3.eval x = bvEval x d2'.hi * x ^ 256 := by rw [M128.eval_clmul_01, hm]
  have e7 : d1'''.eval x = d1''.eval x + bvEval x t3.hi := by rw [M128.eval_xor, M128.eval_srli8]
  have e8 : d0'.eval x = d0.eval x + x ^ 64 * bvEval x t3.lo := by rw [M128.eval_xor, M128.eval_slli8]
  have e9 : t4.eval x = bvEval x d2'.lo * x ^ 256 := by rw [M128.eval_clmul_00, hm]
  have e10 : d0''.eval x = d0'.eval x + t4.eval x := M128.eval_xor x _ _
  have r : (GF256.mk d0''.lo d0''.hi d1'''.lo d1'''.hi).eval x = d0''.eval x + x ^ 128 * d1'''.eval x := by
    simp only [eval, M128.eval]; ring
  rw [r, e10, e9, e8, e7, e5, e4, e3, g0, g1]
  rw [M128.eval_def] at e1 e6
  rw [M128.eval_def x d2', g2] at e2
  rw [M128.eval_def] at g3
  rw [M128.eval_def x c1, M128.eval_def x c3, M128.eval_def x c5]
  linear_combination x ^ 64 * e6 + x ^ 192 * e1 + x ^ 256 * e2 + x ^ 384 * g3

theorem eval_mulAsmKaratsuba (hx : x ^ 256 = x ^ 10 + x ^ 5 + x ^ 2 + 1) (a b : GF256) :
    (a.mulAsmKaratsuba b).eval x = a.eval x * b.eval x := by
  unfold mulAsmKaratsuba
  extract_lets ab0 ab1 ab2 ab3 md c0 c6 t u xor01 c1' xor_c0_t c1 xor02 c2' c2 xor23 c5' xor_c6_u c5 xor13 c4' c4 xor0123 c3' c3
  have two := two_eq_zero' (R := R)
  have h0 : c0.eval x = bvEval x a.v0 * bvEval x b.v0 := M128.eval_clmul_01 x _ _
  have h6 : c6.eval x = bvEval x a.v3 * bvEval x b.v3 := M128.eval_clmul_01 x _ _
  have ht : t.eval x = bvEval x a.v1 * bvEval x b.v1 := M128.eval_clmul_01 x _ _
  have hu : u.eval x = bvEval x a.v2 * bvEval x b.v2 := M128.eval_clmul_01 x _ _
  have h1 : c1.eval x = (bvEval x a.v0 + bvEval x a.v1) * (bvEval x b.v0 + bvEval x b.v1) + (c0.eval x + t.eval x) := by
    rw [M128.eval_xor, M128.eval_xor x c0 t, M128.eval_clmul_01, M128.lo_xor, M128.hi_xor]; rfl
  have h2 : c2.eval x = (bvEval x a.v0 + bvEval x a.v2) * (bvEval x b.v0 + bvEval x b.v2) + (c0.eval x + t.eval x) +
      u.eval x := by
    rw [M128.eval_xor, M128.eval_xor, M128.eval_xor x c0 t, M128.eval_clmul_01, M128.lo_xor, M128.hi_xor]; rfl
  have h5 : c5.eval x = (bvEval x a.v2 + bvEval x a.v3) * (bvEval x b.v2 + bvEval x b.v3) + (c6.eval x + u.eval x) := by
    rw [M128.eval_xor, M128.eval_xor x c6 u, M128.eval_clmul_01, M128.lo_xor, M128.hi_xor]; rfl
  have h4 : c4.eval x = (bvEval x a.v1 + bvEval x a.v3) * (bvEval x b.v1 + bvEval x b.v3) + (c6.eval x + u.eval x) +
      t.eval x := by
    rw [M128.eval_xor, M128.eval_xor, M128.eval_xor x c6 u, M128.eval_clmul_01, M128.lo_xor, M128.hi_xor]; rfl
  have h3 : c3.eval x = (bvEval x a.v0 + bvEval x a.v2 + (bvEval x a.v1 + bvEval x a.v3)) *
      (bvEval x b.v0 + bvEval x b.v2 + (bvEval x b.v1 + bvEval x b.v3)) +
      c0.eval x + c1.eval x + c2.eval x + c4.eval x + c5.eval x + c6.eval x := by
    rw [M128.eval_xor, M128.eval_xor, M128.eval_xor, M128.eval_xor, M128.eval_xor, M128.eval_xor,
      M128.eval_clmul_01, M128.lo_xor, M128.hi_xor, M128.lo_xor, M128.hi_xor, M128.lo_xor, M128.hi_xor]; rfl
  rw [eval_asmReduce hx, h3, h1, h2, h4, h5, h0, h6, ht, hu]
  simp only [eval]
  generalize bvEval x a.v0 = a0, bvEval x a.v1 = a1, bvEval x a.v2 = a2, bvEval x a.v3 = a3
  generalize bvEval x b.v0 = b0, bvEval x b.v1 = b1, bvEval x b.v2 = b2, bvEval x b.v3 = b3
  linear_combination (x ^ 64 * (a0 * b0 + a1 * b1) + x ^ 128 * (a0 * b0 + a2 * b2) +
    x ^ 192 * (3 * (a0 * b0 + a1 * b1 + a2 * b2 + a3 * b3) + (a0 * b1 + a1 * b0 + a0 * b2 + a2 * b0 + a1 * b3 +
      a3 * b1 + a2 * b3 + a3 * b2)) + x ^ 256 * (a1 * b1 + a3 * b3) + x ^ 320 * (a2 * b2 + a3 * b3)) * two

theorem eval_mulAsm (hx : x ^ 256 = x ^ 10 + x ^ 5 + x ^ 2 + 1) (a b : GF256) :
    (a.mulAsm b).eval x = a.eval x * b.eval x := by
  unfold mulAsm
  extract_lets A0 A1 B0 B1 md m00 m01 m10 m11 m20 m21 m30 m31 m02 m03 m12 m13 m22 m23 m32 m33 c0 c1 c2 c3 c4 c5 c6
  have h00 : m00.eval x = bvEval x a.v0 * bvEval x b.v0 := M128.eval_clmul_00 x _ _
  have h01 : m01.eval x = bvEval x a.v0 * bvEval x b.v1 := M128.eval_clmul_10 x _ _
  have h10 : m10.eval x = bvEval x a.v1 * bvEval x b.v0 := M128.eval_clmul_01 x _ _
  have h11 : m11.eval x = bvEval x a.v1 * bvEval x b.v1 := M128.eval_clmul_11 x _ _
  have h20 : m20.eval x = bvEval x a.v2 * bvEval x b.v0 := M128.eval_clmul_00 x _ _
  have h21 : m21.eval x = bvEval x a.v2 * bvEval x b.v1 := M128.eval_clmul_10 x _ _
  have h30 : m30.eval x = bvEval x a.v3 * bvEval x b.v0 := M128.eval_clmul_01 x _ _
  have h31 : m31.eval x = bvEval x a.v3 * bvEval x b.v1 := M128.eval_clmul_11 x _ _
  have h02 : m02.eval x = bvEval x a.v0 * bvEval x b.v2 := M128.eval_clmul_00 x _ _
  have h03 : m03.eval x = bvEval x a.v0 * bvEval x b.v3 := M128.eval_clmul_10 x _ _
  have h12 : m12.eval x = bvEval x a.v1 * bvEval x b.v2 := M128.eval_clmul_01 x _ _
  have h13 : m13.eval x = bvEval x a.v1 * bvEval x b.v3 := M128.eval_clmul_11 x _ _
  have h22 : m22.eval x = bvEval x a.v2 * bvEval x b.v2 := M128.eval_clmul_00 x _ _
  have h23 : m23.eval x = bvEval x a.v2 * bvEval x b.v3 := M128.eval_clmul_10 x _ _
  have h32 : m32.eval x = bvEval x a.v3 * bvEval x b.v2 := M128.eval_clmul_01 x _ _
  have h33 : m33.eval x = bvEval x a.v3 * bvEval x b.v3 := M128.eval_clmul_11 x _ _
  have h1 : c1.eval x = m01.eval x + m10.eval x := M128.eval_xor x _ _
  have h2 : c2.eval x = m02.eval x + m11.eval x + m20.eval x := by rw [M128.eval_xor, M128.eval_xor]
  have h3 : c3.eval x = m03.eval x + m12.eval x + m21.eval x + m30.eval x := by
    rw [M128.eval_xor, M128.eval_xor, M128.eval_xor]
  have h4 : c4.eval x = m13.eval x + m22.eval x + m31.eval x := by rw [M128.eval_xor, M128.eval_xor]
  have h5 : c5.eval x = m23.eval x + m32.eval x := M128.eval_xor x _ _
  rw [eval_asmReduce hx, h1, h2, h3, h4, h5, h00, h01, h10, h11, h20, h21, h30, h31, h02, h03, h12, h13, h22, h23,
    h32, h33]
  simp only [eval]
  ring
end GF256

end
end Libff
