import Verif.Lemmas.Double
import Mathlib.NumberTheory.Zsqrtd.Basic

/-!
# C80: the class `Double`
-/
namespace Libff
open Double

/-- Both parts are floating point numbers. -/
def Double.WF (a : Double) : Prop := IsDouble a.re ∧ IsDouble a.im

/-- The Gaussian integer `z` as a `Double`. -/
def Double.ofGauss (z : Zsqrtd (-1)) : Double := ⟨z.re, z.im⟩

/-- C80. The rounding in the model is that of IEEE 754: the result is a floating point number, none is nearer, numbers that need no rounding are kept,
and the relative error is at most `2^-53`; where two are equally near, the one whose last bit (of 53) is 0. -/
theorem C80_rounding (x : ℚ) : IsNearest x (fl x) ∧ (IsDouble x → fl x = x) ∧ |fl x - x| ≤ |x| / 2 ^ 53 ∧ fl (-x) = -fl x ∧
    ∀ z, IsDouble z → |z - x| = |fl x - x| → z ≠ fl x → ∃ m e : ℤ, fl x = m * 2 ^ e ∧ 2 ^ 52 ≤ |m| ∧ |m| ≤ 2 ^ 53 ∧ Even m :=
  ⟨fl_nearest x, fl_exact, fl_err x, fl_neg x, fun z => fl_ties x z⟩

/-- Rounding that matters: `2^53 + 1` and `2^53 + 3` are halfway between two numbers. -/
example : fl (2 ^ 53 + 1) = 2 ^ 53 ∧ fl (2 ^ 53 + 3) = 2 ^ 53 + 4 ∧ ¬ IsDouble (2 ^ 53 + 1) ∧ fl (2 ^ 53 + 1) ≠ 2 ^ 53 + 1 ∧ fl (1 / 2 ^ 20) = 1 / 2 ^ 20 := by
  have h : ¬ IsDouble (2 ^ 53 + 1) := by
    rintro ⟨m, e, hm, h⟩
    rcases le_or_gt e 0 with he | he
    · obtain ⟨k, rfl⟩ : ∃ k : ℕ, e = -k := ⟨(-e).toNat, by omega⟩
      have hk : (1 : ℚ) ≤ 2 ^ k := one_le_pow₀ (by norm_num)
      have hm' : (m : ℚ) < 2 ^ 53 := by exact_mod_cast (le_abs_self m).trans_lt hm
      rw [zpow_neg, zpow_natCast, ← div_eq_mul_inv, eq_div_iff (by positivity)] at h
      nlinarith
    · obtain ⟨k, rfl⟩ : ∃ k : ℕ, e = k + 1 := ⟨(e - 1).toNat, by omega⟩
      rw [zpow_add₀ (by norm_num), zpow_one, zpow_natCast] at h
      have h' : (2 ^ 53 + 1 : ℤ) = 2 * (m * 2 ^ k) := by
        have : (2 ^ 53 + 1 : ℚ) = 2 * (m * 2 ^ k) := by rw [h]; ring
        exact_mod_cast this
      omega
  refine ⟨by decide +kernel, by decide +kernel, h, fun e => h (e ▸ (fl_nearest _).1), fl_exact ⟨1, -20, by norm_num, by norm_num⟩⟩

/-- C80. Results of the operations are pairs of floating point numbers. -/
theorem C80_closed (a b : Double) : (add a b).WF ∧ (sub a b).WF ∧ (mul a b).WF ∧ (squared a).WF ∧ (a.WF → (neg a).WF) := by
  refine ⟨⟨(fl_nearest _).1, (fl_nearest _).1⟩, ⟨(fl_nearest _).1, (fl_nearest _).1⟩, ⟨(fl_nearest _).1, (fl_nearest _).1⟩,
    ⟨(fl_nearest _).1, (fl_nearest _).1⟩, fun h => ?_⟩
  unfold neg
  split_ifs
  · exact ⟨h.1.neg, 0, 0, by norm_num, by simp [ofReal]⟩
  · exact ⟨h.1.neg, h.2.neg⟩

/-- A program that adds, subtracts, negates and multiplies Gaussian integers. -/
inductive GaussTerm where
  | const (z : Zsqrtd (-1))
  | add (s t : GaussTerm)
  | sub (s t : GaussTerm)
  | neg (s : GaussTerm)
  | mul (s t : GaussTerm)
  | squared (s : GaussTerm)

namespace GaussTerm
/-- What it computes. -/
def value : GaussTerm → Zsqrtd (-1)
  | const z => z
  | add s t => s.value + t.value
  | sub s t => s.value - t.value
  | neg s => -s.value
  | mul s t => s.value * t.value
  | squared s => s.value ^ 2
/-- What it computes with `Double`s. -/
def run : GaussTerm → Double
  | const z => .ofGauss z
  | add s t => .add s.run t.run
  | sub s t => .sub s.run t.run
  | neg s => .neg s.run
  | mul s t => .mul s.run t.run
  | squared s => .squared s.run
/-- No intermediate result is above `2^53`: neither the parts of the values nor the products in the multiplications. -/
def Small : GaussTerm → Prop
  | const _ => True
  | add s t => s.Small ∧ t.Small ∧ |(s.value + t.value).re| ≤ 2 ^ 53 ∧ |(s.value + t.value).im| ≤ 2 ^ 53
  | sub s t => s.Small ∧ t.Small ∧ |(s.value - t.value).re| ≤ 2 ^ 53 ∧ |(s.value - t.value).im| ≤ 2 ^ 53
  | neg s => s.Small
  | mul s t => s.Small ∧ t.Small ∧ |s.value.re * t.value.re| ≤ 2 ^ 53 ∧ |s.value.im * t.value.im| ≤ 2 ^ 53 ∧ |s.value.re * t.value.im| ≤ 2 ^ 53 ∧
      |s.value.im * t.value.re| ≤ 2 ^ 53 ∧ |(s.value * t.value).re| ≤ 2 ^ 53 ∧ |(s.value * t.value).im| ≤ 2 ^ 53
  | squared s => s.Small ∧ |s.value.re * s.value.re| ≤ 2 ^ 53 ∧ |s.value.im * s.value.im| ≤ 2 ^ 53 ∧ |s.value.re * s.value.im| ≤ 2 ^ 53 ∧
      |(s.value ^ 2).re| ≤ 2 ^ 53 ∧ |(s.value ^ 2).im| ≤ 2 ^ 53
end GaussTerm

theorem Double.neg_eq (b : Double) : neg b = ⟨-b.re, -b.im⟩ := by
  unfold neg
  split_ifs with h
  · rw [h, neg_zero]; rfl
  · rfl

theorem Double.mul_ofGauss (z w : Zsqrtd (-1)) (h1 : |z.re * w.re| ≤ 2 ^ 53) (h2 : |z.im * w.im| ≤ 2 ^ 53) (h3 : |z.re * w.im| ≤ 2 ^ 53)
    (h4 : |z.im * w.re| ≤ 2 ^ 53) (h5 : |(z * w).re| ≤ 2 ^ 53) (h6 : |(z * w).im| ≤ 2 ^ 53) : mul (ofGauss z) (ofGauss w) = ofGauss (z * w) := by
  have e5 : (z * w).re = z.re * w.re - z.im * w.im := by rw [Zsqrtd.re_mul]; ring
  have e6 : (z * w).im = z.re * w.im + z.im * w.re := by rw [Zsqrtd.im_mul]
  have f1 := fl_int h1
  have f2 := fl_int h2
  have f3 := fl_int h3
  have f4 := fl_int h4
  have f5 := fl_int h5
  have f6 := fl_int h6
  rw [e5] at f5
  rw [e6] at f6
  push_cast at f1 f2 f3 f4 f5 f6
  simp only [mul, ofGauss, f1, f2, f3, f4, f5, f6, e5, e6]
  push_cast
  rfl

/-- C80. Every such program computes exactly, whatever its size, as long as its intermediate results are at most `2^53`. -/
theorem C80_exact (t : GaussTerm) (h : t.Small) : t.run = .ofGauss t.value := by
  induction t with
  | const z => rfl
  | add s t hs ht =>
    have f1 := fl_int h.2.2.1
    have f2 := fl_int h.2.2.2
    rw [Zsqrtd.re_add] at f1
    rw [Zsqrtd.im_add] at f2
    push_cast at f1 f2
    rw [GaussTerm.run, hs h.1, ht h.2.1, add, ofGauss, ofGauss, f1, f2, GaussTerm.value, ofGauss, Zsqrtd.re_add, Zsqrtd.im_add]
    push_cast
    rfl
  | sub s t hs ht =>
    have f1 := fl_int h.2.2.1
    have f2 := fl_int h.2.2.2
    rw [Zsqrtd.re_sub] at f1
    rw [Zsqrtd.im_sub] at f2
    push_cast at f1 f2
    rw [GaussTerm.run, hs h.1, ht h.2.1, sub, ofGauss, ofGauss, f1, f2, GaussTerm.value, ofGauss, Zsqrtd.re_sub, Zsqrtd.im_sub]
    push_cast
    rfl
  | neg s hs =>
    rw [GaussTerm.run, hs h, neg_eq, GaussTerm.value]
    simp only [ofGauss, Zsqrtd.re_neg, Zsqrtd.im_neg, Int.cast_neg]
  | mul s t hs ht =>
    rw [GaussTerm.run, hs h.1, ht h.2.1, GaussTerm.value]
    exact mul_ofGauss _ _ h.2.2.1 h.2.2.2.1 h.2.2.2.2.1 h.2.2.2.2.2.1 h.2.2.2.2.2.2.1 h.2.2.2.2.2.2.2
  | squared s hs =>
    rw [GaussTerm.run, hs h.1, GaussTerm.value, pow_two, squared]
    have h5 := h.2.2.2.2.1
    have h6 := h.2.2.2.2.2
    rw [pow_two] at h5 h6
    exact mul_ofGauss _ _ h.2.1 h.2.2.1 h.2.2.2.1 (by rw [mul_comm]; exact h.2.2.2.1) h5 h6

/-- `(3 + 4i)² · (1 - i) - 7 = 10 + 31i`. -/
example : Double.sub (mul (squared ⟨3, 4⟩) ⟨1, -1⟩) ⟨7, 0⟩ = ⟨10, 31⟩ := by
  have h := C80_exact (.sub (.mul (.squared (.const ⟨3, 4⟩)) (.const ⟨1, -1⟩)) (.const ⟨7, 0⟩))
    (by simp only [GaussTerm.Small, GaussTerm.value]; decide)
  simp only [GaussTerm.run, GaussTerm.value] at h
  have e : ((⟨3, 4⟩ : Zsqrtd (-1)) ^ 2 * ⟨1, -1⟩ - ⟨7, 0⟩) = ⟨10, 31⟩ := by decide
  rw [e] at h
  simpa [ofGauss] using h

/-- C80. Otherwise the error of each part is small relative to the numbers that are added. -/
theorem C80_error (a b : Double) : |(add a b).re - (a.re + b.re)| ≤ |a.re + b.re| / 2 ^ 53 ∧ |(add a b).im - (a.im + b.im)| ≤ |a.im + b.im| / 2 ^ 53 ∧
    |(sub a b).re - (a.re - b.re)| ≤ |a.re - b.re| / 2 ^ 53 ∧ |(sub a b).im - (a.im - b.im)| ≤ |a.im - b.im| / 2 ^ 53 ∧
    |(mul a b).re - (a.re * b.re - a.im * b.im)| ≤ (|a.re * b.re| + |a.im * b.im|) * (1 / 2 ^ 52 + 1 / 2 ^ 106) ∧
    |(mul a b).im - (a.re * b.im + a.im * b.re)| ≤ (|a.re * b.im| + |a.im * b.re|) * (1 / 2 ^ 52 + 1 / 2 ^ 106) := by
  have two : ∀ x y : ℚ, |fl (fl x + fl y) - (x + y)| ≤ (|x| + |y|) * (1 / 2 ^ 52 + 1 / 2 ^ 106) := by
    intro x y
    have h1 := fl_err (fl x + fl y)
    have h2 := fl_err x
    have h3 := fl_err y
    have h4 : |fl x + fl y| ≤ |x| + |y| + (|fl x - x| + |fl y - y|) := by
      calc |fl x + fl y| = |(x + y) + ((fl x - x) + (fl y - y))| := by congr 1; ring
        _ ≤ |x + y| + |(fl x - x) + (fl y - y)| := abs_add_le _ _
        _ ≤ _ := add_le_add (abs_add_le _ _) (abs_add_le _ _)
    have h5 : |fl (fl x + fl y) - (x + y)| ≤ |fl (fl x + fl y) - (fl x + fl y)| + (|fl x - x| + |fl y - y|) := by
      calc |fl (fl x + fl y) - (x + y)| = |(fl (fl x + fl y) - (fl x + fl y)) + ((fl x - x) + (fl y - y))| := by congr 1; ring
        _ ≤ _ := (abs_add_le _ _).trans (add_le_add le_rfl (abs_add_le _ _))
    have h6 : |fl x + fl y| / 2 ^ 53 ≤ (|x| + |y| + (|x| / 2 ^ 53 + |y| / 2 ^ 53)) / 2 ^ 53 := by
      refine div_le_div_of_nonneg_right ?_ (by positivity)
      linarith
    have h7 : (|x| + |y|) * (1 / 2 ^ 52 + 1 / 2 ^ 106) = (|x| + |y| + (|x| / 2 ^ 53 + |y| / 2 ^ 53)) / 2 ^ 53 + (|x| / 2 ^ 53 + |y| / 2 ^ 53) := by ring
    rw [h7]
    linarith
  refine ⟨fl_err _, fl_err _, fl_err _, fl_err _, ?_, two _ _⟩
  have := two (a.re * b.re) (-(a.im * b.im))
  rw [fl_neg, abs_neg, ← sub_eq_add_neg, ← sub_eq_add_neg] at this
  exact this

/-- C80. What holds of the ring laws: sums and products commute, `zero` and `one` are neutral, `a - b` is `a + (-b)`, negation is exact. -/
theorem C80_laws (a b : Double) (ha : a.WF) : add a b = add b a ∧ mul a b = mul b a ∧ add a zero = a ∧ mul a one = a ∧ sub a b = add a (neg b) ∧
    neg a = ⟨-a.re, -a.im⟩ ∧ sub a a = zero := by
  have h0 : fl 0 = 0 := by simp [fl]
  refine ⟨?_, ?_, ?_, ?_, ?_, neg_eq a, ?_⟩
  · simp only [add, add_comm]
  · simp only [mul]
    rw [mul_comm a.re b.re, mul_comm a.im b.im, mul_comm a.re b.im, mul_comm a.im b.re, add_comm]
  · simp only [add, zero, ofReal, add_zero, fl_exact ha.1, fl_exact ha.2]
  · simp only [mul, one, ofReal, mul_one, mul_zero, h0, sub_zero, zero_add, fl_exact ha.1, fl_exact ha.2]
  · rw [neg_eq]; simp only [sub, add, sub_eq_add_neg]
  · simp only [sub, sub_self, h0]; rfl

/-- C80. Sums are not associative, not even up to the tolerance of `==`: `(2^53 + 1) + 1` is not `2^53 + (1 + 1)`. -/
theorem C80_assoc_wrong : ∃ a b c : Double, a.WF ∧ b.WF ∧ c.WF ∧ beq (add (add a b) c) (add a (add b c)) = false := by
  have d1 : IsDouble 1 := ⟨1, 0, by norm_num, by norm_num⟩
  have d0 : IsDouble 0 := ⟨0, 0, by norm_num, by norm_num⟩
  exact ⟨⟨2 ^ 53, 0⟩, ⟨1, 0⟩, ⟨1, 0⟩, ⟨⟨1, 53, by norm_num, by norm_num⟩, d0⟩, ⟨d1, d0⟩, ⟨d1, d0⟩, by decide +kernel⟩

theorem eps_bounds : 999 / 1000000000 < eps ∧ eps < 1001 / 1000000000 := by
  have h := abs_le.1 (fl_err (1 / 1000000))
  rw [abs_of_pos (by norm_num : (0 : ℚ) < 1 / 1000000)] at h
  unfold eps
  constructor
  · have : (999 / 1000000000 : ℚ) < 1 / 1000000 - 1 / 1000000 / 2 ^ 53 := by norm_num
    linarith [h.1]
  · have : (1 / 1000000 + 1 / 1000000 / 2 ^ 53 : ℚ) < 1001 / 1000000000 := by norm_num
    linarith [h.2]

theorem abs_fl_lt_eps {x : ℚ} : (|fl x| < eps → |x| < 1002 / 1000000000) ∧ (|x| ≤ 998 / 1000000000 → |fl x| < eps) := by
  have h := fl_err x
  have h2 := eps_bounds
  have h3 := abs_le.1 h
  have h0 := abs_nonneg x
  have h4 : |x| / 2 ^ 53 ≤ |x| / 10000 := by
    refine div_le_div_of_nonneg_left h0 (by norm_num) (by norm_num)
  have t1 : |x| ≤ |fl x| + |fl x - x| := by
    calc |x| = |fl x + -(fl x - x)| := by congr 1; ring
      _ ≤ |fl x| + |-(fl x - x)| := abs_add_le _ _
      _ = _ := by rw [abs_neg]
  have t2 : |fl x| ≤ |x| + |fl x - x| := by
    calc |fl x| = |x + (fl x - x)| := by congr 1; ring
      _ ≤ _ := abs_add_le _ _
  exact ⟨fun _ => by linarith, fun _ => by linarith⟩

/-- C80. `==` compares with a tolerance of about `10^-6` in each part. It is reflexive and symmetric, and exact on Gaussian integers up to `2^53`. -/
theorem C80_eq (a b : Double) : beq a a = true ∧ beq a b = beq b a ∧ bne a b = !beq a b ∧
    (beq a b = true → |a.re - b.re| < 1002 / 1000000000 ∧ |a.im - b.im| < 1002 / 1000000000) ∧
    (|a.re - b.re| ≤ 998 / 1000000000 → |a.im - b.im| ≤ 998 / 1000000000 → beq a b = true) ∧
    ∀ z w : Zsqrtd (-1), beq (ofGauss z) (ofGauss w) = true ↔ z = w := by
  have hlt : ∀ a b : Double, beq a b = true ↔ |fl (a.re - b.re)| < eps ∧ |fl (a.im - b.im)| < eps := by
    intro a b; simp [beq]
  have hpos : (0 : ℚ) < eps := by have := eps_bounds.1; linarith
  have refl : ∀ a, beq a a = true := by
    intro a
    rw [hlt]
    simp [fl, hpos]
  refine ⟨refl a, ?_, rfl, fun h => ?_, fun h1 h2 => ?_, fun z w => ⟨fun h => ?_, fun h => h ▸ refl _⟩⟩
  · have e : ∀ x y : ℚ, |fl (x - y)| = |fl (y - x)| := fun x y => by rw [← neg_sub, fl_neg, abs_neg]
    simp only [beq, e a.re, e a.im]
  · rw [hlt] at h
    exact ⟨abs_fl_lt_eps.1 h.1, abs_fl_lt_eps.1 h.2⟩
  · exact (hlt a b).2 ⟨abs_fl_lt_eps.2 h1, abs_fl_lt_eps.2 h2⟩
  · rw [hlt] at h
    have key : ∀ m n : ℤ, |fl ((m : ℚ) - n)| < eps → m = n := by
      intro m n h
      have h := abs_lt.1 (abs_fl_lt_eps.1 h)
      have h1 : ((m - n : ℤ) : ℚ) < 1 := by push_cast; linarith [h.2]
      have h2 : (-1 : ℚ) < ((m - n : ℤ) : ℚ) := by push_cast; linarith [h.1]
      have h1' : m - n < 1 := by exact_mod_cast h1
      have h2' : -1 < m - n := by exact_mod_cast h2
      omega
    exact Zsqrtd.ext (key _ _ h.1) (key _ _ h.2)

/-- C80. `==` is not transitive, and `==` and `<` can hold together. -/
theorem C80_eq_wrong : (∃ a b c : Double, a.WF ∧ b.WF ∧ c.WF ∧ beq a b = true ∧ beq b c = true ∧ beq a c = false) ∧
    ∃ a b : Double, a.WF ∧ b.WF ∧ beq a b = true ∧ lt a b = true := by
  have d0 : IsDouble 0 := ⟨0, 0, by norm_num, by norm_num⟩
  have d1 : IsDouble (1 / 2 ^ 20) := ⟨1, -20, by norm_num, by norm_num⟩
  have d2 : IsDouble (1 / 2 ^ 19) := ⟨1, -19, by norm_num, by norm_num⟩
  have e01 : beq ⟨0, 0⟩ ⟨1 / 2 ^ 20, 0⟩ = true := (C80_eq _ _).2.2.2.2.1 (by norm_num [abs_of_pos]) (by norm_num)
  have e12 : beq ⟨1 / 2 ^ 20, 0⟩ ⟨1 / 2 ^ 19, 0⟩ = true := (C80_eq _ _).2.2.2.2.1 (by norm_num [abs_of_pos]) (by norm_num)
  refine ⟨⟨_, _, _, ⟨d0, d0⟩, ⟨d1, d0⟩, ⟨d2, d0⟩, e01, e12, ?_⟩, _, _, ⟨d0, d0⟩, ⟨d1, d0⟩, e01, by simp [lt]⟩
  rw [Bool.eq_false_iff]
  intro h
  have := ((C80_eq _ _).2.2.2.1 h).1
  norm_num [abs_of_pos] at this

/-- C80. `<` and `>` order by the real part: strict, transitive, converse to each other. -/
theorem C80_lt (a b c : Double) : lt a a = false ∧ (lt a b = true → lt b c = true → lt a c = true) ∧ gt a b = lt b a ∧
    (lt a b = false → lt b a = false → a.re = b.re) := by
  simp only [lt, gt, decide_eq_true_eq, decide_eq_false_iff_not, lt_irrefl, not_false_eq_true, true_and, not_lt]
  exact ⟨fun h1 h2 => h1.trans h2, fun h1 h2 => le_antisymm h2 h1⟩

theorem toSize_ok {x : ℚ} (h0 : -1 < x) (h1 : x < 2 ^ 64) : toSize x = .ok ⌊x⌋.toNat := by
  unfold toSize
  rcases lt_or_ge x 0 with h | h
  · have f1 : ⌊-x⌋ = 0 := by rw [Int.floor_eq_iff]; constructor <;> push_cast <;> linarith
    have f2 : ⌊x⌋ = -1 := by rw [Int.floor_eq_iff]; constructor <;> push_cast <;> linarith
    simp only [h, if_true, f1, f2]
    rfl
  · have f0 : 0 ≤ ⌊x⌋ := Int.floor_nonneg.2 h
    have f1 : ⌊x⌋ < 2 ^ 64 := by rw [Int.floor_lt]; exact_mod_cast h1
    simp only [not_lt.2 h, if_false, f0, f1, and_self, if_true]

/-- C80. `as_ulong` and `as_bigint` discard the imaginary part and the fraction; they are undefined exactly if the real part is `≤ -1` or `≥ 2^64`. -/
theorem C80_as_ulong (a : Double) (ha : a.WF) : (-1 < a.re → a.re < 2 ^ 64 → asUlong a = .ok ⌊a.re⌋.toNat ∧ asBigint a = .ok ⌊a.re⌋.toNat) ∧
    (a.re ≤ -1 ∨ 2 ^ 64 ≤ a.re → asUlong a = .ub ∧ asBigint a = .ub) := by
  constructor
  · intro h0 h1
    have e := toSize_ok h0 h1
    refine ⟨?_, e⟩
    rw [asUlong, e, Outcome.bind_ok]
    have hd : IsDouble ((⌊a.re⌋.toNat : ℕ) : ℚ) := by
      rcases lt_or_ge a.re 0 with h | h
      · have f2 : ⌊a.re⌋ = -1 := by rw [Int.floor_eq_iff]; constructor <;> push_cast <;> linarith
        rw [f2]
        exact ⟨0, 0, by norm_num, by norm_num⟩
      · have f0 : 0 ≤ ⌊a.re⌋ := Int.floor_nonneg.2 h
        have hc : ((⌊a.re⌋.toNat : ℕ) : ℚ) = (⌊a.re⌋ : ℚ) := by
          have := Int.toNat_of_nonneg f0
          exact_mod_cast congrArg (Int.cast : ℤ → ℚ) this
        rw [hc]
        obtain ⟨m, ex, hm, hx⟩ := ha.1
        rcases le_or_gt 0 ex with he | he
        · obtain ⟨k, rfl⟩ : ∃ k : ℕ, ex = k := ⟨ex.toNat, by omega⟩
          have : a.re = ((m * 2 ^ k : ℤ) : ℚ) := by rw [hx, zpow_natCast]; push_cast; rfl
          rw [this, Int.floor_intCast, ← this]
          exact ha.1
        · refine isDouble_int ?_
          rw [abs_of_nonneg f0]
          have hle : (2 : ℚ) ^ ex ≤ 1 := zpow_le_one_of_nonpos₀ (by norm_num) he.le
          have hp : (0 : ℚ) < 2 ^ ex := zpow_pos (by norm_num) ex
          have hm0 : (0 : ℚ) ≤ m := by
            by_contra hneg
            rw [hx] at h
            exact absurd h (not_le.2 (mul_neg_of_neg_of_pos (not_le.1 hneg) hp))
          have h5 : a.re ≤ m := by rw [hx]; exact mul_le_of_le_one_right hm0 hle
          have h6 : ⌊a.re⌋ ≤ m := by
            have : (⌊a.re⌋ : ℚ) ≤ m := (Int.floor_le _).trans h5
            exact_mod_cast this
          exact h6.trans ((le_abs_self m).trans hm.le)
    rw [fl_exact hd]
    have h0' : (0 : ℚ) ≤ ((⌊a.re⌋.toNat : ℕ) : ℚ) := Nat.cast_nonneg _
    have h1' : ((⌊a.re⌋.toNat : ℕ) : ℚ) < 2 ^ 64 := by
      have : ⌊a.re⌋ < 2 ^ 64 := by rw [Int.floor_lt]; exact_mod_cast h1
      have : ⌊a.re⌋.toNat < 2 ^ 64 := by omega
      exact_mod_cast this
    rw [toSize_ok (by linarith) h1', Int.floor_natCast, Int.toNat_natCast]
  · intro h
    have e : toSize a.re = .ub := by
      unfold toSize
      rcases h with h | h
      · have f1 : 1 ≤ ⌊-a.re⌋ := by rw [Int.le_floor]; push_cast; linarith
        have : ¬ (0 ≤ -⌊-a.re⌋ ∧ -⌊-a.re⌋ < 2 ^ 64) := by omega
        simp only [show a.re < 0 by linarith, if_true, this, if_false]
      · have f1 : 2 ^ 64 ≤ ⌊a.re⌋ := by rw [Int.le_floor]; exact_mod_cast h
        have : ¬ (0 ≤ ⌊a.re⌋ ∧ ⌊a.re⌋ < 2 ^ 64) := by omega
        simp only [show ¬ a.re < 0 by linarith [show (0 : ℚ) < 2 ^ 64 by norm_num], if_false, this]
    exact ⟨by rw [asUlong, e]; rfl, e⟩

/-- C80. So it does not round, in spite of the call of `round`: a number that is equal (`==`) to 3 can give 2. -/
theorem C80_as_ulong_wrong : ∃ a : Double, a.WF ∧ beq a (ofReal 3) = true ∧ asUlong a = .ok 2 := by
  have d1 : IsDouble (3 - 1 / 2 ^ 20) := ⟨3 * 2 ^ 20 - 1, -20, by norm_num, by norm_num⟩
  have d0 : IsDouble 0 := ⟨0, 0, by norm_num, by norm_num⟩
  refine ⟨⟨3 - 1 / 2 ^ 20, 0⟩, ⟨d1, d0⟩, (C80_eq _ _).2.2.2.2.1 ?_ ?_, ?_⟩
  · norm_num [ofReal, abs_of_neg]
  · norm_num [ofReal]
  · rw [((C80_as_ulong _ ⟨d1, d0⟩).1 (by norm_num) (by norm_num)).1]
    have : ⌊(3 - 1 / 2 ^ 20 : ℚ)⌋ = 2 := by rw [Int.floor_eq_iff]; norm_num
    rw [this]
    rfl

/-- C80. Random elements are the integers 0 to 1000, and every one of them occurs. -/
theorem C80_random : (∀ r, (randomElement r).WF ∧ ∃ k ≤ 1000, randomElement r = ofReal (k : ℕ) ∧ asUlong (randomElement r) = .ok k) ∧
    ∀ k ≤ 1000, randomElement k = ofReal (k : ℕ) := by
  have hw : ∀ k ≤ 1000, (ofReal ((k : ℕ) : ℚ)).WF := fun k hk =>
    ⟨⟨k, 0, by rw [abs_of_nonneg (by omega)]; omega, by simp [ofReal]⟩, 0, 0, by norm_num, by simp [ofReal]⟩
  refine ⟨fun r => ?_, fun k hk => by rw [randomElement, Nat.mod_eq_of_lt (by omega)]⟩
  have hk : r % 1001 ≤ 1000 := by omega
  refine ⟨hw _ hk, r % 1001, hk, rfl, ?_⟩
  have h0 : (0 : ℚ) ≤ ((r % 1001 : ℕ) : ℚ) := Nat.cast_nonneg _
  have h1 : ((r % 1001 : ℕ) : ℚ) ≤ 1000 := by exact_mod_cast hk
  have := ((C80_as_ulong _ (hw _ hk)).1 (by rw [ofReal]; linarith) (by rw [ofReal]; linarith [show (1000 : ℚ) < 2 ^ 64 by norm_num])).1
  rw [randomElement, this, ofReal, Int.floor_natCast, Int.toNat_natCast]

end Libff
