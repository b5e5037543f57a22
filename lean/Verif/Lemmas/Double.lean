import Verif.Model.Double
import Verif.Spec.Double
import Mathlib.Tactic.Linarith
import Mathlib.Tactic.Ring
import Mathlib.Tactic.NormNum
import Mathlib.Tactic.FieldSimp
import Mathlib.Tactic.Positivity
import Mathlib.Algebra.Order.Floor.Ring

/-!
# Rounding to 53 bits
-/
namespace Libff

theorem roundEven_err (q : ℚ) : |(roundEven q : ℚ) - q| ≤ 1 / 2 := by
  have h1 := Int.floor_le q
  have h2 := Int.lt_floor_add_one q
  unfold roundEven
  split_ifs <;> rw [abs_le] <;> constructor <;> push_cast <;> linarith

theorem roundEven_nearest (q : ℚ) (n : ℤ) : |(roundEven q : ℚ) - q| ≤ |(n : ℚ) - q| := by
  have h1 := Int.floor_le q
  have h2 := Int.lt_floor_add_one q
  have key : |(roundEven q : ℚ) - q| ≤ q - ⌊q⌋ ∧ |(roundEven q : ℚ) - q| ≤ ⌊q⌋ + 1 - q := by
    unfold roundEven
    split_ifs <;> constructor <;> rw [abs_le] <;> constructor <;> push_cast <;> linarith
  rcases le_or_gt n ⌊q⌋ with h | h
  · have : (n : ℚ) ≤ ⌊q⌋ := by exact_mod_cast h
    refine key.1.trans ?_
    rw [abs_of_nonpos (by linarith)]; linarith
  · have : ((⌊q⌋ + 1 : ℤ) : ℚ) ≤ n := by exact_mod_cast h
    push_cast at this
    refine key.2.trans ?_
    rw [abs_of_nonneg (by linarith)]; linarith

theorem roundEven_int (n : ℤ) : roundEven (n : ℚ) = n := by
  unfold roundEven
  rw [Int.floor_intCast, sub_self, if_pos (by norm_num)]

theorem roundEven_tie (q : ℚ) (n : ℤ) (h : |(n : ℚ) - q| = |(roundEven q : ℚ) - q|) (hn : n ≠ roundEven q) : Even (roundEven q) := by
  have h1 := Int.floor_le q
  have h2 := Int.lt_floor_add_one q
  have hs : (n : ℚ) + roundEven q = 2 * q := by
    rcases abs_eq_abs.1 h with h | h
    · exact absurd (by exact_mod_cast (by linarith : (n : ℚ) = roundEven q)) hn
    · linarith
  have hi : ∀ k : ℤ, (2 * (q - ⌊q⌋) = (k : ℚ)) → k = 0 ∨ k = 1 := by
    intro k hk
    have a1 : (-1 : ℚ) < k := by linarith
    have a2 : (k : ℚ) < 2 := by linarith
    have a1' : (-1 : ℤ) < k := by exact_mod_cast a1
    have a2' : k < 2 := by exact_mod_cast a2
    omega
  have hk := hi (n + roundEven q - 2 * ⌊q⌋) (by push_cast; linarith)
  have hval : 2 * (q - ⌊q⌋) = ((n + roundEven q - 2 * ⌊q⌋ : ℤ) : ℚ) := by push_cast; linarith
  rcases hk with hk | hk
  · rw [hk] at hval
    have hq : q = ⌊q⌋ := by push_cast at hval; linarith
    have hr : roundEven q = ⌊q⌋ := by rw [hq, roundEven_int, Int.floor_intCast]
    exact absurd (by omega) hn
  · rw [hk] at hval
    have hd : q - ⌊q⌋ = 1 / 2 := by push_cast at hval; linarith
    unfold roundEven
    rw [if_neg (by rw [hd]; norm_num), if_neg (by rw [hd]; norm_num)]
    split_ifs with h0
    · exact Int.even_iff.2 h0
    · exact Int.even_iff.2 (by omega)

theorem IsDouble.neg {x : ℚ} (h : IsDouble x) : IsDouble (-x) := by
  obtain ⟨m, e, hm, rfl⟩ := h
  exact ⟨-m, e, by rwa [abs_neg], by push_cast; ring⟩

theorem isDouble_of_le {m e : ℤ} (h : |m| ≤ 2 ^ 53) : IsDouble (m * (2 : ℚ) ^ e) := by
  rcases lt_or_eq_of_le h with h | h
  · exact ⟨m, e, h, rfl⟩
  · refine ⟨m / 2, e + 1, ?_, ?_⟩
    · rcases abs_eq (by norm_num : (0 : ℤ) ≤ 2 ^ 53) |>.1 h with h | h <;> rw [h] <;> decide
    · have : m = 2 * (m / 2) := by
        rcases abs_eq (by norm_num : (0 : ℤ) ≤ 2 ^ 53) |>.1 h with h | h <;> rw [h] <;> decide
      rw [zpow_add₀ (by norm_num), zpow_one]
      have h' : (m : ℚ) = 2 * ((m / 2 : ℤ) : ℚ) := by exact_mod_cast this
      generalize m / 2 = k at h'
      rw [h']
      ring

theorem isDouble_int {m : ℤ} (h : |m| ≤ 2 ^ 53) : IsDouble (m : ℚ) := by
  have := isDouble_of_le (e := 0) h
  rwa [zpow_zero, mul_one] at this

theorem flPos_spec {x : ℚ} (hx : 0 < x) : IsNearest x (flPos x) ∧ |flPos x - x| ≤ x / 2 ^ 53 ∧ 0 ≤ flPos x ∧
    ∀ z, IsDouble z → |z - x| = |flPos x - x| → z ≠ flPos x → ∃ m e : ℤ, flPos x = m * 2 ^ e ∧ 2 ^ 52 ≤ |m| ∧ |m| ≤ 2 ^ 53 ∧ Even m := by
  set e := Int.log 2 x - 52 with he
  have h1 : (2 : ℚ) ^ (52 : ℕ) * 2 ^ e ≤ x := by
    have := Int.zpow_log_le_self (b := 2) (by norm_num) hx
    rw [← zpow_natCast, ← zpow_add₀ (by norm_num), he]
    have e0 : ((52 : ℕ) : ℤ) + (Int.log 2 x - 52) = Int.log 2 x := by push_cast; omega
    rw [e0]
    exact_mod_cast this
  have h2 : x < (2 : ℚ) ^ (53 : ℕ) * 2 ^ e := by
    have := Int.lt_zpow_succ_log_self (b := 2) (by norm_num) x
    rw [← zpow_natCast, ← zpow_add₀ (by norm_num), he]
    have e0 : ((53 : ℕ) : ℤ) + (Int.log 2 x - 52) = Int.log 2 x + 1 := by push_cast; omega
    rw [e0]
    exact_mod_cast this
  have hp : (0 : ℚ) < 2 ^ e := zpow_pos (by norm_num) e
  have hf : flPos x = roundEven (x / 2 ^ e) * 2 ^ e := rfl
  set r := roundEven (x / 2 ^ e) with hr
  have scale : ∀ n : ℤ, |(n : ℚ) * 2 ^ e - x| = |(n : ℚ) - x / 2 ^ e| * 2 ^ e := by
    intro n
    have hx' : x / 2 ^ e * 2 ^ e = x := div_mul_cancel₀ _ hp.ne'
    calc |(n : ℚ) * 2 ^ e - x| = |((n : ℚ) - x / 2 ^ e) * 2 ^ e| := by rw [sub_mul, hx']
      _ = _ := by rw [abs_mul, abs_of_pos hp]
  have q1 : (2 : ℚ) ^ (52 : ℕ) ≤ x / 2 ^ e := by rwa [le_div_iff₀ hp]
  have q2 : x / 2 ^ e < 2 ^ (53 : ℕ) := by rwa [div_lt_iff₀ hp]
  have hre := abs_le.1 (roundEven_err (x / 2 ^ e))
  rw [← hr] at hre
  have r1 : (0 : ℤ) ≤ r := by
    have : (-1 : ℚ) < r := by linarith [show (1 : ℚ) ≤ 2 ^ 52 by norm_num]
    have : (-1 : ℤ) < r := by exact_mod_cast this
    omega
  have r2 : r ≤ 2 ^ 53 := by
    have : (r : ℚ) < 2 ^ 53 + 1 := by linarith
    have : r < 2 ^ 53 + 1 := by exact_mod_cast this
    omega
  have r3 : 2 ^ 52 ≤ r := by
    have : (2 ^ 52 - 1 : ℚ) < r := by linarith
    have : (2 ^ 52 - 1 : ℤ) < r := by exact_mod_cast this
    omega
  have low : ∀ m e' : ℤ, |m| < 2 ^ 53 → e' < e → (m : ℚ) * 2 ^ e' < 2 ^ (52 : ℕ) * 2 ^ e := by
    intro m e' hm h
    have hm' : (m : ℚ) < 2 ^ (53 : ℕ) := by
      have := (le_abs_self m).trans_lt hm
      exact_mod_cast this
    have he' : (2 : ℚ) ^ e' ≤ 2 ^ (e - 1) := zpow_le_zpow_right₀ (by norm_num) (by omega)
    calc (m : ℚ) * 2 ^ e' < 2 ^ (53 : ℕ) * 2 ^ e' := mul_lt_mul_of_pos_right hm' (zpow_pos (by norm_num) e')
      _ ≤ 2 ^ (53 : ℕ) * 2 ^ (e - 1) := mul_le_mul_of_nonneg_left he' (by positivity)
      _ = _ := by rw [zpow_sub₀ (by norm_num), zpow_one]; ring
  have hn' : |(r : ℚ) - x / 2 ^ e| * 2 ^ e ≤ |2 ^ 52 * 2 ^ e - x| := by
    have hn := roundEven_nearest (x / 2 ^ e) (2 ^ 52)
    have hn' := mul_le_mul_of_nonneg_right hn hp.le
    rw [← scale (2 ^ 52)] at hn'
    push_cast at hn'
    exact hn'
  refine ⟨⟨?_, ?_⟩, ?_, ?_, ?_⟩
  · rw [hf]; exact isDouble_of_le (by rw [abs_of_nonneg r1]; exact r2)
  · rintro z ⟨m, e', hm, rfl⟩
    rw [hf, scale]
    rcases le_or_gt e e' with h | h
    · obtain ⟨k, hk⟩ : ∃ k : ℕ, e' = e + k := ⟨(e' - e).toNat, by omega⟩
      have : (m : ℚ) * 2 ^ e' = ((m * 2 ^ k : ℤ) : ℚ) * 2 ^ e := by
        rw [hk, zpow_add₀ (by norm_num), zpow_natCast]; push_cast; ring
      rw [this, scale]
      exact mul_le_mul_of_nonneg_right (roundEven_nearest _ _) hp.le
    · have hz := low m e' hm h
      refine hn'.trans ?_
      rw [abs_of_nonpos (by linarith), abs_of_nonpos (by linarith)]
      linarith
  · rw [hf, scale]
    have := mul_le_mul_of_nonneg_right (roundEven_err (x / 2 ^ e)) hp.le
    rw [← hr] at this
    refine this.trans ?_
    rw [le_div_iff₀ (by positivity)]
    have : (1 / 2 * 2 ^ e * 2 ^ 53 : ℚ) = 2 ^ 52 * 2 ^ e := by ring
    rw [this]
    exact h1
  · rw [hf]
    have : (0 : ℚ) ≤ r := by exact_mod_cast r1
    positivity
  · rintro z ⟨m, e', hm, rfl⟩ heq hne
    refine ⟨r, e, hf, by rwa [abs_of_nonneg r1], by rwa [abs_of_nonneg r1], ?_⟩
    rw [hf, scale] at heq
    rcases le_or_gt e e' with h | h
    · obtain ⟨k, hk⟩ : ∃ k : ℕ, e' = e + k := ⟨(e' - e).toNat, by omega⟩
      have hz : (m : ℚ) * 2 ^ e' = ((m * 2 ^ k : ℤ) : ℚ) * 2 ^ e := by
        rw [hk, zpow_add₀ (by norm_num), zpow_natCast]; push_cast; ring
      rw [hz, scale] at heq
      have heq := mul_right_cancel₀ hp.ne' heq
      rw [hf, hz] at hne
      exact roundEven_tie _ (m * 2 ^ k) heq fun h => hne (by rw [h])
    · exfalso
      have hz := low m e' hm h
      rw [← heq, abs_of_nonpos (by linarith), abs_of_nonpos (by linarith)] at hn'
      linarith

theorem fl_neg (x : ℚ) : fl (-x) = -fl x := by
  unfold fl
  rcases lt_trichotomy x 0 with h | h | h
  · rw [if_neg (by linarith : ¬ -x = 0), if_neg (by linarith), if_neg h.ne, if_pos h, neg_neg]
  · subst h; simp
  · rw [if_neg (by linarith : ¬ -x = 0), if_pos (by linarith), neg_neg, if_neg h.ne', if_neg (by linarith)]

theorem fl_pos {x : ℚ} (h : 0 < x) : fl x = flPos x := by rw [fl, if_neg h.ne', if_neg (by linarith)]

theorem fl_nearest (x : ℚ) : IsNearest x (fl x) := by
  have pos : ∀ x : ℚ, 0 < x → IsNearest x (fl x) := fun x h => by rw [fl_pos h]; exact (flPos_spec h).1
  rcases lt_trichotomy x 0 with h | h | h
  · obtain ⟨h1, h2⟩ := pos (-x) (by linarith)
    rw [fl_neg] at h1 h2
    refine ⟨by simpa using h1.neg, fun z hz => ?_⟩
    have := h2 (-z) hz.neg
    rwa [← neg_add', ← neg_add', abs_neg, abs_neg, ← sub_eq_add_neg, ← sub_eq_add_neg] at this
  · subst h
    refine ⟨⟨0, 0, by norm_num, by simp [fl]⟩, fun z _ => ?_⟩
    simp [fl]
  · exact pos x h

theorem fl_err (x : ℚ) : |fl x - x| ≤ |x| / 2 ^ 53 := by
  rcases lt_trichotomy x 0 with h | h | h
  · have := (flPos_spec (x := -x) (by linarith)).2.1
    rw [← fl_pos (by linarith), fl_neg] at this
    rw [abs_of_neg h, ← abs_neg]
    convert this using 2
    ring
  · subst h; simp [fl]
  · rw [fl_pos h, abs_of_pos h]; exact (flPos_spec h).2.1

theorem fl_ties (x z : ℚ) (hz : IsDouble z) (h : |z - x| = |fl x - x|) (hne : z ≠ fl x) :
    ∃ m e : ℤ, fl x = m * 2 ^ e ∧ 2 ^ 52 ≤ |m| ∧ |m| ≤ 2 ^ 53 ∧ Even m := by
  rcases lt_trichotomy x 0 with h0 | h0 | h0
  · have hp : 0 < -x := by linarith
    have hf : flPos (-x) = -fl x := by rw [← fl_pos hp, fl_neg]
    obtain ⟨m, e, h1, h2, h3, h4⟩ := (flPos_spec hp).2.2.2 (-z) hz.neg (by
      rw [hf, ← neg_add', ← neg_add', abs_neg, abs_neg, ← sub_eq_add_neg, ← sub_eq_add_neg]; exact h) (fun e => hne (by rw [hf] at e; linarith))
    refine ⟨-m, e, ?_, by rwa [abs_neg], by rwa [abs_neg], h4.neg⟩
    rw [hf] at h1
    push_cast
    linarith
  · subst h0
    have : fl 0 = 0 := by simp [fl]
    rw [this] at h hne
    rw [sub_self, abs_zero, abs_eq_zero, sub_zero] at h
    exact absurd h hne
  · rw [fl_pos h0] at h hne ⊢
    exact (flPos_spec h0).2.2.2 z hz h hne

theorem fl_exact {x : ℚ} (h : IsDouble x) : fl x = x := by
  have := (fl_nearest x).2 x h
  rw [sub_self, abs_zero] at this
  have := abs_eq_zero.1 (le_antisymm this (abs_nonneg _))
  linarith

theorem fl_int {m : ℤ} (h : |m| ≤ 2 ^ 53) : fl (m : ℚ) = m := fl_exact (isDouble_int h)

theorem fl_nonneg {x : ℚ} (h : 0 ≤ x) : 0 ≤ fl x := by
  rcases h.eq_or_lt with h | h
  · subst h; simp [fl]
  · rw [fl_pos h]; exact (flPos_spec h).2.2.1

theorem abs_fl (x : ℚ) : |fl x| = fl |x| := by
  rcases le_total 0 x with h | h
  · rw [abs_of_nonneg h, abs_of_nonneg (fl_nonneg h)]
  · have := fl_nonneg (x := -x) (by linarith)
    rw [abs_of_nonpos h, fl_neg, abs_of_nonpos (by rw [fl_neg] at this; linarith)]

end Libff
