import Verif.Model.Algorithms
import Verif.Lemmas.Bigint
import Mathlib.Algebra.Group.Defs
import Mathlib.Algebra.Field.Defs
import Mathlib.FieldTheory.Finite.Basic

namespace Libff

theorem powLoop_spec {K : Type*} [Monoid K] (sq : K → K) (base : K)
    (hsq : ∀ n : Nat, sq (base ^ n) = base ^ n * base ^ n)
    (e : Nat) (k : Nat) (v : Nat) (found : Bool) (hf : found = false → v = 0) :
    ∃ f', powLoop sq base (fun i => e.testBit i) k (found, base ^ v)
        = (f', base ^ (v * 2 ^ k + e % 2 ^ k)) ∧ (f' = false → v * 2 ^ k + e % 2 ^ k = 0) := by
  induction k generalizing v found with
  | zero => exact ⟨found, by simp [powLoop, Nat.mod_one], by simpa [Nat.mod_one] using hf⟩
  | succ i ih =>
    unfold powLoop
    simp only
    have hres : (if found then sq (base ^ v) else base ^ v) = base ^ (2 * v) := by
      cases found with
      | true => simp [hsq, ← pow_add, two_mul]
      | false => simp [hf rfl]
    rw [hres]
    have hm : e % 2 ^ (i + 1) = e % 2 ^ i + 2 ^ i * (e.testBit i).toNat := by
      rw [Nat.toNat_testBit, Nat.mod_pow_succ]
    by_cases hb : e.testBit i = true
    · rw [if_pos hb, ← pow_succ]
      obtain ⟨f', h1, h2⟩ := ih (2 * v + 1) true (by simp)
      have e1 : (2 * v + 1) * 2 ^ i + e % 2 ^ i = v * 2 ^ (i + 1) + e % 2 ^ (i + 1) := by
        rw [hm, hb, Nat.pow_succ]; simp; ring
      rw [e1] at h1 h2
      exact ⟨f', h1, h2⟩
    · rw [if_neg hb]
      obtain ⟨f', h1, h2⟩ := ih (2 * v) found (fun h => by rw [hf h])
      have hb' : e.testBit i = false := by simpa using hb
      have e1 : (2 * v) * 2 ^ i + e % 2 ^ i = v * 2 ^ (i + 1) + e % 2 ^ (i + 1) := by
        rw [hm, hb', Nat.pow_succ]; simp; ring
      rw [e1] at h1 h2
      exact ⟨f', h1, h2⟩

theorem powerBigint_eq {K : Type*} [Monoid K] (base : K) (e : List Limb) :
    powerBigint base e = base ^ val e := by
  have ht : testBit e = fun i => (val e).testBit i := funext (testBit_eq e)
  obtain ⟨f', h1, _⟩ := powLoop_spec (fun x : K => x * x) base (fun _ => rfl) (val e)
    (bigintMaxBits e) 0 false (fun _ => rfl)
  rw [powerBigint, ht]
  rw [pow_zero] at h1
  rw [h1]
  simp only [Nat.zero_mul, Nat.zero_add]
  rw [Nat.mod_eq_of_lt]
  rw [bigintMaxBits, Nat.mul_comm]; exact val_lt e

theorem bitAt_eq (e : BitVec 64) (i : Nat) : bitAt e i = e.toNat.testBit i := by
  by_cases hi : i < 64
  · exact and_shiftLeft_one_ne_zero e i hi
  · rw [bitAt, Nat.testBit_lt_two_pow]
    · have : (1 : BitVec 64) <<< i = 0 := by
        apply BitVec.eq_of_toNat_eq
        rw [BitVec.toNat_shiftLeft, Nat.shiftLeft_eq]
        have : 2 ^ 64 ∣ 2 ^ i := Nat.pow_dvd_pow 2 (by omega)
        obtain ⟨c, hc⟩ := this
        rw [hc]
        simp
      rw [this]; simp
    · exact lt_of_lt_of_le e.isLt (Nat.pow_le_pow_right (by norm_num) (by omega))

theorem powerUll_eq {K : Type*} [Monoid K] (sq : K → K) (hsq : ∀ x, sq x = x * x) (base : K)
    (e : BitVec 64) : powerUll sq base e = base ^ e.toNat := by
  obtain ⟨f', h1, _⟩ := powLoop_spec sq base (fun _ => hsq _) e.toNat 64 0 false (fun _ => rfl)
  rw [powerUll, show bitAt e = fun i => e.toNat.testBit i from funext (bitAt_eq e)]
  rw [pow_zero] at h1
  rw [h1, Nat.mod_eq_of_lt e.isLt]; simp

/-- Value of a word vector whose first word is the most significant. -/
def vecVal (e : List (BitVec 64)) : Nat := e.foldl (fun v w => v * 2 ^ 64 + w.toNat) 0

theorem powerVec_eq' {K : Type*} [Monoid K] (sq : K → K) (base : K)
    (hsq : ∀ n : Nat, sq (base ^ n) = base ^ n * base ^ n)
    (e : List (BitVec 64)) : powerVec sq base e = base ^ vecVal e := by
  have key : ∀ (e : List (BitVec 64)) (v : Nat) (found : Bool), (found = false → v = 0) →
      (e.foldl (fun st w => powLoop sq base (bitAt w) 64 st) (found, base ^ v)).2
        = base ^ e.foldl (fun v w => v * 2 ^ 64 + w.toNat) v := by
    intro e
    induction e with
    | nil => intro v found _; rfl
    | cons w e ih =>
      intro v found hf
      obtain ⟨f', h1, h2⟩ := powLoop_spec sq base hsq w.toNat 64 v found hf
      rw [List.foldl_cons, List.foldl_cons,
        show bitAt w = fun i => w.toNat.testBit i from funext (bitAt_eq w), h1]
      rw [Nat.mod_eq_of_lt w.isLt] at h2 ⊢
      exact ih _ _ h2
  have := key e 0 false (fun _ => rfl)
  rw [pow_zero] at this
  exact this

theorem powerVec_eq {K : Type*} [Monoid K] (sq : K → K) (hsq : ∀ x, sq x = x * x) (base : K)
    (e : List (BitVec 64)) : powerVec sq base e = base ^ vecVal e :=
  powerVec_eq' sq base (fun _ => hsq _) e

/-! ### Tonelli–Shanks -/

theorem tsSquare_eq {K : Type*} [Monoid K] (sq : K → K) (hsq : ∀ x, sq x = x * x) (j : Nat) (w : K) :
    tsSquare sq j w = w ^ 2 ^ j := by
  induction j generalizing w with
  | zero => simp [tsSquare]
  | succ j ih => rw [tsSquare, ih, hsq, ← pow_two, ← pow_mul, Nat.pow_succ, Nat.mul_comm]

theorem tsOrder_spec {K : Type*} [Monoid K] [DecidableEq K] (sq : K → K) (hsq : ∀ x, sq x = x * x)
    (fuel : Nat) (b : K) (m k : Nat) (hk : b ^ 2 ^ k = 1) (hmin : ∀ i < k, b ^ 2 ^ i ≠ 1)
    (hf : k < fuel) : tsOrder sq fuel b m = some (m + k) := by
  induction fuel generalizing b m k with
  | zero => omega
  | succ fuel ih =>
    rw [tsOrder]
    cases k with
    | zero => simp at hk; simp [hk]
    | succ k =>
      have h0 := hmin 0 (by omega)
      simp only [pow_zero, pow_one] at h0
      rw [if_neg h0, ih (sq b) (m + 1) k]
      · congr 1; omega
      · rw [hsq, ← pow_two, ← pow_mul, ← Nat.pow_succ']; exact hk
      · intro i hi
        rw [hsq, ← pow_two, ← pow_mul, ← Nat.pow_succ']
        exact hmin (i + 1) (by omega)
      · omega

theorem tsOrder_sound {K : Type*} [Monoid K] [DecidableEq K] (sq : K → K) (hsq : ∀ x, sq x = x * x)
    (fuel : Nat) (b : K) (m r : Nat) (h : tsOrder sq fuel b m = some r) :
    ∃ k, r = m + k ∧ b ^ 2 ^ k = 1 ∧ ∀ i < k, b ^ 2 ^ i ≠ 1 := by
  induction fuel generalizing b m with
  | zero => simp [tsOrder] at h
  | succ fuel ih =>
    rw [tsOrder] at h
    by_cases hb : b = 1
    · rw [if_pos hb] at h
      exact ⟨0, by simpa using h.symm, by simp [hb], by simp⟩
    · rw [if_neg hb] at h
      obtain ⟨k, h1, h2, h3⟩ := ih _ _ h
      refine ⟨k + 1, by omega, ?_, ?_⟩
      · rw [Nat.pow_succ', pow_mul, pow_two, ← hsq]; exact h2
      · intro i hi
        cases i with
        | zero => simpa using hb
        | succ i => rw [Nat.pow_succ', pow_mul, pow_two, ← hsq]; exact h3 i (by omega)

variable {K : Type*} [Field K] [DecidableEq K]

theorem tsLoop_square (sq : K → K) (hsq : ∀ x, sq x = x * x) (a : K) (v : Nat)
    (z b x : K) (hv : 0 < v)
    (hx : x * x = a * b) (hb : b ^ 2 ^ (v - 1) = 1) (hz : z ^ 2 ^ (v - 1) = -1) :
    ∃ y, y * y = a ∧ ∀ innerFuel fuel, v ≤ fuel → v ≤ innerFuel →
      tsLoop sq innerFuel fuel v z b x = some y := by
  induction v using Nat.strongRecOn generalizing z b x with
  | ind v ih =>
    by_cases hb1 : b = 1
    · refine ⟨x, by rw [hx, hb1, mul_one], fun innerFuel fuel hfuel hin => ?_⟩
      cases fuel with
      | zero => omega
      | succ fuel => rw [tsLoop, if_pos hb1]
    · -- least m with b^(2^m) = 1
      have hex : ∃ m, b ^ 2 ^ m = 1 := ⟨_, hb⟩
      classical
      let m := Nat.find hex
      have hm1 : b ^ 2 ^ m = 1 := Nat.find_spec hex
      have hmin : ∀ i < m, b ^ 2 ^ i ≠ 1 := fun i hi => Nat.find_min hex hi
      have hmle : m ≤ v - 1 := Nat.find_min' hex hb
      have hm0 : m ≠ 0 := by
        intro h
        rw [h] at hm1
        simp at hm1
        exact hb1 hm1
      have hzz : sq (z ^ 2 ^ (v - m - 1)) = z ^ 2 ^ (v - m) := by
        rw [hsq, ← pow_add, ← two_mul, ← Nat.pow_succ']
        congr 2; omega
      have hzm : (z ^ 2 ^ (v - m)) ^ 2 ^ (m - 1) = -1 := by
        rw [← pow_mul, ← Nat.pow_add, show v - m + (m - 1) = v - 1 by omega, hz]
      have hbm : b ^ 2 ^ (m - 1) = -1 := by
        have h1 : (b ^ 2 ^ (m - 1)) * (b ^ 2 ^ (m - 1)) = 1 := by
          rw [← pow_add, ← two_mul, ← Nat.pow_succ', show (m - 1).succ = m by omega, hm1]
        rcases mul_self_eq_one_iff.1 h1 with h2 | h2
        · exact absurd h2 (hmin (m - 1) (by omega))
        · exact h2
      obtain ⟨y, hy, hl⟩ := ih m (by omega) (z ^ 2 ^ (v - m)) (b * z ^ 2 ^ (v - m))
        (x * z ^ 2 ^ (v - m - 1)) (by omega)
        (by
          have : z ^ 2 ^ (v - m) = z ^ 2 ^ (v - m - 1) * z ^ 2 ^ (v - m - 1) := by
            rw [← hzz, hsq]
          rw [this]
          linear_combination (z ^ 2 ^ (v - m - 1)) * (z ^ 2 ^ (v - m - 1)) * hx)
        (by rw [mul_pow, hzm, hbm]; simp) hzm
      refine ⟨y, hy, fun innerFuel fuel hfuel hin => ?_⟩
      cases fuel with
      | zero => omega
      | succ fuel =>
        have hord : tsOrder sq innerFuel b 0 = some m := by
          have := tsOrder_spec sq hsq innerFuel b 0 m hm1 hmin (by omega)
          simpa using this
        rw [tsLoop, if_neg hb1, hord]
        simp only
        have hj : ((v : Int) - m - 1).toNat = v - m - 1 := by omega
        rw [hj, tsSquare_eq sq hsq, hzz]
        exact hl innerFuel fuel (by omega) (by omega)

theorem tsLoop_nonsquare (sq : K → K) (hsq : ∀ x, sq x = x * x) (h2 : (-1 : K) ≠ 1) (innerFuel : Nat)
    (v : Nat) (hv : 0 < v) (fuel : Nat) (z b x : K) (hb : b ^ 2 ^ (v - 1) = -1)
    (hz : z ^ 2 ^ v = 1) : tsLoop sq innerFuel fuel v z b x = none := by
  induction fuel generalizing z b x with
  | zero => rfl
  | succ fuel ih =>
    rw [tsLoop]
    have hb1 : b ≠ 1 := by
      rintro rfl
      rw [one_pow] at hb
      exact h2 hb.symm
    rw [if_neg hb1]
    cases hord : tsOrder sq innerFuel b 0 with
    | none => rfl
    | some m =>
      simp only
      obtain ⟨k, h1, h3, h4⟩ := tsOrder_sound sq hsq _ _ _ _ hord
      have hmk : m = k := by omega
      subst hmk
      -- the order exponent is exactly v
      have hbv : b ^ 2 ^ v = 1 := by
        have : v = v - 1 + 1 := by omega
        rw [this, Nat.pow_succ, pow_mul, hb]; norm_num
      have hmv : m = v := by
        by_contra hne
        rcases Nat.lt_or_gt_of_ne hne with hlt | hgt
        · have : b ^ 2 ^ (v - 1) = 1 := by
            have e : v - 1 = m + (v - 1 - m) := by omega
            rw [e, Nat.pow_add, pow_mul, h3, one_pow]
          rw [this] at hb
          exact h2 hb.symm
        · exact h4 v hgt hbv
      subst hmv
      have hj : ((m : Int) - m - 1).toNat = 0 := by omega
      rw [hj, tsSquare]
      apply ih
      · rw [mul_pow, hb, hsq, ← pow_two, ← pow_mul, ← Nat.pow_succ',
          show (m - 1).succ = m by omega, hz, mul_one]
      · rw [hsq, mul_pow, hz, mul_one]

end Libff
