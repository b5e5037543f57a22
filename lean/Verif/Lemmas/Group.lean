import Verif.Spec.Group
import Verif.Lemmas.Bigint
import Verif.Lemmas.FpRepr
import Mathlib.Algebra.Group.Basic
import Mathlib.Algebra.Module.NatInt
import Mathlib.Tactic.Ring
import Mathlib.Tactic.Abel
import Mathlib.Tactic.LinearCombination

namespace Libff

/-! ## scalar multiplication -/

theorem scalarMulLoop_spec {G A : Type*} [GroupOps G] [AddCommGroup A] {ψ : G → A}
    (h : ImplementsGroup ψ) (base : G) (e : List Limb) (k : Nat) (found : Bool) (r : G) (v : Nat)
    (hr : ψ r = v • ψ base) (hf : found = false → v = 0) :
    ψ (scalarMulLoop base e k (found, r)) = (v * 2 ^ k + val e % 2 ^ k) • ψ base := by
  induction k generalizing found r v with
  | zero => simp [scalarMulLoop, hr, Nat.mod_one]
  | succ i ih =>
    unfold scalarMulLoop
    simp only
    have hres : ψ (if found then GroupOps.dbl r else r) = (2 * v) • ψ base := by
      cases found with
      | true => simp only [if_true, h.dbl, hr]; rw [← add_nsmul, two_mul]
      | false => simp [hf rfl, hr]
    have hm : val e % 2 ^ (i + 1) = val e % 2 ^ i + 2 ^ i * ((val e).testBit i).toNat := by
      rw [Nat.toNat_testBit, Nat.mod_pow_succ]
    rw [testBit_eq]
    by_cases hb : (val e).testBit i = true
    · rw [if_pos hb, ih true _ (2 * v + 1) (by rw [h.add, hres, succ_nsmul]) (by simp)]
      congr 1
      rw [hm, hb, Nat.pow_succ]; simp; ring
    · rw [if_neg hb, ih found _ (2 * v) hres (fun hh => by rw [hf hh])]
      congr 1
      have hb' : (val e).testBit i = false := by simpa using hb
      rw [hm, hb', Nat.pow_succ]; simp; ring

theorem scalarMul_spec {G A : Type*} [GroupOps G] [AddCommGroup A] {ψ : G → A}
    (h : ImplementsGroup ψ) (base : G) (e : List Limb) :
    ψ (scalarMul base e) = val e • ψ base := by
  rw [scalarMul, scalarMulLoop_spec h base e _ false _ 0 (by simp [h.zero]) (fun _ => rfl)]
  congr 1
  rw [Nat.zero_mul, Nat.zero_add, Nat.mod_eq_of_lt]
  rw [bigintMaxBits, Nat.mul_comm]; exact val_lt e

/-! ## wNAF -/

theorem rshift1_spec (l : List Limb) : val (rshift1 l) = val l / 2 ∧ (rshift1 l).length = l.length := by
  induction l with
  | nil => simp [rshift1]
  | cons x l ih =>
    obtain ⟨h1, h2⟩ := ih
    refine ⟨?_, by simp [rshift1, h2]⟩
    simp only [rshift1, val_cons, h1, BitVec.toNat_ofNat]
    have hx := x.isLt
    have hl : val l % 2 = (l.headD 0).toNat % 2 := by
      cases l with
      | nil => simp
      | cons y l => simp only [val_cons, List.headD_cons]; omega
    rw [← hl]
    rw [Nat.mod_eq_of_lt (by omega)]
    omega

theorem headD_mod (c : List Limb) (k : Nat) (hk : k ≤ 64) :
    (c.headD 0).toNat % 2 ^ k = val c % 2 ^ k := by
  cases c with
  | nil => simp
  | cons x l =>
    simp only [List.headD_cons, val_cons]
    have : 2 ^ 64 = 2 ^ k * 2 ^ (64 - k) := by rw [← pow_add]; congr 1; omega
    rw [this, Nat.mul_assoc, Nat.add_mul_mod_self_left]

theorem headD_odd (c : List Limb) : ((c.headD 0 &&& 1) == 1) = decide (val c % 2 = 1) := by
  have h := headD_mod c 1 (by norm_num)
  rw [pow_one] at h
  rw [← h]
  generalize c.headD 0 = x
  rw [Bool.eq_iff_iff]
  simp only [beq_iff_eq, decide_eq_true_eq]
  rw [← BitVec.toNat_inj, BitVec.toNat_and]
  simp

/-- Everything about one round. -/
theorem wnafStep_spec (w n : Nat) (hw1 : 1 ≤ w) (hw : w < 30) (c : List Limb) (hn : c.length = n)
    (hc : val c ≠ 0) (hov : val c + 2 ^ w ≤ 2 ^ (64 * n)) :
    (wnafStep w c).2.length = n ∧
    (val c : Int) = (wnafStep w c).1 + 2 * val (wnafStep w c).2 ∧
    ((wnafStep w c).1 = 0 ∨ ((wnafStep w c).1 % 2 = 1 ∧ |(wnafStep w c).1| < 2 ^ w)) ∧
    ((wnafStep w c).1 ≠ 0 → 2 ^ w ∣ val (wnafStep w c).2) ∧
    (∀ m, val c ≤ 2 ^ (m + 1) → val (wnafStep w c).2 ≤ 2 ^ m) ∧
    (val c = 1 → val (wnafStep w c).2 = 0) ∧
    (2 ∣ val c → (wnafStep w c).1 = 0) ∧
    val (wnafStep w c).2 + 2 ^ w ≤ 2 ^ (64 * n) := by
  have hn0 : 1 ≤ n := by
    rcases n with _ | n
    · simp at hn; subst hn; simp at hc
    · omega
  have hhalf : 2 ^ (64 * n) = 2 * 2 ^ (64 * n - 1) := by
    rw [← pow_succ']; congr 1; omega
  have hwle : 2 ^ w ≤ 2 ^ (64 * n - 1) := Nat.pow_le_pow_right (by norm_num) (by omega)
  have fin : ∀ v', v' ≤ 2 ^ (64 * n - 1) → v' + 2 ^ w ≤ 2 ^ (64 * n) := by intro v' h; omega
  have hle : val c ≤ 2 ^ (64 * n - 1 + 1) := by rw [pow_succ', ← hhalf]; exact le_trans (Nat.le_add_right _ _) hov
  by_cases ho : val c % 2 = 1
  · -- odd
    have hM : 2 ^ (w + 1) = 2 * 2 ^ w := pow_succ' 2 w
    have hpos : 0 < 2 ^ w := Nat.pow_pos (by norm_num)
    have hw64 : 2 ^ (w + 1) ≤ 2 ^ 63 := Nat.pow_le_pow_right (by norm_num) (by omega)
    have hstep : wnafStep w c = (wnafDigit w (c.headD 0),
        rshift1 (if wnafDigit w (c.headD 0) > 0 then
          (mpn_sub_1 c (BitVec.ofNat 64 (wnafDigit w (c.headD 0)).toNat)).1
          else (mpn_add_1 c (BitVec.ofNat 64 (-(wnafDigit w (c.headD 0))).toNat)).1)) := by
      unfold wnafStep
      rw [headD_odd]
      simp [ho]
    have hdig : wnafDigit w (c.headD 0) = if val c % 2 ^ (w + 1) > 2 ^ w then
        ((val c % 2 ^ (w + 1) : Nat) : Int) - 2 ^ (w + 1) else ((val c % 2 ^ (w + 1) : Nat) : Int) := by
      unfold wnafDigit
      rw [headD_mod c (w + 1) (by omega)]
      simp only
      by_cases h : val c % 2 ^ (w + 1) > 2 ^ w
      · rw [if_pos (by exact_mod_cast h), if_pos h]
      · rw [if_neg (by exact_mod_cast h), if_neg h]
    have hmod := Nat.div_add_mod (val c) (2 ^ (w + 1))
    have hmlt : val c % 2 ^ (w + 1) < 2 ^ (w + 1) := Nat.mod_lt _ (Nat.pow_pos (by norm_num))
    have hmodd : val c % 2 ^ (w + 1) % 2 = 1 := by
      rw [Nat.mod_mod_of_dvd _ (by rw [hM]; exact Dvd.intro _ rfl)]; exact ho
    -- the value after the addition or subtraction
    obtain ⟨q, hq, hqval, hqlen⟩ : ∃ q : Nat,
        (val c : Int) = wnafDigit w (c.headD 0) + (2 ^ (w + 1) * q : Nat) ∧
        val (rshift1 (if wnafDigit w (c.headD 0) > 0 then
          (mpn_sub_1 c (BitVec.ofNat 64 (wnafDigit w (c.headD 0)).toNat)).1
          else (mpn_add_1 c (BitVec.ofNat 64 (-(wnafDigit w (c.headD 0))).toNat)).1)) = 2 ^ w * q ∧
        (rshift1 (if wnafDigit w (c.headD 0) > 0 then
          (mpn_sub_1 c (BitVec.ofNat 64 (wnafDigit w (c.headD 0)).toNat)).1
          else (mpn_add_1 c (BitVec.ofNat 64 (-(wnafDigit w (c.headD 0))).toNat)).1)).length = n := by
      rw [hdig]
      by_cases h : val c % 2 ^ (w + 1) > 2 ^ w
      · rw [if_pos h]
        refine ⟨val c / 2 ^ (w + 1) + 1, ?_, ?_, ?_⟩
        · push_cast
          have : (val c : Int) = 2 ^ (w + 1) * (val c / 2 ^ (w + 1) : Nat) + (val c % 2 ^ (w + 1) : Nat) := by
            exact_mod_cast hmod.symm
          push_cast at this
          linear_combination this
        · have hneg : ¬ (((val c % 2 ^ (w + 1) : Nat) : Int) - 2 ^ (w + 1) > 0) := by
            have : ((val c % 2 ^ (w + 1) : Nat) : Int) < 2 ^ (w + 1) := by exact_mod_cast hmlt
            omega
          rw [if_neg hneg, (rshift1_spec _).1]
          have hb : (-(((val c % 2 ^ (w + 1) : Nat) : Int) - 2 ^ (w + 1))).toNat =
              2 ^ (w + 1) - val c % 2 ^ (w + 1) := by
            have : (2 : Int) ^ (w + 1) = ((2 ^ (w + 1) : Nat) : Int) := by norm_cast
            rw [this]; omega
          rw [hb]
          obtain ⟨h1, h2⟩ := mpn_add_1_spec c (BitVec.ofNat 64 (2 ^ (w + 1) - val c % 2 ^ (w + 1)))
          rw [BitVec.toNat_ofNat, Nat.mod_eq_of_lt (a := 2 ^ (w + 1) - val c % 2 ^ (w + 1)) (b := 2 ^ 64)
            (by omega), hn] at h1
          have hlt := val_lt (mpn_add_1 c (BitVec.ofNat 64 (2 ^ (w + 1) - val c % 2 ^ (w + 1)))).1
          rw [h2, hn] at hlt
          have hc0 : (mpn_add_1 c (BitVec.ofNat 64 (2 ^ (w + 1) - val c % 2 ^ (w + 1)))).2.toNat = 0 := by
            by_contra hne
            have : 2 ^ (64 * n) * 1 ≤ 2 ^ (64 * n) *
              (mpn_add_1 c (BitVec.ofNat 64 (2 ^ (w + 1) - val c % 2 ^ (w + 1)))).2.toNat :=
                Nat.mul_le_mul_left _ (by omega)
            omega
          rw [hc0, Nat.mul_zero, Nat.add_zero] at h1
          rw [h1]
          have e : val c + (2 ^ (w + 1) - val c % 2 ^ (w + 1)) = 2 * (2 ^ w * (val c / 2 ^ (w + 1) + 1)) := by
            rw [← Nat.mul_assoc, ← hM, Nat.mul_add]; omega
          rw [e]; omega
        · split <;> simp [(rshift1_spec _).2, (mpn_add_1_spec c _).2, (mpn_sub_1_spec c _).2, hn]
      · rw [if_neg h]
        refine ⟨val c / 2 ^ (w + 1), ?_, ?_, ?_⟩
        · have : (val c : Int) = 2 ^ (w + 1) * (val c / 2 ^ (w + 1) : Nat) + (val c % 2 ^ (w + 1) : Nat) := by
            exact_mod_cast hmod.symm
          push_cast at this ⊢
          linear_combination this
        · have hpos' : ((val c % 2 ^ (w + 1) : Nat) : Int) > 0 := by
            have : 0 < val c % 2 ^ (w + 1) := by omega
            exact_mod_cast this
          rw [if_pos hpos', (rshift1_spec _).1, Int.toNat_natCast]
          obtain ⟨h1, h2⟩ := mpn_sub_1_spec c (BitVec.ofNat 64 (val c % 2 ^ (w + 1)))
          rw [BitVec.toNat_ofNat, Nat.mod_eq_of_lt (a := val c % 2 ^ (w + 1)) (b := 2 ^ 64) (by omega), hn] at h1
          have hlt := val_lt (mpn_sub_1 c (BitVec.ofNat 64 (val c % 2 ^ (w + 1)))).1
          rw [h2, hn] at hlt
          have hc0 : (mpn_sub_1 c (BitVec.ofNat 64 (val c % 2 ^ (w + 1)))).2.toNat = 0 := by
            by_contra hne
            have : 2 ^ (64 * n) * 1 ≤ 2 ^ (64 * n) *
              (mpn_sub_1 c (BitVec.ofNat 64 (val c % 2 ^ (w + 1)))).2.toNat :=
                Nat.mul_le_mul_left _ (by omega)
            have := Nat.mod_le (val c) (2 ^ (w + 1))
            omega
          rw [hc0, Nat.mul_zero, Nat.add_zero] at h1
          have e : val (mpn_sub_1 c (BitVec.ofNat 64 (val c % 2 ^ (w + 1)))).1 =
              2 * (2 ^ w * (val c / 2 ^ (w + 1))) := by
            rw [← Nat.mul_assoc, ← hM]; omega
          rw [e]; omega
        · split <;> simp [(rshift1_spec _).2, (mpn_add_1_spec c _).2, (mpn_sub_1_spec c _).2, hn]
    have hu : wnafDigit w (c.headD 0) % 2 = 1 ∧ |wnafDigit w (c.headD 0)| < 2 ^ w := by
      have e2 : (2 : Int) ^ (w + 1) = 2 * 2 ^ w := pow_succ' 2 w
      have e3 : (2 : Int) ^ w = ((2 ^ w : Nat) : Int) := by norm_cast
      have hweven : 2 ^ w % 2 = 0 := by
        obtain ⟨j, rfl⟩ : ∃ j, w = j + 1 := ⟨w - 1, by omega⟩
        rw [pow_succ]; omega
      rw [hdig]
      split
      · rename_i h
        rw [abs_lt, e2, e3]
        omega
      · rename_i h
        rw [abs_lt, e3]
        omega
    have hbound : ∀ m, val c ≤ 2 ^ (m + 1) → 2 ^ w * q ≤ 2 ^ m := by
      intro m hm
      have hu2 := abs_lt.1 hu.2
      have e3 : (2 : Int) ^ w = ((2 ^ w : Nat) : Int) := by norm_cast
      rw [e3] at hu2
      by_cases hq0 : q = 0
      · simp [hq0]
      · have hqi : (val c : Int) = wnafDigit w (c.headD 0) + ((2 * (2 ^ w * q) : Nat) : Int) := by
          rw [hq, hM, Nat.mul_assoc]
        have hql : 2 ^ w * 1 ≤ 2 ^ w * q := Nat.mul_le_mul_left _ (by omega)
        have hmw : w ≤ m := by
          by_contra hlt
          have : 2 ^ (m + 1) ≤ 2 ^ w := Nat.pow_le_pow_right (by norm_num) (by omega)
          omega
        obtain ⟨j, rfl⟩ : ∃ j, m = w + j := ⟨m - w, by omega⟩
        rw [pow_succ', pow_add] at hm
        rw [pow_add]
        apply Nat.mul_le_mul_left
        by_contra hlt
        have : 2 ^ w * (2 ^ j + 1) ≤ 2 ^ w * q := Nat.mul_le_mul_left _ (by omega)
        rw [Nat.mul_add] at this
        omega
    rw [hstep]
    simp only
    refine ⟨hqlen, ?_, Or.inr hu, ?_, ?_, ?_, ?_, ?_⟩
    · rw [hqval, hq, hM]; push_cast; ring
    · intro _; rw [hqval]; exact Dvd.intro _ rfl
    · intro m hm; rw [hqval]; exact hbound m hm
    · intro h1
      rw [hqval]
      have hu2 := abs_lt.1 hu.2
      have e3 : (2 : Int) ^ w = ((2 ^ w : Nat) : Int) := by norm_cast
      rw [e3] at hu2
      have hqi : (val c : Int) = wnafDigit w (c.headD 0) + ((2 * (2 ^ w * q) : Nat) : Int) := by
        rw [hq, hM, Nat.mul_assoc]
      have h2w : 2 ^ 1 ≤ 2 ^ w := Nat.pow_le_pow_right (by norm_num) hw1
      by_contra hne
      have hql : 2 ^ w * 1 ≤ 2 ^ w * q := Nat.mul_le_mul_left _ (by
        by_contra h0
        have : q = 0 := by omega
        simp [this] at hne)
      omega
    · intro h2; omega
    · rw [hqval]; exact fin _ (hbound _ hle)
  · -- even
    have hstep : wnafStep w c = (0, rshift1 c) := by
      unfold wnafStep
      rw [headD_odd]
      simp [ho]
    rw [hstep]
    simp only [(rshift1_spec c).1, (rshift1_spec c).2]
    refine ⟨hn, by omega, by simp, by simp, ?_, by omega, by simp, ?_⟩
    · intro m hm; rw [pow_succ'] at hm; omega
    · apply fin; omega

theorem digitsVal_replicate (k : Nat) : digitsVal (List.replicate k 0) = 0 := by
  induction k with
  | zero => rfl
  | succ k ih => simp [List.replicate_succ, digitsVal, ih]

theorem nonAdjacent_replicate (w k : Nat) : NonAdjacent w (List.replicate k 0) := by
  induction k with
  | zero => trivial
  | succ k ih => rw [List.replicate_succ]; exact ⟨by simp, ih⟩

theorem wnafLoop_spec (w n : Nat) (hw1 : 1 ≤ w) (hw : w < 30) (m : Nat) (c : List Limb)
    (hn : c.length = n) (hm : val c ≤ 2 ^ m) (hov : val c + 2 ^ w ≤ 2 ^ (64 * n)) :
    ∃ ds, wnafLoop w (m + 1) c = .ok ds ∧ ds.length = m + 1 ∧ digitsVal ds = val c ∧
      (∀ d ∈ ds, d = 0 ∨ (d % 2 = 1 ∧ |d| < 2 ^ w)) ∧ NonAdjacent w ds ∧
      ∀ j, 2 ^ j ∣ val c → ∀ i < j, ds.getD i 0 = 0 := by
  by_cases hz : val c = 0
  · refine ⟨List.replicate (m + 1) 0, ?_, by simp, by rw [digitsVal_replicate, hz]; rfl, ?_,
      nonAdjacent_replicate _ _, ?_⟩
    · unfold wnafLoop; rw [if_pos ((limbsIsZero_iff c).2 hz)]
    · intro d hd; left; exact List.eq_of_mem_replicate hd
    · intro j _ i _
      rw [List.getD_eq_getElem?_getD, List.getElem?_replicate]
      split <;> rfl
  · obtain ⟨s1, s2, s3, s4, s5, s6, s7, s8⟩ := wnafStep_spec w n hw1 hw c hn hz hov
    have hnz : ¬ (limbsIsZero c = true) := fun h => hz ((limbsIsZero_iff c).1 h)
    have htail : ∃ ds, wnafLoop w m (wnafStep w c).2 = .ok ds ∧ ds.length = m ∧
        digitsVal ds = val (wnafStep w c).2 ∧
        (∀ d ∈ ds, d = 0 ∨ (d % 2 = 1 ∧ |d| < 2 ^ w)) ∧ NonAdjacent w ds ∧
        ∀ j, 2 ^ j ∣ val (wnafStep w c).2 → ∀ i < j, ds.getD i 0 = 0 := by
      cases m with
      | zero =>
        have h1 : val c = 1 := by rw [pow_zero] at hm; omega
        have h0 := s6 h1
        refine ⟨[], ?_, rfl, by rw [h0]; rfl, by simp, trivial, by simp⟩
        unfold wnafLoop; rw [if_pos ((limbsIsZero_iff _).2 h0)]
      | succ m => exact wnafLoop_spec w n hw1 hw m _ s1 (s5 m hm) s8
    obtain ⟨ds, h1, h2, h3, h4, h5, h6⟩ := htail
    refine ⟨(wnafStep w c).1 :: ds, ?_, by simp [h2], ?_, ?_, ⟨?_, h5⟩, ?_⟩
    · unfold wnafLoop; rw [if_neg hnz]; simp only [h1]; rfl
    · rw [digitsVal, h3, s2]
    · intro d hd
      rcases List.mem_cons.1 hd with rfl | hd
      · exact s3
      · exact h4 d hd
    · intro hne j hj; exact h6 w (s4 hne) j hj
    · intro j hj i hi
      have h2c : 2 ∣ val c := Dvd.dvd.trans (dvd_pow_self 2 (by omega)) hj
      have hu := s7 h2c
      cases i with
      | zero => simpa using hu
      | succ i =>
        rw [List.getD_cons_succ]
        obtain ⟨j', rfl⟩ : ∃ j', j = j' + 1 := ⟨j - 1, by omega⟩
        apply h6 j' _ i (by omega)
        have e : val c = 2 * val (wnafStep w c).2 := by rw [hu] at s2; omega
        rw [e, pow_succ'] at hj
        exact Nat.dvd_of_mul_dvd_mul_left (by norm_num) hj
termination_by m

theorem oddTable_get {G A : Type*} [GroupOps G] [AddCommGroup A] {ψ : G → A}
    (h : ImplementsGroup ψ) (k : Nat) (t d : G) (i : Nat) (hi : i < k) :
    ∃ x, (oddTable k t d)[i]? = some x ∧ ψ x = ψ t + i • ψ d := by
  induction k generalizing t i with
  | zero => omega
  | succ k ih =>
    cases i with
    | zero => exact ⟨t, by simp [oddTable], by simp⟩
    | succ i =>
      obtain ⟨x, h1, h2⟩ := ih (GroupOps.add t d) i (by omega)
      refine ⟨x, by simpa [oddTable] using h1, ?_⟩
      rw [h2, h.add, succ_nsmul]; abel

/-- Value of digits given from the most significant one, with accumulator. -/
theorem wnafExpLoop_spec {G A : Type*} [GroupOps G] [AddCommGroup A] {ψ : G → A}
    (h : ImplementsGroup ψ) (w : Nat) (hw : 1 ≤ w) (table : List G) (b : A)
    (htab : ∀ i < 2 ^ (w - 1), ∃ x, table[i]? = some x ∧ ψ x = (2 * i + 1) • b)
    (ds : List Int) (hds : ∀ d ∈ ds, d = 0 ∨ (d % 2 = 1 ∧ |d| < 2 ^ w)) (found : Bool) (r : G) (v : Int)
    (hr : ψ r = v • b) (hf : found = false → v = 0) :
    ∃ g, wnafExpLoop table ds (found, r) = .ok g ∧
      ψ g = (ds.foldl (fun v d => 2 * v + d) v) • b := by
  induction ds generalizing found r v with
  | nil => exact ⟨r, rfl, hr⟩
  | cons d ds ih =>
    have hres : ψ (if found then GroupOps.dbl r else r) = (2 * v) • b := by
      cases found with
      | true => simp only [if_true, h.dbl, hr]; rw [← add_zsmul, two_mul]
      | false => simp [hf rfl, hr]
    unfold wnafExpLoop
    simp only
    have hd := hds d List.mem_cons_self
    have ih' := fun f r v => ih (fun d hd => hds d (List.mem_cons_of_mem _ hd)) f r v
    have hpw : (2 : Int) ^ w = 2 * ((2 ^ (w - 1) : Nat) : Int) := by
      obtain ⟨j, rfl⟩ : ∃ j, w = j + 1 := ⟨w - 1, by omega⟩
      rw [pow_succ']; push_cast; rfl
    by_cases h0 : d = 0
    · rw [if_neg (by simpa using h0)]
      obtain ⟨g, h1, h2⟩ := ih' found _ (2 * v) hres (fun hh => by rw [hf hh]; rfl)
      exact ⟨g, h1, by rw [h2, List.foldl_cons, h0, add_zero]⟩
    · obtain ⟨hodd, habs⟩ := hd.resolve_left h0
      rw [abs_lt, hpw] at habs
      rw [if_pos (by simpa using h0)]
      by_cases hpos : d > 0
      · rw [if_pos hpos]
        obtain ⟨x, h1, h2⟩ := htab (d / 2).toNat (by omega)
        rw [h1]
        simp only
        obtain ⟨g, h3, h4⟩ := ih' true (GroupOps.add (if found then GroupOps.dbl r else r) x) (2 * v + d)
          (by
            rw [h.add, hres, h2, ← natCast_zsmul, ← add_zsmul]
            congr 2; omega) (by simp)
        exact ⟨g, h3, by rw [h4, List.foldl_cons]⟩
      · rw [if_neg hpos]
        obtain ⟨x, h1, h2⟩ := htab ((-d) / 2).toNat (by omega)
        rw [h1]
        simp only
        obtain ⟨g, h3, h4⟩ := ih' true (GroupOps.sub (if found then GroupOps.dbl r else r) x) (2 * v + d)
          (by
            rw [h.sub, hres, h2, ← natCast_zsmul, sub_eq_add_neg, ← sub_zsmul]
            congr 1; omega) (by simp)
        exact ⟨g, h3, by rw [h4, List.foldl_cons]⟩

theorem foldl_reverse_digits (ds : List Int) :
    ds.reverse.foldl (fun v d => 2 * v + d) 0 = digitsVal ds := by
  induction ds with
  | nil => rfl
  | cons d ds ih => 
    simp only [List.reverse_cons, List.foldl_append, ih, List.foldl_cons, List.foldl_nil, digitsVal]
    ring

theorem findWnaf_spec (w : Nat) (hw1 : 1 ≤ w) (hw : w < 30) (c : List Limb)
    (hov : val c + 2 ^ w ≤ 2 ^ (64 * c.length)) :
    ∃ ds, findWnaf w c = .ok ds ∧ ds.length = bigintMaxBits c + 1 ∧ digitsVal ds = val c ∧
      (∀ d ∈ ds, d = 0 ∨ (d % 2 = 1 ∧ |d| < 2 ^ w)) ∧ NonAdjacent w ds := by
  unfold findWnaf
  rw [if_neg (by omega)]
  obtain ⟨ds, h1, h2, h3, h4, h5, _⟩ := wnafLoop_spec w c.length hw1 hw (bigintMaxBits c) c rfl
    (by rw [bigintMaxBits, Nat.mul_comm]; exact (val_lt c).le) hov
  exact ⟨ds, h1, h2, h3, h4, h5⟩

theorem fixedWindowWnafExp_spec {G A : Type*} [GroupOps G] [AddCommGroup A] {ψ : G → A}
    (h : ImplementsGroup ψ) (w : Nat) (hw1 : 1 ≤ w) (hw : w < 30) (base : G) (c : List Limb)
    (hov : val c + 2 ^ w ≤ 2 ^ (64 * c.length)) :
    ∃ g, fixedWindowWnafExp w base c = .ok g ∧ ψ g = val c • ψ base := by
  obtain ⟨ds, h1, _, h3, h4, _⟩ := findWnaf_spec w hw1 hw c hov
  unfold fixedWindowWnafExp
  rw [if_neg (by omega), h1, Outcome.bind_ok]
  obtain ⟨g, h5, h6⟩ := wnafExpLoop_spec h w hw1 (oddTable (2 ^ (w - 1)) base (GroupOps.dbl base)) (ψ base)
    (fun i hi => by
      obtain ⟨x, hx, hx'⟩ := oddTable_get h (2 ^ (w - 1)) base (GroupOps.dbl base) i hi
      refine ⟨x, hx, ?_⟩
      rw [hx', h.dbl, add_nsmul, one_nsmul, Nat.mul_comm, mul_nsmul, two_nsmul]
      rw [nsmul_add]; abel)
    ds.reverse (fun d hd => h4 d (List.mem_reverse.1 hd)) false GroupOps.zero 0 (by simp [h.zero])
    (fun _ => rfl)
  exact ⟨g, h5, by rw [h6, foldl_reverse_digits, h3, natCast_zsmul]⟩

end Libff
