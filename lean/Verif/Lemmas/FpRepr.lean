import Verif.Lemmas.Mpn
import Verif.Spec.FpParams
import Mathlib.Data.Nat.ModEq
import Mathlib.Data.Int.ModEq

/-! # Value-level specifications of the limb-level field operations -/
namespace Libff

theorem isGE_compare {a b : Nat} : (compare a b).isGE = decide (b ≤ a) := by
  rcases Nat.lt_trichotomy a b with h | h | h
  · rw [Nat.compare_eq_lt.2 h]; simp [Ordering.isGE]; omega
  · rw [Nat.compare_eq_eq.2 h]; simp [Ordering.isGE]; omega
  · rw [Nat.compare_eq_gt.2 h]; simp [Ordering.isGE]; omega

theorem isLT_compare {a b : Nat} : (compare a b).isLT = decide (a < b) := by
  rcases Nat.lt_trichotomy a b with h | h | h
  · rw [Nat.compare_eq_lt.2 h]; simp [Ordering.isLT]; omega
  · rw [Nat.compare_eq_eq.2 h]; simp [Ordering.isLT]; omega
  · rw [Nat.compare_eq_gt.2 h]; simp [Ordering.isLT]; omega

theorem limbsIsZero_iff (l : List Limb) : limbsIsZero l = true ↔ val l = 0 := by
  induction l with
  | nil => simp [limbsIsZero]
  | cons a l ih =>
    rw [limbsIsZero, val_cons]
    by_cases h : a = 0
    · subst h; simp [ih]
    · have : a.toNat ≠ 0 := fun h' => h (BitVec.eq_of_toNat_eq (by simpa using h'))
      simp only [h, if_false]
      constructor
      · simp
      · intro h'; omega

theorem val_smallBigint (n : Nat) (x : Limb) (h : 0 < n) : val (smallBigint n x) = x.toNat := by
  cases n with
  | zero => omega
  | succ k => rw [smallBigint, val_cons, val_replicate_zero]; simp

@[simp] theorem length_smallBigint (n : Nat) (x : Limb) : (smallBigint n x).length = n := by
  cases n <;> simp [smallBigint]

theorem limb_eq_zero_iff (x : Limb) : x = 0 ↔ x.toNat = 0 := by
  constructor
  · rintro rfl; rfl
  · intro h; exact BitVec.eq_of_toNat_eq (by simpa using h)

theorem addAssign_spec (P : FpParams) (hlen : P.modulus.length = P.n) (a b : List Limb)
    (ha : a.length = P.n) (hb : b.length = P.n) (hap : val a < P.p) (hbp : val b < P.p) :
    ∃ r, addAssign P a b = .ok r ∧ r.length = P.n ∧ val r = (val a + val b) % P.p := by
  have hs := mpn_add_n_spec a b (by omega)
  have hsl := mpn_add_n_length a b (by omega)
  rw [ha] at hs
  rw [ha] at hsl
  unfold addAssign
  simp only
  generalize mpn_add_n a b = s at *
  have hcmp := mpn_cmp_spec s.1 P.modulus (by omega)
  have hslt : val s.1 < 2 ^ (64 * P.n) := by have := val_lt s.1; rwa [hsl] at this
  have hplt : P.p < 2 ^ (64 * P.n) := by have := val_lt P.modulus; rwa [hlen] at this
  set q : Limb := if s.2 then 1 else 0 with hq
  have hqv : q.toNat = s.2.toNat := by rw [hq]; cases s.2 <;> rfl
  have hvs : val (s.1 ++ [q]) = val a + val b := by
    rw [val_append, hsl, val_cons, val_nil, hqv]
    omega
  rw [hcmp, isGE_compare]
  by_cases hc : s.2 = true ∨ P.p ≤ val s.1
  · rw [if_pos (by simpa using hc)]
    have hge : P.p ≤ val a + val b := by
      rcases hc with h | h
      · rw [h] at hs; simp at hs; omega
      · omega
    have hd := mpn_sub_spec (s.1 ++ [q]) P.modulus (by simp; omega)
    generalize mpn_sub (s.1 ++ [q]) P.modulus = d at *
    obtain ⟨hd1, hd2⟩ := hd
    rw [hvs] at hd1
    have hdlt := val_lt d.1
    rw [hd2] at hdlt
    have hpv : val P.modulus = P.p := rfl
    have hd0 : d.2.toNat = 0 := by
      by_contra hne
      have : 2 ^ (64 * (s.1 ++ [q]).length) * 1 ≤ 2 ^ (64 * (s.1 ++ [q]).length) * d.2.toNat :=
        Nat.mul_le_mul_left _ (by omega)
      omega
    rw [if_pos ((limb_eq_zero_iff _).2 hd0)]
    rw [hd0] at hd1
    have hdval : val d.1 = val a + val b - P.p := by omega
    refine ⟨_, rfl, by simp [hd2, hsl], ?_⟩
    have hsplit : val d.1 = val (d.1.take P.n) + 2 ^ (64 * P.n) * val (d.1.drop P.n) := by
      conv_lhs => rw [← List.take_append_drop P.n d.1, val_append]
      simp [hd2, hsl]
    have htk : val (d.1.take P.n) = val d.1 := by
      have : val (d.1.drop P.n) = 0 := by
        by_contra hne
        have : 2 ^ (64 * P.n) * 1 ≤ 2 ^ (64 * P.n) * val (d.1.drop P.n) :=
          Nat.mul_le_mul_left _ (by omega)
        omega
      rw [this] at hsplit; omega
    rw [htk, hdval, Nat.mod_eq_sub_mod hge, Nat.mod_eq_of_lt (by omega)]
  · rw [if_neg (by simpa using hc)]
    push Not at hc
    refine ⟨_, rfl, by simp [hsl], ?_⟩
    have : (s.1 ++ [q]).take P.n = s.1 := by rw [← hsl]; simp
    rw [this]
    have h2 : s.2 = false := by simpa using hc.1
    rw [h2] at hs
    simp at hs
    rw [hs, Nat.mod_eq_of_lt (by omega)]

theorem subAssign_spec (P : FpParams) (hlen : P.modulus.length = P.n) (a b : List Limb)
    (ha : a.length = P.n) (hb : b.length = P.n) (hap : val a < P.p) (hbp : val b < P.p) :
    ∃ r, subAssign P a b = .ok r ∧ r.length = P.n ∧ val r = (val a + P.p - val b) % P.p := by
  unfold subAssign
  simp only
  have hcmp := mpn_cmp_spec a b (by omega)
  rw [hcmp, isLT_compare]
  have halt : val a < 2 ^ (64 * P.n) := by have := val_lt a; rwa [ha] at this
  have hplt : P.p < 2 ^ (64 * P.n) := by have := val_lt P.modulus; rwa [hlen] at this
  set scratch : List Limb := if decide (val a < val b) = true then
      (mpn_add_n a P.modulus).1 ++ [if (mpn_add_n a P.modulus).2 then (1 : Limb) else 0]
    else a ++ [0] with hscr
  have hsv : val scratch = (if val a < val b then val a + P.p else val a)
      ∧ scratch.length = P.n + 1 := by
    rw [hscr]
    by_cases h : val a < val b
    · have hs := mpn_add_n_spec a P.modulus (by omega)
      have hsl := mpn_add_n_length a P.modulus (by omega)
      rw [if_pos (by simpa using h), if_pos h]
      rw [val_append, hsl, val_cons, val_nil]
      have : (if (mpn_add_n a P.modulus).2 then (1 : Limb) else 0).toNat
          = (mpn_add_n a P.modulus).2.toNat := by cases (mpn_add_n a P.modulus).2 <;> rfl
      rw [this]
      refine ⟨by simpa using hs, by simp [hsl, ha]⟩
    · rw [if_neg (by simpa using h), if_neg h, val_append]
      simp [ha]
  obtain ⟨hsv, hsl⟩ := hsv
  have hd := mpn_sub_spec scratch b (by omega)
  generalize mpn_sub scratch b = d at *
  obtain ⟨hd1, hd2⟩ := hd
  have hdlt := val_lt d.1
  rw [hd2] at hdlt
  have hge : val b ≤ val scratch := by rw [hsv]; split <;> omega
  have hd0 : d.2.toNat = 0 := by
    by_contra hne
    have : 2 ^ (64 * scratch.length) * 1 ≤ 2 ^ (64 * scratch.length) * d.2.toNat :=
      Nat.mul_le_mul_left _ (by omega)
    omega
  rw [if_pos ((limb_eq_zero_iff _).2 hd0)]
  rw [hd0] at hd1
  have hdval : val d.1 = val scratch - val b := by omega
  have hdp : val d.1 < P.p := by rw [hdval, hsv]; split <;> omega
  refine ⟨_, rfl, by simp [hd2, hsl], ?_⟩
  have hsplit : val d.1 = val (d.1.take P.n) + 2 ^ (64 * P.n) * val (d.1.drop P.n) := by
    conv_lhs => rw [← List.take_append_drop P.n d.1, val_append]
    simp [hd2, hsl]
  have htk : val (d.1.take P.n) = val d.1 := by
    have : val (d.1.drop P.n) = 0 := by
      by_contra hne
      have : 2 ^ (64 * P.n) * 1 ≤ 2 ^ (64 * P.n) * val (d.1.drop P.n) :=
        Nat.mul_le_mul_left _ (by omega)
      omega
    rw [this] at hsplit; omega
  rw [htk, hdval, hsv]
  split
  · rw [Nat.mod_eq_of_lt (by omega)]
  · have : val a + P.p - val b = P.p + (val a - val b) := by omega
    rw [this, Nat.add_mod_left, Nat.mod_eq_of_lt (by omega)]

theorem negRepr_spec (P : FpParams) (hlen : P.modulus.length = P.n) (a : List Limb)
    (ha : a.length = P.n) (hap : val a < P.p) :
    (negRepr P a).length = P.n ∧ val (negRepr P a) = (P.p - val a) % P.p := by
  unfold negRepr
  by_cases h : limbsIsZero a = true
  · rw [if_pos h]
    have := (limbsIsZero_iff a).1 h
    exact ⟨ha, by rw [this]; simp⟩
  · rw [if_neg h]
    have h0 : val a ≠ 0 := fun h' => h ((limbsIsZero_iff a).2 h')
    have hs := mpn_sub_n_spec P.modulus a (by omega)
    have hsl := mpn_sub_n_length P.modulus a (by omega)
    have hlt := val_lt (mpn_sub_n P.modulus a).1
    rw [hsl] at hlt
    generalize mpn_sub_n P.modulus a = d at *
    have hpv : val P.modulus = P.p := rfl
    have : d.2 = false := by
      by_contra hne
      have h1 : d.2 = true := by simpa using hne
      rw [h1] at hs; simp at hs
      omega
    rw [this] at hs
    simp at hs
    refine ⟨by omega, ?_⟩
    rw [Nat.mod_eq_of_lt (by omega)]; omega

theorem redLoop_spec (P : FpParams) (hP : P.Valid) (i : Nat) (res : List Limb)
    (hl : res.length = P.n + i)
    (hb : val res + (2 ^ (64 * i) - 1) * P.p < 2 ^ (64 * (P.n + i))) :
    ∃ r m, redLoop P i res = .ok r ∧ r.length = P.n ∧ m < 2 ^ (64 * i) ∧
      val r * 2 ^ (64 * i) = val res + m * P.p := by
  induction i generalizing res with
  | zero => exact ⟨res, 0, rfl, by omega, by simp, by simp⟩
  | succ i ih =>
    unfold redLoop
    simp only
    have htl : (res.take P.n).length = P.n := by simp; omega
    have hdl : (res.drop P.n).length = i + 1 := by simp; omega
    set k : Limb := P.inv * res.headD 0 with hk
    have hq := mpn_addmul_1_spec (res.take P.n) P.modulus k (by rw [htl, hP.len])
    have hw := mpn_add_1_spec (res.drop P.n) (mpn_addmul_1 (res.take P.n) P.modulus k).2
    rw [htl] at hq
    rw [hdl] at hw
    generalize mpn_addmul_1 (res.take P.n) P.modulus k = q at *
    generalize mpn_add_1 (res.drop P.n) q.2 = w at *
    obtain ⟨hq1, hq2⟩ := hq
    obtain ⟨hw1, hw2⟩ := hw
    have hsplit : val res = val (res.take P.n) + 2 ^ (64 * P.n) * val (res.drop P.n) := by
      conv_lhs => rw [← List.take_append_drop P.n res, val_append, htl]
    have hpow : 2 ^ (64 * (P.n + (i + 1))) = 2 ^ (64 * P.n) * 2 ^ (64 * (i + 1)) := by
      rw [← Nat.pow_add]; congr 1; ring
    have hkey : val (q.1 ++ w.1) + 2 ^ (64 * (P.n + (i + 1))) * w.2.toNat
        = val res + P.p * k.toNat := by
      rw [val_append, hq2, hpow]
      calc _ = val q.1 + 2 ^ (64 * P.n) * (val w.1 + 2 ^ (64 * (i + 1)) * w.2.toNat) := by ring
        _ = val q.1 + 2 ^ (64 * P.n) * q.2.toNat + 2 ^ (64 * P.n) * val (res.drop P.n) := by
            rw [hw1]; ring
        _ = _ := by rw [hq1, hsplit]; ring
    have hklt := k.isLt
    have hpi : 2 ^ (64 * (i + 1)) = 2 ^ 64 * 2 ^ (64 * i) := by
      rw [Nat.mul_add, Nat.pow_add, Nat.mul_comm]
    have hpos : 0 < 2 ^ (64 * i) := by positivity
    have hkp : P.p * k.toNat ≤ (2 ^ 64 - 1) * P.p := by
      rw [Nat.mul_comm]; exact Nat.mul_le_mul_right _ (by omega)
    have hle : (2 ^ 64 - 1) * P.p + (2 ^ 64 * 2 ^ (64 * i) - 2 ^ 64) * P.p
        = (2 ^ (64 * (i + 1)) - 1) * P.p := by
      have h3 : (2 ^ 64 - 1) + (2 ^ 64 * 2 ^ (64 * i) - 2 ^ 64) = 2 ^ 64 * 2 ^ (64 * i) - 1 := by
        omega
      rw [hpi, ← Nat.add_mul, h3]
    have hw0 : w.2.toNat = 0 := by
      by_contra hne
      have : 2 ^ (64 * (P.n + (i + 1))) * 1 ≤ 2 ^ (64 * (P.n + (i + 1))) * w.2.toNat :=
        Nat.mul_le_mul_left _ (by omega)
      have : 0 ≤ (2 ^ 64 * 2 ^ (64 * i) - 2 ^ 64) * P.p := Nat.zero_le _
      omega
    rw [if_pos ((limb_eq_zero_iff _).2 hw0)]
    rw [hw0] at hkey
    simp only [Nat.mul_zero, Nat.add_zero] at hkey
    -- the low limb vanishes
    have hlen : (q.1 ++ w.1).length = P.n + (i + 1) := by simp [hq2, hw2]
    obtain ⟨x, tl, hx⟩ : ∃ x tl, q.1 ++ w.1 = x :: tl := by
      cases h : q.1 ++ w.1 with
      | nil => rw [h] at hlen; simp at hlen
      | cons x tl => exact ⟨x, tl, rfl⟩
    rw [hx] at hkey hlen ⊢
    rw [List.tail_cons]
    rw [val_cons] at hkey
    have hres0 : val res % 2 ^ 64 = (res.headD 0).toNat := by
      cases res with
      | nil => simp
      | cons y ys =>
        have := y.isLt
        rw [val_cons, List.headD_cons]
        omega
    have hx0 : x.toNat = 0 := by
      have h1 : (x.toNat + 2 ^ 64 * val tl) % 2 ^ 64 = x.toNat := by
        have := x.isLt
        omega
      rw [hkey] at h1
      rw [← h1, hk, BitVec.toNat_mul, Nat.add_mod, hres0, Nat.mul_mod, Nat.mod_mod,
        ← Nat.mul_mod, ← Nat.add_mod_mod]
      rw [Nat.mod_mod]
      have h3 : (res.headD 0).toNat + P.p * (P.inv.toNat * (res.headD 0).toNat)
          = (res.headD 0).toNat * (P.inv.toNat * P.p + 1) := by ring
      rw [Nat.add_mod_mod, h3, Nat.mul_mod, hP.inv]
      simp
    rw [hx0, Nat.zero_add] at hkey
    have hb' : val tl + (2 ^ (64 * i) - 1) * P.p < 2 ^ (64 * (P.n + i)) := by
      have e1 : 2 ^ (64 * (P.n + (i + 1))) = 2 ^ 64 * 2 ^ (64 * (P.n + i)) := by
        rw [← Nat.add_assoc, Nat.mul_add 64 (P.n + i) 1, Nat.pow_add, Nat.mul_comm]
      have e2 : (2 ^ 64 * 2 ^ (64 * i) - 2 ^ 64) * P.p
          = 2 ^ 64 * ((2 ^ (64 * i) - 1) * P.p) := by
        rw [← Nat.mul_assoc, Nat.mul_sub, Nat.mul_one]
      omega
    obtain ⟨r, m, hr, hrl, hm, hrm⟩ := ih tl (by simp at hlen; omega) hb'
    refine ⟨r, k.toNat + 2 ^ 64 * m, hr, hrl, ?_, ?_⟩
    · rw [hpi]
      have : 2 ^ 64 * (m + 1) ≤ 2 ^ 64 * 2 ^ (64 * i) := Nat.mul_le_mul_left _ hm
      omega
    · rw [hpi]
      calc val r * (2 ^ 64 * 2 ^ (64 * i)) = 2 ^ 64 * (val r * 2 ^ (64 * i)) := by ring
        _ = 2 ^ 64 * val tl + 2 ^ 64 * (m * P.p) := by rw [hrm]; ring
        _ = _ := by rw [hkey]; ring

/-- Montgomery multiplication: never aborts, canonical, `r·R ≡ a·b (mod p)`. -/
theorem mulReduce_spec (P : FpParams) (hP : P.Valid) (a b : List Limb)
    (ha : a.length = P.n) (hb : b.length = P.n) (hab : val a * val b < P.p * 2 ^ (64 * P.n)) :
    ∃ r, mulReduce P a b = .ok r ∧ r.length = P.n ∧ val r < P.p ∧
      val r * 2 ^ (64 * P.n) ≡ val a * val b [MOD P.p] := by
  obtain ⟨hmv, hml⟩ := mpn_mul_spec a b
  have hpow : 2 ^ (64 * (P.n + P.n)) = 2 ^ (64 * P.n) * 2 ^ (64 * P.n) := by
    rw [← Nat.pow_add]; congr 1; ring
  have hpos : 0 < 2 ^ (64 * P.n) := by positivity
  have hp1 := hP.one_lt
  have htb := hP.topBit
  have hb2 : 2 * P.p * 2 ^ (64 * P.n) ≤ 2 ^ (64 * P.n) * 2 ^ (64 * P.n) :=
    Nat.mul_le_mul_right _ htb
  have hsub : (2 ^ (64 * P.n) - 1) * P.p + P.p = P.p * 2 ^ (64 * P.n) := by
    rw [← Nat.succ_mul, Nat.succ_eq_add_one, Nat.sub_add_cancel hpos]; ring
  obtain ⟨r, m, hr, hrl, hm, hrm⟩ := redLoop_spec P hP P.n (mpn_mul a b) (by omega) (by
    rw [hmv, hpow]
    have : 2 * P.p * 2 ^ (64 * P.n) = P.p * 2 ^ (64 * P.n) + P.p * 2 ^ (64 * P.n) := by ring
    omega)
  unfold mulReduce
  rw [hr, Outcome.bind_ok, mpn_cmp_spec r P.modulus (by rw [hrl, hP.len]), isGE_compare]
  rw [hmv] at hrm
  have hr2 : val r < 2 * P.p := by
    have h1 : m * P.p ≤ (2 ^ (64 * P.n) - 1) * P.p := Nat.mul_le_mul_right _ (by omega)
    have h2 : val r * 2 ^ (64 * P.n) < (2 * P.p) * 2 ^ (64 * P.n) := by
      have : 2 * P.p * 2 ^ (64 * P.n) = P.p * 2 ^ (64 * P.n) + P.p * 2 ^ (64 * P.n) := by ring
      omega
    exact Nat.lt_of_mul_lt_mul_right h2
  have hmod : val r * 2 ^ (64 * P.n) ≡ val a * val b [MOD P.p] := by
    rw [hrm]
    simp [Nat.ModEq]
  have hpv : val P.modulus = P.p := rfl
  by_cases hge : P.p ≤ val r
  · rw [if_pos (by simpa using hge)]
    have hd := mpn_sub_spec r P.modulus (by rw [hrl, hP.len])
    generalize mpn_sub r P.modulus = d at *
    obtain ⟨hd1, hd2⟩ := hd
    have hdlt := val_lt d.1
    rw [hd2] at hdlt
    simp only
    have hd0 : d.2.toNat = 0 := by
      by_contra hne
      have : 2 ^ (64 * r.length) * 1 ≤ 2 ^ (64 * r.length) * d.2.toNat :=
        Nat.mul_le_mul_left _ (by omega)
      omega
    rw [if_pos ((limb_eq_zero_iff _).2 hd0)]
    rw [hd0] at hd1
    refine ⟨_, rfl, by omega, by omega, ?_⟩
    have : val r = val d.1 + P.p := by omega
    rw [this] at hmod
    refine Nat.ModEq.trans ?_ hmod
    rw [Nat.add_mul]
    simp [Nat.ModEq]
  · rw [if_neg (by simpa using hge)]
    exact ⟨r, rfl, hrl, by omega, hmod⟩

end Libff
