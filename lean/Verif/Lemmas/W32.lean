import Verif.Spec.W32
import Mathlib.Tactic.Ring
import Mathlib.Tactic.Linarith
import Mathlib.Data.Nat.ModEq
import Mathlib.Data.Int.ModEq
import Mathlib.Tactic.LinearCombination
import Mathlib.Data.Int.GCD
import Mathlib.Data.Nat.Prime.Basic
import Mathlib.FieldTheory.Finite.Basic
import Mathlib.Algebra.Field.ZMod
import Mathlib.Algebra.Ring.InjSurj

/-!
# Lemmas on prime field arithmetic with limbs of 32 bits

The proofs are those for limbs of 64 bits (`Lemmas/Mpn`, `FpRepr`, `FpInv`, `Represents`, `FpType`).
-/
namespace Libff.W32

@[simp] theorem val_nil : val [] = 0 := rfl
@[simp] theorem val_cons (a : Limb) (l) : val (a :: l) = a.toNat + 2 ^ 32 * val l := rfl

theorem Limb.lt (a : Limb) : a.toNat < 2 ^ 32 := a.isLt

theorem val_lt (l : List Limb) : val l < 2 ^ (32 * l.length) := by
  induction l with
  | nil => simp
  | cons a l ih =>
    have := a.isLt
    rw [val_cons, List.length_cons, Nat.mul_succ, Nat.pow_add, Nat.mul_comm (2 ^ _)]
    have : 2 ^ 32 * (val l + 1) ≤ 2 ^ 32 * 2 ^ (32 * l.length) := Nat.mul_le_mul_left _ ih
    omega

theorem val_append (a b : List Limb) : val (a ++ b) = val a + 2 ^ (32 * a.length) * val b := by
  induction a with
  | nil => simp
  | cons x a ih =>
    rw [List.cons_append, val_cons, val_cons, ih, List.length_cons, Nat.mul_succ,
      Nat.pow_add 2 (32 * a.length) 32]
    ring

theorem val_replicate_zero (n : Nat) : val (List.replicate n (0 : Limb)) = 0 := by
  induction n with
  | zero => rfl
  | succ n ih => rw [List.replicate_succ, val_cons, ih]; rfl

theorem val_inj {a b : List Limb} (h : a.length = b.length) (hv : val a = val b) : a = b := by
  induction a generalizing b with
  | nil => cases b <;> simp_all
  | cons x a ih =>
    cases b with
    | nil => simp at h
    | cons y b =>
      simp only [val_cons] at hv
      have hx := x.isLt
      have hy := y.isLt
      have h1 : x.toNat = y.toNat := by omega
      have h2 : val a = val b := by omega
      rw [BitVec.eq_of_toNat_eq h1, ih (by simpa using h) h2]

theorem val_limbsOf (n v : Nat) : val (limbsOf n v) = v % 2 ^ (32 * n) := by
  induction n generalizing v with
  | zero => simp [limbsOf, Nat.mod_one]
  | succ n ih =>
    simp only [limbsOf, val_cons, ih, BitVec.toNat_ofNat]
    rw [Nat.mul_succ, Nat.add_comm (32 * n) 32, Nat.pow_add 2 32 (32 * n), Nat.mod_mul]

@[simp] theorem length_limbsOf (n v : Nat) : (limbsOf n v).length = n := by
  induction n generalizing v with
  | zero => rfl
  | succ n ih => simp [limbsOf, ih]

theorem limbsOf_val (l : List Limb) : limbsOf l.length (val l) = l := by
  apply val_inj (by simp)
  rw [val_limbsOf, Nat.mod_eq_of_lt (val_lt l)]

theorem addC_spec (a b : List Limb) (c : Bool) (h : a.length = b.length) :
    val (addC a b c).1 + 2 ^ (32 * a.length) * (addC a b c).2.toNat = val a + val b + c.toNat
    ∧ (addC a b c).1.length = a.length := by
  induction a generalizing b c with
  | nil => cases b <;> simp_all [addC]
  | cons x a ih =>
    cases b with
    | nil => simp at h
    | cons y b =>
      simp only [addC, val_cons, List.length_cons, BitVec.toNat_ofNat]
      have hx := x.isLt
      have hy := y.isLt
      obtain ⟨h1, h2⟩ := ih b (decide (2 ^ 32 ≤ x.toNat + y.toNat + c.toNat)) (by simpa using h)
      refine ⟨?_, by rw [h2]⟩
      rw [Nat.mul_succ, Nat.add_comm (32 * _), Nat.pow_add]
      generalize addC a b _ = r at *
      have hc : c.toNat ≤ 1 := Bool.toNat_le c
      have hmul : 2 ^ 32 * 2 ^ (32 * a.length) * r.2.toNat
        = 2 ^ 32 * (2 ^ (32 * a.length) * r.2.toNat) := by ring
      rw [hmul]
      by_cases hge : 2 ^ 32 ≤ x.toNat + y.toNat + c.toNat
      · simp only [hge, decide_true, Bool.toNat_true] at h1
        omega
      · simp only [hge, decide_false, Bool.toNat_false] at h1
        omega

theorem mpn_add_n_spec (a b : List Limb) (h : a.length = b.length) :
    val (mpn_add_n a b).1 + 2 ^ (32 * a.length) * (mpn_add_n a b).2.toNat = val a + val b := by
  simpa [mpn_add_n] using (addC_spec a b false h).1

theorem mpn_add_n_length (a b : List Limb) (h : a.length = b.length) :
    (mpn_add_n a b).1.length = a.length := (addC_spec a b false h).2

theorem subB_spec (a b : List Limb) (c : Bool) (h : a.length = b.length) :
    val (subB a b c).1 + val b + c.toNat = val a + 2 ^ (32 * a.length) * (subB a b c).2.toNat
    ∧ (subB a b c).1.length = a.length := by
  induction a generalizing b c with
  | nil => cases b <;> simp_all [subB]
  | cons x a ih =>
    cases b with
    | nil => simp at h
    | cons y b =>
      simp only [subB, val_cons, List.length_cons, BitVec.toNat_ofNat]
      have hx := x.isLt
      have hy := y.isLt
      obtain ⟨h1, h2⟩ := ih b (decide (x.toNat < y.toNat + c.toNat)) (by simpa using h)
      refine ⟨?_, by rw [h2]⟩
      rw [Nat.mul_succ, Nat.add_comm (32 * _), Nat.pow_add]
      generalize subB a b _ = r at *
      have hc : c.toNat ≤ 1 := Bool.toNat_le c
      have hmul : 2 ^ 32 * 2 ^ (32 * a.length) * r.2.toNat
        = 2 ^ 32 * (2 ^ (32 * a.length) * r.2.toNat) := by ring
      rw [hmul]
      by_cases hge : x.toNat < y.toNat + c.toNat
      · simp only [hge, decide_true, Bool.toNat_true] at h1
        omega
      · simp only [hge, decide_false, Bool.toNat_false] at h1
        omega

theorem mpn_sub_n_spec (a b : List Limb) (h : a.length = b.length) :
    val (mpn_sub_n a b).1 + val b = val a + 2 ^ (32 * a.length) * (mpn_sub_n a b).2.toNat := by
  simpa [mpn_sub_n] using (subB_spec a b false h).1

theorem mpn_sub_n_length (a b : List Limb) (h : a.length = b.length) :
    (mpn_sub_n a b).1.length = a.length := (subB_spec a b false h).2

theorem mpn_add_1_spec (a : List Limb) (b : Limb) :
    val (mpn_add_1 a b).1 + 2 ^ (32 * a.length) * (mpn_add_1 a b).2.toNat = val a + b.toNat
    ∧ (mpn_add_1 a b).1.length = a.length := by
  induction a generalizing b with
  | nil => simp [mpn_add_1]
  | cons x a ih =>
    simp only [mpn_add_1, val_cons, List.length_cons, BitVec.toNat_ofNat]
    obtain ⟨h1, h2⟩ := ih (BitVec.ofNat 32 ((x.toNat + b.toNat) / 2 ^ 32))
    refine ⟨?_, by rw [h2]⟩
    have hx := x.isLt
    have hb := b.isLt
    rw [Nat.mul_succ, Nat.add_comm (32 * _), Nat.pow_add]
    rw [BitVec.toNat_ofNat] at h1
    generalize mpn_add_1 a _ = r at *
    have hmul : 2 ^ 32 * 2 ^ (32 * a.length) * r.2.toNat
        = 2 ^ 32 * (2 ^ (32 * a.length) * r.2.toNat) := by ring
    rw [hmul]
    omega

theorem mpn_sub_1_spec (a : List Limb) (b : Limb) :
    val (mpn_sub_1 a b).1 + b.toNat = val a + 2 ^ (32 * a.length) * (mpn_sub_1 a b).2.toNat
    ∧ (mpn_sub_1 a b).1.length = a.length := by
  induction a generalizing b with
  | nil => simp [mpn_sub_1]
  | cons x a ih =>
    simp only [mpn_sub_1, val_cons, List.length_cons]
    obtain ⟨h1, h2⟩ := ih (if x.toNat < b.toNat then 1 else 0)
    refine ⟨?_, by rw [h2]⟩
    have hx := x.isLt
    have hb := b.isLt
    rw [Nat.mul_succ, Nat.add_comm (32 * _), Nat.pow_add]
    generalize mpn_sub_1 a _ = r at *
    have hmul : 2 ^ 32 * 2 ^ (32 * a.length) * r.2.toNat
        = 2 ^ 32 * (2 ^ (32 * a.length) * r.2.toNat) := by ring
    rw [hmul, BitVec.toNat_sub]
    by_cases hlt : x.toNat < b.toNat
    · simp only [hlt, if_true] at h1
      simp at h1
      omega
    · simp only [hlt, if_false] at h1
      simp at h1
      omega

theorem mpn_sub_spec (a b : List Limb) (h : b.length ≤ a.length) :
    val (mpn_sub a b).1 + val b = val a + 2 ^ (32 * a.length) * (mpn_sub a b).2.toNat
    ∧ (mpn_sub a b).1.length = a.length := by
  have hlen : (a.take b.length).length = b.length := by simp [h]
  have h1 := mpn_sub_n_spec (a.take b.length) b hlen
  have h1' := mpn_sub_n_length (a.take b.length) b hlen
  have h2 := mpn_sub_1_spec (a.drop b.length) (if (mpn_sub_n (a.take b.length) b).2 then 1 else 0)
  have ha : val a = val (a.take b.length) + 2 ^ (32 * b.length) * val (a.drop b.length) := by
    conv_lhs => rw [← List.take_append_drop b.length a, val_append, hlen]
  have hpow : 2 ^ (32 * a.length) = 2 ^ (32 * b.length) * 2 ^ (32 * (a.drop b.length).length) := by
    rw [← Nat.pow_add]; congr 1; simp; omega
  simp only [mpn_sub, val_append, h1', List.length_append, h2.2]
  refine ⟨?_, by simp; omega⟩
  rw [hlen] at h1 ⊢
  have h2 := h2.1
  generalize mpn_sub_n (a.take b.length) b = q at *
  generalize hr : mpn_sub_1 (a.drop b.length) _ = r at *
  rw [hpow, ha]
  have hq : (if q.2 then (1 : Limb) else 0).toNat = q.2.toNat := by cases q.2 <;> rfl
  rw [hq] at h2
  have : 2 ^ (32 * b.length) * (val r.1 + q.2.toNat)
    = 2 ^ (32 * b.length) * (val (a.drop b.length)
        + 2 ^ (32 * (a.drop b.length).length) * r.2.toNat) := by rw [h2]
  nlinarith

theorem addmulC_spec (r a : List Limb) (k c : Limb) (h : r.length = a.length) :
    val (addmulC r a k c).1 + 2 ^ (32 * r.length) * (addmulC r a k c).2.toNat
      = val r + val a * k.toNat + c.toNat
    ∧ (addmulC r a k c).1.length = r.length := by
  induction r generalizing a c with
  | nil => cases a <;> simp_all [addmulC]
  | cons x r ih =>
    cases a with
    | nil => simp at h
    | cons y a =>
      simp only [addmulC, val_cons, List.length_cons, BitVec.toNat_ofNat]
      obtain ⟨h1, h2⟩ := ih a (BitVec.ofNat 32 ((x.toNat + y.toNat * k.toNat + c.toNat) / 2 ^ 32))
        (by simpa using h)
      refine ⟨?_, by rw [h2]⟩
      have hx := x.isLt
      have hy := y.isLt
      have hk := k.isLt
      have hc := c.isLt
      have hyk : y.toNat * k.toNat ≤ (2 ^ 32 - 1) * (2 ^ 32 - 1) :=
        Nat.mul_le_mul (by omega) (by omega)
      rw [Nat.mul_succ, Nat.add_comm (32 * _), Nat.pow_add]
      rw [BitVec.toNat_ofNat, Nat.mod_eq_of_lt (a := (_ / _)) (by omega)] at h1
      generalize addmulC r a k _ = q at *
      have e1 : 2 ^ 32 * 2 ^ (32 * r.length) * q.2.toNat
        = 2 ^ 32 * (2 ^ (32 * r.length) * q.2.toNat) := by ring
      have e2 : (y.toNat + 2 ^ 32 * val a) * k.toNat
        = y.toNat * k.toNat + 2 ^ 32 * (val a * k.toNat) := by ring
      rw [e1, e2]
      generalize y.toNat * k.toNat = m at *
      omega

theorem mpn_addmul_1_spec (r a : List Limb) (k : Limb) (h : r.length = a.length) :
    val (mpn_addmul_1 r a k).1 + 2 ^ (32 * r.length) * (mpn_addmul_1 r a k).2.toNat
      = val r + val a * k.toNat
    ∧ (mpn_addmul_1 r a k).1.length = r.length := by
  have := addmulC_spec r a k 0 h
  simpa [mpn_addmul_1] using this

theorem mpn_mul_spec (a b : List Limb) :
    val (mpn_mul a b) = val a * val b ∧ (mpn_mul a b).length = a.length + b.length := by
  induction a with
  | nil => simp only [mpn_mul, val_replicate_zero, val_nil, Nat.zero_mul, List.length_replicate, List.length_nil, Nat.zero_add, and_self]
  | cons x a ih =>
    simp only [mpn_mul]
    obtain ⟨hv, hl⟩ := ih
    set rest := (0 : Limb) :: mpn_mul a b with hrest
    have hrl : rest.length = a.length + b.length + 1 := by simp [hrest, hl]
    have hrv : val rest = 2 ^ 32 * (val a * val b) := by simp [hrest, hv]
    have htl : (rest.take b.length).length = b.length := by simp; omega
    have hsplit : val rest = val (rest.take b.length)
        + 2 ^ (32 * b.length) * val (rest.drop b.length) := by
      conv_lhs => rw [← List.take_append_drop b.length rest, val_append, htl]
    have h1 := mpn_addmul_1_spec (rest.take b.length) b x htl
    have h2 := mpn_add_1_spec (rest.drop b.length) (mpn_addmul_1 (rest.take b.length) b x).2
    rw [htl] at h1
    generalize mpn_addmul_1 (rest.take b.length) b x = q at *
    generalize mpn_add_1 (rest.drop b.length) q.2 = w at *
    have hdl : (rest.drop b.length).length = a.length + 1 := by simp; omega
    rw [hdl] at h2
    have hlen : (q.1 ++ w.1).length = (x :: a).length + b.length := by
      simp [h1.2, h2.2]; omega
    refine ⟨?_, hlen⟩
    have hlt := val_lt (q.1 ++ w.1)
    have hlt' : val (x :: a) * val b < 2 ^ (32 * ((x :: a).length + b.length)) := by
      rw [Nat.mul_add, Nat.pow_add]
      exact Nat.mul_lt_mul'' (val_lt _) (val_lt _)
    rw [hlen] at hlt
    have hpow : 2 ^ (32 * ((x :: a).length + b.length))
        = 2 ^ (32 * b.length) * 2 ^ (32 * (a.length + 1)) := by
      rw [← Nat.pow_add]; congr 1; simp; ring
    have key : val (q.1 ++ w.1) + 2 ^ (32 * ((x :: a).length + b.length)) * w.2.toNat
        = val (x :: a) * val b := by
      rw [val_append, h1.2, val_cons, hpow]
      have h2' := h2.1
      have h1' := h1.1
      calc _ = val q.1 + 2 ^ (32 * b.length) * (val w.1 + 2 ^ (32 * (a.length + 1)) * w.2.toNat) := by
            ring
        _ = val q.1 + 2 ^ (32 * b.length) * q.2.toNat
            + 2 ^ (32 * b.length) * val (rest.drop b.length) := by rw [h2']; ring
        _ = val rest + val b * x.toNat := by rw [h1', hsplit]; ring
        _ = _ := by rw [hrv]; ring
    have hw : w.2.toNat = 0 := by
      by_contra hne
      have : 2 ^ (32 * ((x :: a).length + b.length)) * 1
          ≤ 2 ^ (32 * ((x :: a).length + b.length)) * w.2.toNat :=
        Nat.mul_le_mul_left _ (by omega)
      omega
    rw [hw] at key
    simpa using key

theorem mpn_cmp_spec (a b : List Limb) (h : a.length = b.length) :
    mpn_cmp a b = compare (val a) (val b) := by
  induction a generalizing b with
  | nil => cases b <;> simp_all [mpn_cmp]
  | cons x a ih =>
    cases b with
    | nil => simp at h
    | cons y b =>
      simp only [mpn_cmp, val_cons]
      rw [ih b (by simpa using h)]
      have hx := x.isLt
      have hy := y.isLt
      rcases Nat.lt_trichotomy (val a) (val b) with hlt | heq | hgt
      · rw [Nat.compare_eq_lt.2 hlt]
        exact (Nat.compare_eq_lt.2 (by omega)).symm
      · rw [Nat.compare_eq_eq.2 heq]
        simp only [heq]
        rcases Nat.lt_trichotomy x.toNat y.toNat with h1 | h1 | h1
        · rw [Nat.compare_eq_lt.2 h1, Nat.compare_eq_lt.2 (by omega)]
        · rw [Nat.compare_eq_eq.2 h1, Nat.compare_eq_eq.2 (by omega)]
        · rw [Nat.compare_eq_gt.2 h1, Nat.compare_eq_gt.2 (by omega)]
      · rw [Nat.compare_eq_gt.2 hgt]
        exact (Nat.compare_eq_gt.2 (by omega)).symm

theorem isGE_compare {a b : Nat} : (compare a b).isGE = decide (b ≤ a) := by
  rcases Nat.lt_trichotomy a b with h | h | h
  · rw [Nat.compare_eq_lt.2 h]; simp [Ordering.isGE]; omega
  · rw [Nat.compare_eq_eq.2 h]; simp [Ordering.isGE]; omega
  · rw [Nat.compare_eq_gt.2 h]; simp [Ordering.isGE]; omega

theorem isLT_compare {a b : Nat} : (compare a b).isLT = decide (a < b) := by
  rcases Nat.lt_trichotomy a b with h | h | h
  · rw [Nat.compare_eq_lt.2 h]; simp [Ordering.isLT]; omega
  · rw [Nat.compare_eq_eq.2 h]; simp [Ordering.isLT]; omega
  · rw [Nat.compare_eq_gt.2 h]; simp [Ordering.isLT]; omega

theorem limbsIsZero_iff (l : List Limb) : limbsIsZero l = true ↔ val l = 0 := by
  induction l with
  | nil => simp [limbsIsZero]
  | cons a l ih =>
    rw [limbsIsZero, val_cons]
    by_cases h : a = 0
    · subst h; simp [ih]
    · have : a.toNat ≠ 0 := fun h' => h (BitVec.eq_of_toNat_eq (by simpa using h'))
      simp only [h, if_false]
      constructor
      · simp
      · intro h'; omega

theorem val_smallBigint (n : Nat) (x : Limb) (h : 0 < n) : val (smallBigint n x) = x.toNat := by
  cases n with
  | zero => omega
  | succ k => rw [smallBigint, val_cons, val_replicate_zero]; simp

@[simp] theorem length_smallBigint (n : Nat) (x : Limb) : (smallBigint n x).length = n := by
  cases n <;> simp [smallBigint]

theorem limb_eq_zero_iff (x : Limb) : x = 0 ↔ x.toNat = 0 := by
  constructor
  · rintro rfl; rfl
  · intro h; exact BitVec.eq_of_toNat_eq (by simpa using h)

theorem addAssign_spec (P : FpParams) (hlen : P.modulus.length = P.n) (a b : List Limb)
    (ha : a.length = P.n) (hb : b.length = P.n) (hap : val a < P.p) (hbp : val b < P.p) :
    ∃ r, addAssign P a b = .ok r ∧ r.length = P.n ∧ val r = (val a + val b) % P.p := by
  have hs := mpn_add_n_spec a b (by omega)
  have hsl := mpn_add_n_length a b (by omega)
  rw [ha] at hs
  rw [ha] at hsl
  unfold addAssign
  simp only
  generalize mpn_add_n a b = s at *
  have hcmp := mpn_cmp_spec s.1 P.modulus (by omega)
  have hslt : val s.1 < 2 ^ (32 * P.n) := by have := val_lt s.1; rwa [hsl] at this
  have hplt : P.p < 2 ^ (32 * P.n) := by have := val_lt P.modulus; rwa [hlen] at this
  set q : Limb := if s.2 then 1 else 0 with hq
  have hqv : q.toNat = s.2.toNat := by rw [hq]; cases s.2 <;> rfl
  have hvs : val (s.1 ++ [q]) = val a + val b := by
    rw [val_append, hsl, val_cons, val_nil, hqv]
    omega
  rw [hcmp, isGE_compare]
  by_cases hc : s.2 = true ∨ P.p ≤ val s.1
  · rw [if_pos (by simpa using hc)]
    have hge : P.p ≤ val a + val b := by
      rcases hc with h | h
      · rw [h] at hs; simp at hs; omega
      · omega
    have hd := mpn_sub_spec (s.1 ++ [q]) P.modulus (by simp; omega)
    generalize mpn_sub (s.1 ++ [q]) P.modulus = d at *
    obtain ⟨hd1, hd2⟩ := hd
    rw [hvs] at hd1
    have hdlt := val_lt d.1
    rw [hd2] at hdlt
    have hpv : val P.modulus = P.p := rfl
    have hd0 : d.2.toNat = 0 := by
      by_contra hne
      have : 2 ^ (32 * (s.1 ++ [q]).length) * 1 ≤ 2 ^ (32 * (s.1 ++ [q]).length) * d.2.toNat :=
        Nat.mul_le_mul_left _ (by omega)
      omega
    rw [if_pos ((limb_eq_zero_iff _).2 hd0)]
    rw [hd0] at hd1
    have hdval : val d.1 = val a + val b - P.p := by omega
    refine ⟨_, rfl, by simp [hd2, hsl], ?_⟩
    have hsplit : val d.1 = val (d.1.take P.n) + 2 ^ (32 * P.n) * val (d.1.drop P.n) := by
      conv_lhs => rw [← List.take_append_drop P.n d.1, val_append]
      simp [hd2, hsl]
    have htk : val (d.1.take P.n) = val d.1 := by
      have : val (d.1.drop P.n) = 0 := by
        by_contra hne
        have : 2 ^ (32 * P.n) * 1 ≤ 2 ^ (32 * P.n) * val (d.1.drop P.n) :=
          Nat.mul_le_mul_left _ (by omega)
        omega
      rw [this] at hsplit; omega
    rw [htk, hdval, Nat.mod_eq_sub_mod hge, Nat.mod_eq_of_lt (by omega)]
  · rw [if_neg (by simpa using hc)]
    push Not at hc
    refine ⟨_, rfl, by simp [hsl], ?_⟩
    have : (s.1 ++ [q]).take P.n = s.1 := by rw [← hsl]; simp
    rw [this]
    have h2 : s.2 = false := by simpa using hc.1
    rw [h2] at hs
    simp at hs
    rw [hs, Nat.mod_eq_of_lt (by omega)]

theorem subAssign_spec (P : FpParams) (hlen : P.modulus.length = P.n) (a b : List Limb)
    (ha : a.length = P.n) (hb : b.length = P.n) (hap : val a < P.p) (hbp : val b < P.p) :
    ∃ r, subAssign P a b = .ok r ∧ r.length = P.n ∧ val r = (val a + P.p - val b) % P.p := by
  unfold subAssign
  simp only
  have hcmp := mpn_cmp_spec a b (by omega)
  rw [hcmp, isLT_compare]
  have halt : val a < 2 ^ (32 * P.n) := by have := val_lt a; rwa [ha] at this
  have hplt : P.p < 2 ^ (32 * P.n) := by have := val_lt P.modulus; rwa [hlen] at this
  set scratch : List Limb := if decide (val a < val b) = true then
      (mpn_add_n a P.modulus).1 ++ [if (mpn_add_n a P.modulus).2 then (1 : Limb) else 0]
    else a ++ [0] with hscr
  have hsv : val scratch = (if val a < val b then val a + P.p else val a)
      ∧ scratch.length = P.n + 1 := by
    rw [hscr]
    by_cases h : val a < val b
    · have hs := mpn_add_n_spec a P.modulus (by omega)
      have hsl := mpn_add_n_length a P.modulus (by omega)
      rw [if_pos (by simpa using h), if_pos h]
      rw [val_append, hsl, val_cons, val_nil]
      have : (if (mpn_add_n a P.modulus).2 then (1 : Limb) else 0).toNat
          = (mpn_add_n a P.modulus).2.toNat := by cases (mpn_add_n a P.modulus).2 <;> rfl
      rw [this]
      refine ⟨by simpa using hs, by simp [hsl, ha]⟩
    · rw [if_neg (by simpa using h), if_neg h, val_append]
      simp [ha]
  obtain ⟨hsv, hsl⟩ := hsv
  have hd := mpn_sub_spec scratch b (by omega)
  generalize mpn_sub scratch b = d at *
  obtain ⟨hd1, hd2⟩ := hd
  have hdlt := val_lt d.1
  rw [hd2] at hdlt
  have hge : val b ≤ val scratch := by rw [hsv]; split <;> omega
  have hd0 : d.2.toNat = 0 := by
    by_contra hne
    have : 2 ^ (32 * scratch.length) * 1 ≤ 2 ^ (32 * scratch.length) * d.2.toNat :=
      Nat.mul_le_mul_left _ (by omega)
    omega
  rw [if_pos ((limb_eq_zero_iff _).2 hd0)]
  rw [hd0] at hd1
  have hdval : val d.1 = val scratch - val b := by omega
  have hdp : val d.1 < P.p := by rw [hdval, hsv]; split <;> omega
  refine ⟨_, rfl, by simp [hd2, hsl], ?_⟩
  have hsplit : val d.1 = val (d.1.take P.n) + 2 ^ (32 * P.n) * val (d.1.drop P.n) := by
    conv_lhs => rw [← List.take_append_drop P.n d.1, val_append]
    simp [hd2, hsl]
  have htk : val (d.1.take P.n) = val d.1 := by
    have : val (d.1.drop P.n) = 0 := by
      by_contra hne
      have : 2 ^ (32 * P.n) * 1 ≤ 2 ^ (32 * P.n) * val (d.1.drop P.n) :=
        Nat.mul_le_mul_left _ (by omega)
      omega
    rw [this] at hsplit; omega
  rw [htk, hdval, hsv]
  split
  · rw [Nat.mod_eq_of_lt (by omega)]
  · have : val a + P.p - val b = P.p + (val a - val b) := by omega
    rw [this, Nat.add_mod_left, Nat.mod_eq_of_lt (by omega)]

theorem negRepr_spec (P : FpParams) (hlen : P.modulus.length = P.n) (a : List Limb)
    (ha : a.length = P.n) (hap : val a < P.p) :
    (negRepr P a).length = P.n ∧ val (negRepr P a) = (P.p - val a) % P.p := by
  unfold negRepr
  by_cases h : limbsIsZero a = true
  · rw [if_pos h]
    have := (limbsIsZero_iff a).1 h
    exact ⟨ha, by rw [this]; simp⟩
  · rw [if_neg h]
    have h0 : val a ≠ 0 := fun h' => h ((limbsIsZero_iff a).2 h')
    have hs := mpn_sub_n_spec P.modulus a (by omega)
    have hsl := mpn_sub_n_length P.modulus a (by omega)
    have hlt := val_lt (mpn_sub_n P.modulus a).1
    rw [hsl] at hlt
    generalize mpn_sub_n P.modulus a = d at *
    have hpv : val P.modulus = P.p := rfl
    have : d.2 = false := by
      by_contra hne
      have h1 : d.2 = true := by simpa using hne
      rw [h1] at hs; simp at hs
      omega
    rw [this] at hs
    simp at hs
    refine ⟨by omega, ?_⟩
    rw [Nat.mod_eq_of_lt (by omega)]; omega

theorem redLoop_spec (P : FpParams) (hP : P.Valid) (i : Nat) (res : List Limb)
    (hl : res.length = P.n + i)
    (hb : val res + (2 ^ (32 * i) - 1) * P.p < 2 ^ (32 * (P.n + i))) :
    ∃ r m, redLoop P i res = .ok r ∧ r.length = P.n ∧ m < 2 ^ (32 * i) ∧
      val r * 2 ^ (32 * i) = val res + m * P.p := by
  induction i generalizing res with
  | zero => exact ⟨res, 0, rfl, by omega, by simp, by simp⟩
  | succ i ih =>
    unfold redLoop
    simp only
    have htl : (res.take P.n).length = P.n := by simp; omega
    have hdl : (res.drop P.n).length = i + 1 := by simp; omega
    set k : Limb := P.inv * res.headD 0 with hk
    have hq := mpn_addmul_1_spec (res.take P.n) P.modulus k (by rw [htl, hP.len])
    have hw := mpn_add_1_spec (res.drop P.n) (mpn_addmul_1 (res.take P.n) P.modulus k).2
    rw [htl] at hq
    rw [hdl] at hw
    generalize mpn_addmul_1 (res.take P.n) P.modulus k = q at *
    generalize mpn_add_1 (res.drop P.n) q.2 = w at *
    obtain ⟨hq1, hq2⟩ := hq
    obtain ⟨hw1, hw2⟩ := hw
    have hsplit : val res = val (res.take P.n) + 2 ^ (32 * P.n) * val (res.drop P.n) := by
      conv_lhs => rw [← List.take_append_drop P.n res, val_append, htl]
    have hpow : 2 ^ (32 * (P.n + (i + 1))) = 2 ^ (32 * P.n) * 2 ^ (32 * (i + 1)) := by
      rw [← Nat.pow_add]; congr 1; ring
    have hkey : val (q.1 ++ w.1) + 2 ^ (32 * (P.n + (i + 1))) * w.2.toNat
        = val res + P.p * k.toNat := by
      rw [val_append, hq2, hpow]
      calc _ = val q.1 + 2 ^ (32 * P.n) * (val w.1 + 2 ^ (32 * (i + 1)) * w.2.toNat) := by ring
        _ = val q.1 + 2 ^ (32 * P.n) * q.2.toNat + 2 ^ (32 * P.n) * val (res.drop P.n) := by
            rw [hw1]; ring
        _ = _ := by rw [hq1, hsplit]; ring
    have hklt := k.isLt
    have hpi : 2 ^ (32 * (i + 1)) = 2 ^ 32 * 2 ^ (32 * i) := by
      rw [Nat.mul_add, Nat.pow_add, Nat.mul_comm]
    have hpos : 0 < 2 ^ (32 * i) := by positivity
    have hkp : P.p * k.toNat ≤ (2 ^ 32 - 1) * P.p := by
      rw [Nat.mul_comm]; exact Nat.mul_le_mul_right _ (by omega)
    have hle : (2 ^ 32 - 1) * P.p + (2 ^ 32 * 2 ^ (32 * i) - 2 ^ 32) * P.p
        = (2 ^ (32 * (i + 1)) - 1) * P.p := by
      have h3 : (2 ^ 32 - 1) + (2 ^ 32 * 2 ^ (32 * i) - 2 ^ 32) = 2 ^ 32 * 2 ^ (32 * i) - 1 := by
        omega
      rw [hpi, ← Nat.add_mul, h3]
    have hw0 : w.2.toNat = 0 := by
      by_contra hne
      have : 2 ^ (32 * (P.n + (i + 1))) * 1 ≤ 2 ^ (32 * (P.n + (i + 1))) * w.2.toNat :=
        Nat.mul_le_mul_left _ (by omega)
      have : 0 ≤ (2 ^ 32 * 2 ^ (32 * i) - 2 ^ 32) * P.p := Nat.zero_le _
      omega
    rw [if_pos ((limb_eq_zero_iff _).2 hw0)]
    rw [hw0] at hkey
    simp only [Nat.mul_zero, Nat.add_zero] at hkey
    -- the low limb vanishes
    have hlen : (q.1 ++ w.1).length = P.n + (i + 1) := by simp [hq2, hw2]
    obtain ⟨x, tl, hx⟩ : ∃ x tl, q.1 ++ w.1 = x :: tl := by
      cases h : q.1 ++ w.1 with
      | nil => rw [h] at hlen; simp at hlen
      | cons x tl => exact ⟨x, tl, rfl⟩
    rw [hx] at hkey hlen ⊢
    rw [List.tail_cons]
    rw [val_cons] at hkey
    have hres0 : val res % 2 ^ 32 = (res.headD 0).toNat := by
      cases res with
      | nil => simp
      | cons y ys =>
        have := y.isLt
        rw [val_cons, List.headD_cons]
        omega
    have hx0 : x.toNat = 0 := by
      have h1 : (x.toNat + 2 ^ 32 * val tl) % 2 ^ 32 = x.toNat := by
        have := x.isLt
        omega
      rw [hkey] at h1
      rw [← h1, hk, BitVec.toNat_mul, Nat.add_mod, hres0, Nat.mul_mod, Nat.mod_mod,
        ← Nat.mul_mod, ← Nat.add_mod_mod]
      rw [Nat.mod_mod]
      have h3 : (res.headD 0).toNat + P.p * (P.inv.toNat * (res.headD 0).toNat)
          = (res.headD 0).toNat * (P.inv.toNat * P.p + 1) := by ring
      rw [Nat.add_mod_mod, h3, Nat.mul_mod, hP.inv]
      simp
    rw [hx0, Nat.zero_add] at hkey
    have hb' : val tl + (2 ^ (32 * i) - 1) * P.p < 2 ^ (32 * (P.n + i)) := by
      have e1 : 2 ^ (32 * (P.n + (i + 1))) = 2 ^ 32 * 2 ^ (32 * (P.n + i)) := by
        rw [← Nat.add_assoc, Nat.mul_add 32 (P.n + i) 1, Nat.pow_add, Nat.mul_comm]
      have e2 : (2 ^ 32 * 2 ^ (32 * i) - 2 ^ 32) * P.p
          = 2 ^ 32 * ((2 ^ (32 * i) - 1) * P.p) := by
        rw [← Nat.mul_assoc, Nat.mul_sub, Nat.mul_one]
      omega
    obtain ⟨r, m, hr, hrl, hm, hrm⟩ := ih tl (by simp at hlen; omega) hb'
    refine ⟨r, k.toNat + 2 ^ 32 * m, hr, hrl, ?_, ?_⟩
    · rw [hpi]
      have : 2 ^ 32 * (m + 1) ≤ 2 ^ 32 * 2 ^ (32 * i) := Nat.mul_le_mul_left _ hm
      omega
    · rw [hpi]
      calc val r * (2 ^ 32 * 2 ^ (32 * i)) = 2 ^ 32 * (val r * 2 ^ (32 * i)) := by ring
        _ = 2 ^ 32 * val tl + 2 ^ 32 * (m * P.p) := by rw [hrm]; ring
        _ = _ := by rw [hkey]; ring

/-- Montgomery multiplication: never aborts, canonical, `r·R ≡ a·b (mod p)`. -/
theorem mulReduce_spec (P : FpParams) (hP : P.Valid) (a b : List Limb)
    (ha : a.length = P.n) (hb : b.length = P.n) (hab : val a * val b < P.p * 2 ^ (32 * P.n)) :
    ∃ r, mulReduce P a b = .ok r ∧ r.length = P.n ∧ val r < P.p ∧
      val r * 2 ^ (32 * P.n) ≡ val a * val b [MOD P.p] := by
  obtain ⟨hmv, hml⟩ := mpn_mul_spec a b
  have hpow : 2 ^ (32 * (P.n + P.n)) = 2 ^ (32 * P.n) * 2 ^ (32 * P.n) := by
    rw [← Nat.pow_add]; congr 1; ring
  have hpos : 0 < 2 ^ (32 * P.n) := by positivity
  have hp1 := hP.one_lt
  have htb := hP.topBit
  have hb2 : 2 * P.p * 2 ^ (32 * P.n) ≤ 2 ^ (32 * P.n) * 2 ^ (32 * P.n) :=
    Nat.mul_le_mul_right _ htb
  have hsub : (2 ^ (32 * P.n) - 1) * P.p + P.p = P.p * 2 ^ (32 * P.n) := by
    rw [← Nat.succ_mul, Nat.succ_eq_add_one, Nat.sub_add_cancel hpos]; ring
  obtain ⟨r, m, hr, hrl, hm, hrm⟩ := redLoop_spec P hP P.n (mpn_mul a b) (by omega) (by
    rw [hmv, hpow]
    have : 2 * P.p * 2 ^ (32 * P.n) = P.p * 2 ^ (32 * P.n) + P.p * 2 ^ (32 * P.n) := by ring
    omega)
  unfold mulReduce
  rw [hr, Outcome.bind_ok, mpn_cmp_spec r P.modulus (by rw [hrl, hP.len]), isGE_compare]
  rw [hmv] at hrm
  have hr2 : val r < 2 * P.p := by
    have h1 : m * P.p ≤ (2 ^ (32 * P.n) - 1) * P.p := Nat.mul_le_mul_right _ (by omega)
    have h2 : val r * 2 ^ (32 * P.n) < (2 * P.p) * 2 ^ (32 * P.n) := by
      have : 2 * P.p * 2 ^ (32 * P.n) = P.p * 2 ^ (32 * P.n) + P.p * 2 ^ (32 * P.n) := by ring
      omega
    exact Nat.lt_of_mul_lt_mul_right h2
  have hmod : val r * 2 ^ (32 * P.n) ≡ val a * val b [MOD P.p] := by
    rw [hrm]
    simp [Nat.ModEq]
  have hpv : val P.modulus = P.p := rfl
  by_cases hge : P.p ≤ val r
  · rw [if_pos (by simpa using hge)]
    have hd := mpn_sub_spec r P.modulus (by rw [hrl, hP.len])
    generalize mpn_sub r P.modulus = d at *
    obtain ⟨hd1, hd2⟩ := hd
    have hdlt := val_lt d.1
    rw [hd2] at hdlt
    simp only
    have hd0 : d.2.toNat = 0 := by
      by_contra hne
      have : 2 ^ (32 * r.length) * 1 ≤ 2 ^ (32 * r.length) * d.2.toNat :=
        Nat.mul_le_mul_left _ (by omega)
      omega
    rw [if_pos ((limb_eq_zero_iff _).2 hd0)]
    rw [hd0] at hd1
    refine ⟨_, rfl, by omega, by omega, ?_⟩
    have : val r = val d.1 + P.p := by omega
    rw [this] at hmod
    refine Nat.ModEq.trans ?_ hmod
    rw [Nat.add_mul]
    simp [Nat.ModEq]
  · rw [if_neg (by simpa using hge)]
    exact ⟨r, rfl, hrl, by omega, hmod⟩

/-- A limb list with nonzero top limb has value at least `2^(32 (len-1))`. -/
theorem le_val_of_getLast (l : List Limb) (h : l.getLast?.getD 0 ≠ 0) :
    2 ^ (32 * (l.length - 1)) ≤ val l := by
  rcases List.eq_nil_or_concat l with rfl | ⟨l', x, rfl⟩
  · simp at h
  · simp only [List.concat_eq_append, List.getLast?_append, List.getLast?_singleton,
      Option.some_or, Option.getD_some] at h
    rw [List.concat_eq_append, val_append, val_cons, val_nil]
    have hx : x.toNat ≠ 0 := fun h' => h ((limb_eq_zero_iff x).2 h')
    have : 2 ^ (32 * l'.length) * 1 ≤ 2 ^ (32 * l'.length) * (x.toNat + 2 ^ 32 * 0) :=
      Nat.mul_le_mul_left _ (by omega)
    simp only [List.length_append, List.length_cons, List.length_nil]
    have e : l'.length + (0 + 1) - 1 = l'.length := by omega
    rw [e]; omega

theorem length_le_of_val_lt (l : List Limb) (n : Nat) (h : l = [] ∨ l.getLast?.getD 0 ≠ 0)
    (hv : val l < 2 ^ (32 * n)) : l.length ≤ n := by
  rcases h with rfl | h
  · simp
  · by_contra hlt
    have h1 := le_val_of_getLast l h
    have h2 : 2 ^ (32 * n) ≤ 2 ^ (32 * (l.length - 1)) :=
      Nat.pow_le_pow_right (by norm_num) (by omega)
    omega

theorem eq_one_of_val (l : List Limb) (h : l.getLast?.getD 0 ≠ 0) (hv : val l = 1) : l = [1] := by
  have hl := length_le_of_val_lt l 1 (Or.inr h) (by rw [hv]; norm_num)
  cases l with
  | nil => simp at hv
  | cons x t =>
    cases t with
    | nil =>
      rw [val_cons, val_nil] at hv
      have : x = 1 := BitVec.eq_of_toNat_eq (by simpa using hv)
      rw [this]
    | cons y t => simp at hl

/-- `invert` on a representative coprime to the modulus: no abort, no overrun,
`a · r ≡ R² (mod p)`. -/
theorem invertRepr_spec (P : FpParams) (hP : P.Valid) (gx : Gcdext) (hgx : gx.Contract)
    (a : List Limb) (ha : a.length = P.n) (h0 : val a ≠ 0) (hc : Nat.Coprime (val a) P.p) :
    ∃ r, invertRepr P gx a = .ok r ∧ r.length = P.n ∧ val r < P.p ∧
      val a * val r ≡ (2 ^ (32 * P.n)) ^ 2 [MOD P.p] := by
  have hl : a.length = P.modulus.length := by rw [ha, hP.len]
  have hg := hgx.gcd a P.modulus hl hP.topLimb h0
  have hgn := hgx.gnorm a P.modulus hl hP.topLimb h0
  obtain ⟨t, hbz⟩ := hgx.bezout a P.modulus hl hP.topLimb h0
  have hbd := hgx.bound a P.modulus hl hP.topLimb h0
  have hsn := hgx.snorm a P.modulus hl hP.topLimb h0
  have hplt : P.p < 2 ^ (32 * P.n) := by have := val_lt P.modulus; rwa [hP.len] at this
  have hp1 := hP.one_lt
  unfold invertRepr
  rw [if_neg (fun h => h0 ((limbsIsZero_iff a).1 h))]
  simp only
  generalize gx a P.modulus = r at *
  rw [hc] at hg
  have hg1 : r.g = [1] := eq_one_of_val _ hgn hg
  have hslt : val r.s < P.p := by
    rcases hbd with ⟨-, h⟩ | h
    · omega
    · rw [hg] at h
      have : val P.modulus = P.p := rfl
      omega
  have hslen : r.s.length ≤ P.n := length_le_of_val_lt _ _ hsn (by omega)
  have hn := hP.n_pos
  rw [if_neg (by rw [hg1]; simp; omega), if_pos hg1]
  rw [hg] at hbz
  -- the reduced |s|
  obtain ⟨m, hm, hml, hmv⟩ : ∃ m, (if P.n ≤ r.s.length then
        if 1 < r.s.length - P.n + 1 then Outcome.ub
        else if P.modulus.getLast?.getD 0 = 0 then Outcome.ub
        else Outcome.ok (limbsOf P.n (val r.s % val P.modulus))
      else Outcome.ok (r.s ++ List.replicate (P.n - r.s.length) 0)) = Outcome.ok m ∧
      m.length = P.n ∧ val m = val r.s := by
    by_cases h : P.n ≤ r.s.length
    · rw [if_pos h, if_neg (by omega), if_neg hP.topLimb]
      refine ⟨_, rfl, by simp, ?_⟩
      rw [val_limbsOf, Nat.mod_eq_of_lt hslt, Nat.mod_eq_of_lt (by omega)]
    · rw [if_neg h]
      refine ⟨_, rfl, by simp; omega, ?_⟩
      rw [val_append, val_replicate_zero]; simp
  rw [hm, Outcome.bind_ok]
  have hr3lt : val P.Rcubed < P.p := by rw [hP.r3]; exact Nat.mod_lt _ (by omega)
  have hRc : Nat.Coprime P.p (2 ^ (32 * P.n)) := by
    apply Nat.Coprime.pow_right
    have h2 : ¬ 2 ∣ P.p := by
      rintro ⟨k, hk⟩
      have := hP.inv
      rw [hk] at this
      have e : P.inv.toNat * (2 * k) = 2 * (P.inv.toNat * k) := by ring
      rw [e] at this
      omega
    exact (Nat.coprime_comm.1 ((Nat.Prime.coprime_iff_not_dvd Nat.prime_two).2 h2))
  -- finishing lemma
  have fin : ∀ m' : List Limb, m'.length = P.n → val m' < 2 ^ (32 * P.n) →
      ((val a : Int) * val m' ≡ 1 [ZMOD P.p]) →
      ∃ r', mulReduce P m' P.Rcubed = .ok r' ∧ r'.length = P.n ∧ val r' < P.p ∧
        val a * val r' ≡ (2 ^ (32 * P.n)) ^ 2 [MOD P.p] := by
    intro m' hm'l hm'v hm'c
    obtain ⟨r', hr', hr'l, hr'v, hr'c⟩ := mulReduce_spec P hP m' P.Rcubed hm'l hP.r3len (by
      rw [Nat.mul_comm P.p]
      exact Nat.mul_lt_mul_of_lt_of_le hm'v hr3lt.le (by omega))
    refine ⟨r', hr', hr'l, hr'v, ?_⟩
    have h3 : val P.Rcubed ≡ (2 ^ (32 * P.n)) ^ 3 [MOD P.p] := by
      rw [hP.r3]; exact Nat.mod_modEq _ _
    have hm'c' : val a * val m' ≡ 1 [MOD P.p] := by
      have : ((val a * val m' : Nat) : Int) ≡ ((1 : Nat) : Int) [ZMOD P.p] := by
        push_cast; exact hm'c
      exact (Int.natCast_modEq_iff).1 this
    apply Nat.ModEq.cancel_right_of_coprime hRc
    calc val a * val r' * 2 ^ (32 * P.n) = val a * (val r' * 2 ^ (32 * P.n)) := by ring
      _ ≡ val a * (val m' * val P.Rcubed) [MOD P.p] := Nat.ModEq.mul_left _ hr'c
      _ = val a * val m' * val P.Rcubed := by ring
      _ ≡ 1 * (2 ^ (32 * P.n)) ^ 3 [MOD P.p] := Nat.ModEq.mul hm'c' h3
      _ = (2 ^ (32 * P.n)) ^ 2 * 2 ^ (32 * P.n) := by ring
  by_cases hneg : r.neg = true
  · rw [if_pos hneg]
    rw [if_pos hneg] at hbz
    have hs := mpn_sub_n_spec P.modulus m (by rw [hP.len, hml])
    have hsl := mpn_sub_n_length P.modulus m (by rw [hP.len, hml])
    generalize mpn_sub_n P.modulus m = d at *
    have hdlt := val_lt d.1
    rw [hsl, hP.len] at hdlt
    have hpv : val P.modulus = P.p := rfl
    have hd2 : d.2 = false := by
      by_contra hne
      have h1 : d.2 = true := by simpa using hne
      rw [h1, hP.len] at hs; simp at hs
      omega
    rw [hd2] at hs ⊢
    simp at hs
    simp only [Bool.false_eq_true, if_false]
    apply fin _ (by rw [hsl, hP.len]) hdlt
    have hd : (val d.1 : Int) = P.p - val r.s := by
      rw [hmv] at hs; omega
    rw [hd]
    refine Int.modEq_iff_dvd.2 ⟨t - val a, ?_⟩
    push_cast at hbz
    rw [show (P.p : Int) = (val P.modulus : Int) from rfl]
    linear_combination hbz
  · rw [if_neg hneg]
    rw [if_neg hneg] at hbz
    apply fin _ hml (by have := val_lt m; rwa [hml] at this)
    rw [hmv]
    refine Int.modEq_iff_dvd.2 ⟨t, ?_⟩
    push_cast at hbz
    linear_combination hbz

/-- Limbs of a number without leading zeros. -/
def natLimbs (v : Nat) : List Limb :=
  if h : v = 0 then [] else BitVec.ofNat 32 v :: natLimbs (v / 2 ^ 32)
termination_by v
decreasing_by exact Nat.div_lt_self (by omega) (by norm_num)

theorem val_natLimbs (v : Nat) : val (natLimbs v) = v := by
  induction v using Nat.strongRecOn with
  | ind v ih =>
    rw [natLimbs]
    split
    · simp [*]
    · rename_i h
      rw [val_cons, ih _ (Nat.div_lt_self (by omega) (by norm_num)), BitVec.toNat_ofNat]
      exact Nat.mod_add_div _ _

theorem natLimbs_ne_nil {v : Nat} (h : v ≠ 0) : natLimbs v ≠ [] := by
  rw [natLimbs, dif_neg h]; simp

theorem natLimbs_getLast (v : Nat) (hv : v ≠ 0) : (natLimbs v).getLast?.getD 0 ≠ 0 := by
  induction v using Nat.strongRecOn with
  | ind v ih =>
    rw [natLimbs, dif_neg hv]
    by_cases h : v / 2 ^ 32 = 0
    · rw [h, natLimbs, dif_pos rfl]
      simp only [List.getLast?_singleton, Option.getD_some]
      intro h'
      have h2 := congrArg BitVec.toNat h'
      rw [BitVec.toNat_ofNat, Nat.mod_eq_of_lt (by
        rcases Nat.div_eq_zero_iff.1 h with h3 | h3
        · simp at h3
        · exact h3)] at h2
      exact hv h2
    · have := ih _ (Nat.div_lt_self (by omega) (by norm_num)) h
      rw [List.getLast?_cons]
      cases h3 : (natLimbs (v / 2 ^ 32)).getLast? with
      | none => rw [h3] at this; simp at this
      | some x => rw [h3] at this; simpa using this

/-- A reference implementation of the `mpn_gcdext` contract (it witnesses that the contract is
satisfiable; the theorems hold for any implementation meeting the contract). -/
def refGcdext : Gcdext := fun u v =>
  let g := Nat.gcd (val u) (val v)
  let s := Int.bmod (Nat.gcdA (val u) (val v)) (val v / g)
  -- the one boundary case: |s| = (v/g)/2 = 1
  if 2 * s.natAbs = val v / g then ⟨natLimbs g, [1], false⟩
  else ⟨natLimbs g, natLimbs s.natAbs, decide (s < 0)⟩

theorem refGcdext_contract : refGcdext.Contract := by
  have key : ∀ u v : List Limb, v.getLast?.getD 0 ≠ 0 → val u ≠ 0 →
      (refGcdext u v).g = natLimbs (Nat.gcd (val u) (val v)) ∧
      ((refGcdext u v).s = [] ∨ (refGcdext u v).s.getLast?.getD 0 ≠ 0) ∧
      (((refGcdext u v).neg = false ∧ val (refGcdext u v).s = 1) ∨
        2 * val (refGcdext u v).g * val (refGcdext u v).s < val v) ∧
      ∃ t : Int, (val (refGcdext u v).g : Int) = val u *
        (if (refGcdext u v).neg then -(val (refGcdext u v).s : Int)
          else val (refGcdext u v).s) + val v * t := by
    intro u v hv hu
    have hv0 : 0 < val v := by
      have := le_val_of_getLast v hv
      have h2 : 0 < 2 ^ (32 * (v.length - 1)) := by positivity
      omega
    obtain ⟨u', hu'⟩ := Nat.gcd_dvd_left (val u) (val v)
    obtain ⟨v', hv'⟩ := Nat.gcd_dvd_right (val u) (val v)
    have hbez := Nat.gcd_eq_gcd_ab (val u) (val v)
    set g := Nat.gcd (val u) (val v) with hg
    set s0 := Nat.gcdA (val u) (val v)
    set t0 := Nat.gcdB (val u) (val v)
    have hg0 : 0 < g := Nat.gcd_pos_of_pos_right _ hv0
    have hvg : val v / g = v' := by rw [hv', Nat.mul_div_cancel_left _ hg0]
    have hv'0 : 0 < v' := by
      rcases Nat.eq_zero_or_pos v' with h | h
      · rw [h] at hv'; omega
      · exact h
    set s := Int.bmod s0 v' with hs
    have hsmod : ∃ k : Int, s0 = s + v' * k := ⟨Int.bdiv s0 v', by
      rw [hs]; have := Int.bmod_add_bdiv s0 v'; omega⟩
    obtain ⟨k, hk⟩ := hsmod
    have hs1 : s < (v' + 1) / 2 := Int.bmod_lt hv'0
    have hs2 : -((v' : Int) / 2) ≤ s := Int.le_bmod hv'0
    have hbz : (g : Int) = val u * s + val v * (t0 + u' * k) := by
      have e1 : (val u : Int) = g * u' := by exact_mod_cast hu'
      have e2 : (val v : Int) = g * v' := by exact_mod_cast hv'
      rw [hbez, hk, e1, e2]; ring
    unfold refGcdext
    simp only [← hg, hvg]
    rw [← hs]
    by_cases hb : 2 * s.natAbs = v'
    · rw [if_pos hb]
      simp only
      refine ⟨trivial, Or.inr (by simp), Or.inl ⟨trivial, by simp⟩, ?_⟩
      -- s * u' ≡ 1 mod v' and 2|s| = v' force v' = 2, s = -1 or 1
      have e1 : (val u : Int) = g * u' := by exact_mod_cast hu'
      have e2 : (val v : Int) = g * v' := by exact_mod_cast hv'
      have h1 : (1 : Int) = u' * s + v' * (t0 + u' * k) := by
        have hgne : (g : Int) ≠ 0 := by omega
        apply mul_left_cancel₀ hgne
        rw [e1, e2] at hbz
        linear_combination hbz
      have hdvd : s ∣ 1 := by
        rw [h1]
        refine Int.dvd_add (Dvd.intro_left _ rfl) (Dvd.dvd.mul_right ?_ _)
        have : (v' : Int) = 2 * s ∨ (v' : Int) = 2 * (-s) := by omega
        rcases this with h | h
        · exact ⟨2, by rw [h]; ring⟩
        · exact ⟨-2, by rw [h]; ring⟩
      have hsu := Int.natAbs_dvd_natAbs.2 hdvd
      have hs1' : s.natAbs = 1 := by simpa using hsu
      have hv2 : v' = 2 := by omega
      rw [val_natLimbs]
      simp only [Bool.false_eq_true, if_false, val_cons, val_nil]
      have hs3 : s = 1 ∨ s = -1 := by omega
      rcases hs3 with h | h
      · refine ⟨t0 + u' * k, ?_⟩
        rw [h] at hbz
        simpa using hbz
      · refine ⟨t0 + u' * k - u', ?_⟩
        rw [h] at hbz
        rw [e1, e2, hv2] at hbz ⊢
        push_cast at hbz ⊢
        simp
        linear_combination hbz
    · rw [if_neg hb]
      simp only
      refine ⟨trivial, ?_, ?_, t0 + u' * k, ?_⟩
      · by_cases h : s.natAbs = 0
        · left; rw [h, natLimbs, dif_pos rfl]
        · right; exact natLimbs_getLast _ h
      · right
        rw [val_natLimbs, val_natLimbs, hv', Nat.mul_comm 2 g, Nat.mul_assoc]
        apply Nat.mul_lt_mul_of_pos_left _ hg0
        omega
      · rw [val_natLimbs, val_natLimbs]
        by_cases h : s < 0
        · have : (s.natAbs : Int) = -s := by omega
          simp only [h, decide_true, if_true, this]
          linear_combination hbz
        · have : (s.natAbs : Int) = s := by omega
          simp only [h, decide_false, Bool.false_eq_true, if_false, this]
          exact hbz
  constructor
  · intro u v _ hv hu
    rw [(key u v hv hu).1, val_natLimbs]
  · intro u v _ hv hu
    rw [(key u v hv hu).1]
    exact natLimbs_getLast _ (Nat.gcd_pos_of_pos_left _ (by omega)).ne'
  · intro u v _ hv hu; exact (key u v hv hu).2.2.2
  · intro u v _ hv hu; exact (key u v hv hu).2.2.1
  · intro u v _ hv hu; exact (key u v hv hu).2.1

theorem FpParams.Valid.coprimeR {P : FpParams} (hP : P.Valid) : Nat.Coprime (2 ^ (32 * P.n)) P.p := by
  apply Nat.Coprime.pow_left
  have h2 : ¬ 2 ∣ P.p := by
    rintro ⟨k, hk⟩
    have := hP.inv
    rw [hk] at this
    have e : P.inv.toNat * (2 * k) = 2 * (P.inv.toNat * k) := by ring
    rw [e] at this
    omega
  exact (Nat.Prime.coprime_iff_not_dvd Nat.prime_two).2 h2

theorem FpParams.Valid.unitR {P : FpParams} (hP : P.Valid) : IsUnit ((2 : ZMod P.p) ^ (32 * P.n)) := by
  have := (ZMod.isUnit_iff_coprime (2 ^ (32 * P.n)) P.p).2 hP.coprimeR
  simpa using this

theorem FpParams.Valid.neZero {P : FpParams} (hP : P.Valid) : NeZero P.p := ⟨by have := hP.one_lt; omega⟩

theorem Represents.inj {P : FpParams} {l l' : List Limb} {x : ZMod P.p}
    (h : Represents P l x) (h' : Represents P l' x) : l = l' := by
  apply val_inj (by rw [h.len, h'.len])
  have : (val l : ZMod P.p) = (val l' : ZMod P.p) := by rw [h.eq, h'.eq]
  rw [ZMod.natCast_eq_natCast_iff'] at this
  rwa [Nat.mod_eq_of_lt h.lt, Nat.mod_eq_of_lt h'.lt] at this

theorem Represents.val_unique {P : FpParams} (hP : P.Valid) {l : List Limb} {x y : ZMod P.p}
    (h : Represents P l x) (h' : Represents P l y) : x = y :=
  hP.unitR.mul_right_cancel (h.eq.symm.trans h'.eq)

/-- Every canonical limb vector represents a residue. -/
theorem Represents.exists_val {P : FpParams} (hP : P.Valid) {l : List Limb}
    (hl : l.length = P.n) (hlt : val l < P.p) :
    Represents P l ((val l : ZMod P.p) * ((2 : ZMod P.p) ^ (32 * P.n))⁻¹) :=
  ⟨hl, hlt, by rw [mul_assoc, ZMod.inv_mul_of_unit _ hP.unitR, mul_one]⟩

theorem Represents.exists_repr {P : FpParams} (hP : P.Valid) (x : ZMod P.p) :
    Represents P (limbsOf P.n (x * 2 ^ (32 * P.n)).val) x := by
  have := hP.neZero
  have h1 := ZMod.val_lt (x * 2 ^ (32 * P.n))
  have hb := hP.topBit
  have hv : val (limbsOf P.n (x * 2 ^ (32 * P.n)).val) = (x * 2 ^ (32 * P.n)).val := by
    rw [val_limbsOf, Nat.mod_eq_of_lt (by omega)]
  exact ⟨by simp, by rw [hv]; exact h1, by rw [hv]; simp⟩

theorem Represents.add {P : FpParams} (hP : P.Valid) {a b : List Limb} {x y : ZMod P.p}
    (ha : Represents P a x) (hb : Represents P b y) :
    ∃ r, addAssign P a b = .ok r ∧ Represents P r (x + y) := by
  obtain ⟨r, hr, hl, hv⟩ := addAssign_spec P hP.len a b ha.len hb.len ha.lt hb.lt
  have hp := hP.one_lt
  refine ⟨r, hr, hl, by rw [hv]; exact Nat.mod_lt _ (by omega), ?_⟩
  rw [hv, ZMod.natCast_mod]
  push_cast
  rw [ha.eq, hb.eq]; ring

theorem Represents.sub {P : FpParams} (hP : P.Valid) {a b : List Limb} {x y : ZMod P.p}
    (ha : Represents P a x) (hb : Represents P b y) :
    ∃ r, subAssign P a b = .ok r ∧ Represents P r (x - y) := by
  obtain ⟨r, hr, hl, hv⟩ := subAssign_spec P hP.len a b ha.len hb.len ha.lt hb.lt
  have hp := hP.one_lt
  have hblt := hb.lt
  refine ⟨r, hr, hl, by rw [hv]; exact Nat.mod_lt _ (by omega), ?_⟩
  rw [hv, ZMod.natCast_mod, Nat.cast_sub (by omega)]
  push_cast
  rw [ha.eq, hb.eq, show ((P.p : Nat) : ZMod P.p) = 0 from ZMod.natCast_self _]; ring

theorem Represents.neg {P : FpParams} (hP : P.Valid) {a : List Limb} {x : ZMod P.p}
    (ha : Represents P a x) : Represents P (negRepr P a) (-x) := by
  obtain ⟨hl, hv⟩ := negRepr_spec P hP.len a ha.len ha.lt
  have hp := hP.one_lt
  have halt := ha.lt
  refine ⟨hl, by rw [hv]; exact Nat.mod_lt _ (by omega), ?_⟩
  rw [hv, ZMod.natCast_mod, Nat.cast_sub (by omega)]
  rw [ha.eq, show ((P.p : Nat) : ZMod P.p) = 0 from ZMod.natCast_self _]; ring

/-- Montgomery multiplication of two raw vectors whose product is below `p · R`. -/
theorem Represents.mulReduce_raw {P : FpParams} (hP : P.Valid) {a b : List Limb} {z : ZMod P.p}
    (ha : a.length = P.n) (hb : b.length = P.n) (hab : val a * val b < P.p * 2 ^ (32 * P.n))
    (hz : (val a : ZMod P.p) * val b = z * 2 ^ (32 * P.n) * 2 ^ (32 * P.n)) :
    ∃ r, mulReduce P a b = .ok r ∧ Represents P r z := by
  obtain ⟨r, hr, hl, hlt, hv⟩ := mulReduce_spec P hP a b ha hb hab
  refine ⟨r, hr, hl, hlt, ?_⟩
  rw [← ZMod.natCast_eq_natCast_iff] at hv
  push_cast at hv
  rw [hz] at hv
  exact hP.unitR.mul_right_cancel hv

theorem lt_pR {P : FpParams} (hP : P.Valid) {a b : List Limb} (ha : a.length = P.n)
    (hb : val b < P.p) : val a * val b < P.p * 2 ^ (32 * P.n) := by
  have h := val_lt a
  rw [ha] at h
  have hp := hP.one_lt
  rw [Nat.mul_comm P.p]
  exact Nat.mul_lt_mul_of_lt_of_le h hb.le (by omega)

theorem Represents.mul {P : FpParams} (hP : P.Valid) {a b : List Limb} {x y : ZMod P.p}
    (ha : Represents P a x) (hb : Represents P b y) :
    ∃ r, mulReduce P a b = .ok r ∧ Represents P r (x * y) := by
  refine mulReduce_raw hP ha.len hb.len (lt_pR hP ha.len hb.lt) ?_
  rw [ha.eq, hb.eq]; ring

theorem FpParams.Valid.r2_lt {P : FpParams} (hP : P.Valid) : val P.Rsquared < P.p := by
  rw [hP.r2]; exact Nat.mod_lt _ (by have := hP.one_lt; omega)

theorem FpParams.Valid.r2_cast {P : FpParams} (hP : P.Valid) :
    (val P.Rsquared : ZMod P.p) = 2 ^ (32 * P.n) * 2 ^ (32 * P.n) := by
  rw [hP.r2, ZMod.natCast_mod]; push_cast; ring

theorem Represents.ofBigint {P : FpParams} (hP : P.Valid) {b : List Limb} (hb : b.length = P.n) :
    ∃ r, fpOfBigint P b = .ok r ∧ Represents P r (val b : ZMod P.p) := by
  refine mulReduce_raw hP hP.r2len hb ?_ ?_
  · rw [Nat.mul_comm (val _)]; exact lt_pR hP hb hP.r2_lt
  · rw [hP.r2_cast]; ring

theorem Represents.asBigint {P : FpParams} (hP : P.Valid) {a : List Limb} {x : ZMod P.p}
    (ha : Represents P a x) : fpAsBigint P a = .ok (limbsOf P.n x.val) := by
  have := hP.neZero
  have hn := hP.n_pos
  have hv1 : val (smallBigint P.n 1) = 1 := by rw [val_smallBigint _ _ hn]; rfl
  obtain ⟨r, hr, hl, hlt, hv⟩ := mulReduce_spec P hP a (smallBigint P.n 1) ha.len (by simp) (by
    apply lt_pR hP ha.len; rw [hv1]; exact hP.one_lt)
  rw [fpAsBigint, hr]
  congr 1
  rw [← ZMod.natCast_eq_natCast_iff, hv1] at hv
  push_cast at hv
  rw [ha.eq] at hv
  have h2 : (val r : ZMod P.p) = x := by
    apply hP.unitR.mul_right_cancel; rw [hv]; simp
  have h3 : x.val = val r := by
    rw [← h2, ZMod.val_natCast_of_lt hlt]
  rw [h3, ← hl, limbsOf_val]

theorem Represents.one {P : FpParams} (hP : P.Valid) :
    ∃ r, fpOne P = .ok r ∧ Represents P r 1 := by
  refine mulReduce_raw hP (by simp) hP.r2len (lt_pR hP (by simp) hP.r2_lt) ?_
  rw [hP.r2_cast, val_smallBigint _ _ hP.n_pos]
  have : ((1 : Limb).toNat : ZMod P.p) = 1 := by simp
  rw [this]; ring

theorem Represents.zero {P : FpParams} (hP : P.Valid) : Represents P (fpZero P) 0 := by
  refine ⟨by simp [fpZero], ?_, ?_⟩
  · rw [fpZero, val_replicate_zero]; have := hP.one_lt; omega
  · rw [fpZero, val_replicate_zero]; simp

theorem Represents.isZero {P : FpParams} (hP : P.Valid) {a : List Limb} {x : ZMod P.p}
    (ha : Represents P a x) : limbsIsZero a = true ↔ x = 0 := by
  rw [limbsIsZero_iff]
  constructor
  · intro h
    have := ha.eq
    rw [h] at this
    apply hP.unitR.mul_right_cancel
    rw [← this]; simp
  · intro h
    have := ha.eq
    rw [h, zero_mul, ZMod.natCast_eq_zero_iff] at this
    exact Nat.eq_zero_of_dvd_of_lt this ha.lt

theorem Represents.ofLong {P : FpParams} (hP : P.Valid) (x : BitVec 32) (isUnsigned : Bool)
    (h : isUnsigned = true ∨ (-(2 : Int) ^ 31 < x.toInt ∧ -(P.p : Int) ≤ x.toInt)) :
    ∃ r, fpOfLong P x isUnsigned = .ok r ∧
      Represents P r (((if isUnsigned then (x.toNat : Int) else x.toInt) : Int) : ZMod P.p) := by
  have hpos : ∃ r, mulReduce P (smallBigint P.n x) P.Rsquared = .ok r ∧
      Represents P r (x.toNat : ZMod P.p) := by
    refine mulReduce_raw hP (by simp) hP.r2len (lt_pR hP (by simp) hP.r2_lt) ?_
    rw [hP.r2_cast, val_smallBigint _ _ hP.n_pos]; ring
  unfold fpOfLong
  by_cases hu : isUnsigned = true
  · rw [if_pos (by simp [hu]), if_pos hu]
    simpa using hpos
  · have hu' : isUnsigned = false := by simpa using hu
    rw [if_neg hu]
    obtain ⟨h1, h2⟩ := h.resolve_left hu
    by_cases hm : x.msb = true
    · rw [if_neg (by simp [hu', hm])]
      have hti := BitVec.toInt_eq_msb_cond x
      rw [if_pos hm] at hti
      have hne : x ≠ BitVec.intMin 32 := by
        rintro rfl
        rw [BitVec.toInt_intMin] at h1
        norm_num at h1
      rw [if_neg hne]
      have hneg : ((-x).toNat : Int) = -x.toInt := by
        rw [BitVec.toNat_neg]
        have := x.isLt
        have h0 : 0 < x.toNat := by
          have := BitVec.msb_eq_decide x
          rw [hm] at this
          have := of_decide_eq_true this.symm
          omega
        rw [Nat.mod_eq_of_lt (by omega)]
        omega
      have hs := mpn_sub_1_spec P.modulus (-x)
      generalize mpn_sub_1 P.modulus (-x) = d at *
      obtain ⟨hs1, hs2⟩ := hs
      have hdlt := val_lt d.1
      rw [hs2] at hdlt
      have hpv : val P.modulus = P.p := rfl
      have hle : (-x).toNat ≤ P.p := by omega
      simp only
      have hd0 : d.2.toNat = 0 := by
        by_contra hne
        have : 2 ^ (32 * P.modulus.length) * 1 ≤ 2 ^ (32 * P.modulus.length) * d.2.toNat :=
          Nat.mul_le_mul_left _ (by omega)
        omega
      rw [if_pos ((limb_eq_zero_iff _).2 hd0)]
      rw [hd0] at hs1
      refine mulReduce_raw hP (by rw [hs2, hP.len]) hP.r2len
        (lt_pR hP (by rw [hs2, hP.len]) hP.r2_lt) ?_
      have : (val d.1 : ZMod P.p) = ((x.toInt : Int) : ZMod P.p) := by
        have e : ((val d.1 : Int) : ZMod P.p) = ((P.p + x.toInt : Int) : ZMod P.p) := by
          congr 1; omega
        push_cast at e
        rw [e, show ((P.p : Nat) : ZMod P.p) = 0 from ZMod.natCast_self _, zero_add]
      rw [this, hP.r2_cast]; ring
    · rw [if_pos (by simpa [hu'] using hm)]
      have hti := BitVec.toInt_eq_msb_cond x
      rw [if_neg hm] at hti
      rw [hti]; simpa using hpos

theorem Represents.inv {P : FpParams} (hP : P.Valid) (hp : P.p.Prime) {gx : Gcdext}
    (hgx : gx.Contract) {a : List Limb} {x : ZMod P.p} (ha : Represents P a x) (hx : x ≠ 0) :
    ∃ r, invertRepr P gx a = .ok r ∧ Represents P r x⁻¹ := by
  have : Fact P.p.Prime := ⟨hp⟩
  have h0 : val a ≠ 0 := fun h => hx ((ha.isZero hP).1 ((limbsIsZero_iff a).2 h))
  have hc : Nat.Coprime (val a) P.p := by
    rw [Nat.coprime_comm, hp.coprime_iff_not_dvd]
    intro h
    have := Nat.le_of_dvd (by omega) h
    have := ha.lt
    omega
  obtain ⟨r, hr, hl, hlt, hv⟩ := invertRepr_spec P hP gx hgx a ha.len h0 hc
  refine ⟨r, hr, hl, hlt, ?_⟩
  rw [← ZMod.natCast_eq_natCast_iff] at hv
  push_cast at hv
  rw [ha.eq] at hv
  have hR := hP.unitR.ne_zero
  field_simp
  apply mul_right_cancel₀ hR
  linear_combination hv

/-- Objects of class `Fp_model<n, modulus>` (fp.hpp:44-56): a reduced `mont_repr`. -/
@[ext] structure Fp (P : FpParams) where
  repr : List Limb
  len : repr.length = P.n
  lt : val repr < P.p
  deriving DecidableEq

namespace Fp
variable {P : FpParams} [hP : Fact P.Valid]

/-- The element returned by a limb-level computation that is known to succeed. -/
def ofOutcome (o : Outcome (List Limb)) (h : ∃ r, o = .ok r ∧ r.length = P.n ∧ val r < P.p) :
    Fp P :=
  ⟨o.get (h.imp fun _ hr => hr.1),
    by obtain ⟨r, rfl, hl, _⟩ := h; exact hl, by obtain ⟨r, rfl, _, hlt⟩ := h; exact hlt⟩

omit hP in
theorem ofOutcome_repr (o : Outcome (List Limb)) (h : ∃ r, o = .ok r ∧
    r.length = P.n ∧ val r < P.p) : o = .ok (ofOutcome o h).repr := Outcome.eq_ok_get _ _

/-- The residue an object denotes. -/
def toZMod (x : Fp P) : ZMod P.p := (val x.repr : ZMod P.p) * ((2 : ZMod P.p) ^ (32 * P.n))⁻¹

theorem represents (x : Fp P) : Represents P x.repr x.toZMod :=
  Represents.exists_val hP.out x.len x.lt

omit hP in
omit hP in
theorem ofOutcome_represents {o : Outcome (List Limb)} {z : ZMod P.p}
    (h : ∃ r, o = .ok r ∧ Represents P r z) : ∃ r, o = .ok r ∧ r.length = P.n ∧ val r < P.p := by
  obtain ⟨r, h1, h2⟩ := h; exact ⟨r, h1, h2.len, h2.lt⟩

theorem toZMod_ofOutcome {o : Outcome (List Limb)} {z : ZMod P.p}
    (h : ∃ r, o = .ok r ∧ Represents P r z) (h') : (ofOutcome (P := P) o h').toZMod = z := by
  obtain ⟨r, rfl, h2⟩ := h
  exact Represents.val_unique hP.out (represents _) h2

theorem toZMod_injective : Function.Injective (toZMod : Fp P → ZMod P.p) := by
  intro x y h
  have hx := represents x
  rw [h] at hx
  exact Fp.ext (Represents.inj hx (represents y))

/-- `operator+` (fp.tcc:545-550 via `+=`). -/
instance : Add (Fp P) := ⟨fun x y => ofOutcome (addAssign P x.repr y.repr)
  (ofOutcome_represents (Represents.add hP.out x.represents y.represents))⟩
/-- `operator-` (fp.tcc:552-557 via `-=`). -/
instance : Sub (Fp P) := ⟨fun x y => ofOutcome (subAssign P x.repr y.repr)
  (ofOutcome_represents (Represents.sub hP.out x.represents y.represents))⟩
/-- unary `operator-`. -/
instance : Neg (Fp P) := ⟨fun x => ⟨negRepr P x.repr, (Represents.neg hP.out x.represents).len,
  (Represents.neg hP.out x.represents).lt⟩⟩
/-- `operator*` (via `*=` and `mul_reduce`). -/
instance : Mul (Fp P) := ⟨fun x y => ofOutcome (mulReduce P x.repr y.repr)
  (ofOutcome_represents (Represents.mul hP.out x.represents y.represents))⟩
instance : Zero (Fp P) := ⟨⟨fpZero P, (Represents.zero hP.out).len, (Represents.zero hP.out).lt⟩⟩
instance : One (Fp P) := ⟨ofOutcome (fpOne P) (ofOutcome_represents (Represents.one hP.out))⟩
/-- `Fp_model(bigint)` applied to the bigint of a natural number reduced to `n` limbs. -/
instance : NatCast (Fp P) := ⟨fun v => ofOutcome (fpOfBigint P (limbsOf P.n (v % P.p)))
  (ofOutcome_represents (Represents.ofBigint hP.out (by simp)))⟩
instance : IntCast (Fp P) := ⟨fun v => ((v % P.p).toNat : Nat)⟩
instance : SMul ℕ (Fp P) := ⟨fun k x => (k : Fp P) * x⟩
instance : SMul ℤ (Fp P) := ⟨fun k x => (k : Fp P) * x⟩
instance : Pow (Fp P) ℕ := ⟨fun x k => npowRec k x⟩

theorem toZMod_add (x y : Fp P) : (x + y).toZMod = x.toZMod + y.toZMod :=
  toZMod_ofOutcome (Represents.add hP.out x.represents y.represents) _
theorem toZMod_sub (x y : Fp P) : (x - y).toZMod = x.toZMod - y.toZMod :=
  toZMod_ofOutcome (Represents.sub hP.out x.represents y.represents) _
theorem toZMod_mul (x y : Fp P) : (x * y).toZMod = x.toZMod * y.toZMod :=
  toZMod_ofOutcome (Represents.mul hP.out x.represents y.represents) _
theorem toZMod_neg (x : Fp P) : (-x).toZMod = -x.toZMod :=
  Represents.val_unique hP.out (represents _) (Represents.neg hP.out x.represents)
theorem toZMod_zero : (0 : Fp P).toZMod = 0 :=
  Represents.val_unique hP.out (represents _) (Represents.zero hP.out)
theorem toZMod_one : (1 : Fp P).toZMod = 1 :=
  toZMod_ofOutcome (Represents.one hP.out) _
theorem toZMod_natCast (k : ℕ) : (k : Fp P).toZMod = k := by
  have hb := hP.out.topBit
  have hp := hP.out.one_lt
  have hm : k % P.p < P.p := Nat.mod_lt _ (by omega)
  have h := Represents.ofBigint hP.out (b := limbsOf P.n (k % P.p)) (by simp)
  rw [val_limbsOf, Nat.mod_eq_of_lt (b := 2 ^ (32 * P.n)) (by omega), ZMod.natCast_mod] at h
  exact toZMod_ofOutcome h _
theorem toZMod_intCast (k : ℤ) : (k : Fp P).toZMod = k := by
  change ((((k % P.p).toNat : ℕ) : Fp P)).toZMod = k
  rw [toZMod_natCast]
  have hp := hP.out.one_lt
  have h : (((k % P.p).toNat : ℕ) : ℤ) = k % P.p :=
    Int.toNat_of_nonneg (Int.emod_nonneg _ (by omega))
  rw [← Int.cast_natCast, h]
  simp
theorem toZMod_pow (x : Fp P) (k : ℕ) : (x ^ k).toZMod = x.toZMod ^ k := by
  change (npowRec k x).toZMod = _
  induction k with
  | zero => simp [npowRec, toZMod_one]
  | succ k ih => rw [npowRec, toZMod_mul, ih, pow_succ]

instance : CommRing (Fp P) :=
  Function.Injective.commRing toZMod toZMod_injective toZMod_zero toZMod_one toZMod_add toZMod_mul
    toZMod_neg toZMod_sub
    (fun k x => by
      change (((k : Fp P)) * x).toZMod = _
      rw [toZMod_mul, toZMod_natCast, nsmul_eq_mul])
    (fun k x => by
      change (((k : Fp P)) * x).toZMod = _
      rw [toZMod_mul, toZMod_intCast, zsmul_eq_mul])
    toZMod_pow toZMod_natCast toZMod_intCast

/-- Decoding as a ring homomorphism. -/
def toZModHom : Fp P →+* ZMod P.p where
  toFun := toZMod
  map_zero' := toZMod_zero
  map_one' := toZMod_one
  map_add' := toZMod_add
  map_mul' := toZMod_mul

theorem toZMod_surjective : Function.Surjective (toZMod : Fp P → ZMod P.p) := fun z => by
  have : NeZero P.p := hP.out.neZero
  exact ⟨(z.val : Fp P), by rw [toZMod_natCast, ZMod.natCast_zmod_val]⟩

/-- Decoding is a ring isomorphism onto the integers modulo `p`. -/
noncomputable def equivZMod : Fp P ≃+* ZMod P.p :=
  RingEquiv.ofBijective toZModHom ⟨toZMod_injective, toZMod_surjective⟩

@[simp] theorem equivZMod_apply (x : Fp P) : equivZMod x = x.toZMod := rfl

instance : CharP (Fp P) P.p :=
  toZModHom.charP toZMod_injective P.p

noncomputable instance : Fintype (Fp P) :=
  have : NeZero P.p := hP.out.neZero
  Fintype.ofEquiv _ (equivZMod (P := P)).symm.toEquiv

theorem card : Fintype.card (Fp P) = P.p := by
  have : NeZero P.p := hP.out.neZero
  rw [Fintype.card_congr (equivZMod (P := P)).toEquiv, ZMod.card]

variable [hp : Fact P.p.Prime]

/-- `inverse()` (fp.tcc:671-729); `0` (where the code aborts) is mapped to `0`.
`Verif/Props/Fp.lean` shows the choice of gcd routine does not matter. -/
instance : Inv (Fp P) := ⟨fun x => if h : x = 0 then 0 else
  ofOutcome (invertRepr P refGcdext x.repr) (ofOutcome_represents
    (Represents.inv hP.out hp.out refGcdext_contract x.represents
      (fun h' => h (toZMod_injective (h'.trans toZMod_zero.symm)))))⟩

theorem toZMod_inv (x : Fp P) : (x⁻¹).toZMod = (x.toZMod)⁻¹ := by
  change (if h : x = 0 then 0 else _ : Fp P).toZMod = _
  split
  · rename_i h; rw [h, toZMod_zero, inv_zero]
  · rename_i h
    exact toZMod_ofOutcome (Represents.inv hP.out hp.out refGcdext_contract x.represents
      (fun h' => h (toZMod_injective (h'.trans toZMod_zero.symm)))) _

instance : Field (Fp P) where
  exists_pair_ne := ⟨0, 1, fun h => by
    have := congrArg toZMod h
    rw [toZMod_zero, toZMod_one] at this
    exact zero_ne_one this⟩
  mul_inv_cancel x hx := by
    apply toZMod_injective
    rw [toZMod_mul, toZMod_inv, toZMod_one, mul_inv_cancel₀]
    intro h; exact hx (toZMod_injective (h.trans toZMod_zero.symm))
  inv_zero := by
    apply toZMod_injective; rw [toZMod_inv, toZMod_zero, inv_zero]
  nnqsmul := _
  nnqsmul_def := fun _ _ => rfl
  qsmul := _
  qsmul_def := fun _ _ => rfl

end Fp

end Libff.W32
