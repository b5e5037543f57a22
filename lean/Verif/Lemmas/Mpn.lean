import Verif.Model.Mpn
import Mathlib.Tactic.Ring
import Mathlib.Tactic.Linarith

/-! # Value-level lemmas about the mpn functions -/
namespace Libff

@[simp] theorem val_nil : val [] = 0 := rfl
@[simp] theorem val_cons (a : Limb) (l) : val (a :: l) = a.toNat + 2 ^ 64 * val l := rfl

theorem Limb.lt (a : Limb) : a.toNat < 2 ^ 64 := a.isLt

theorem val_lt (l : List Limb) : val l < 2 ^ (64 * l.length) := by
  induction l with
  | nil => simp
  | cons a l ih =>
    have := a.isLt
    rw [val_cons, List.length_cons, Nat.mul_succ, Nat.pow_add, Nat.mul_comm (2 ^ _)]
    have : 2 ^ 64 * (val l + 1) ≤ 2 ^ 64 * 2 ^ (64 * l.length) := Nat.mul_le_mul_left _ ih
    omega

theorem val_append (a b : List Limb) : val (a ++ b) = val a + 2 ^ (64 * a.length) * val b := by
  induction a with
  | nil => simp
  | cons x a ih =>
    rw [List.cons_append, val_cons, val_cons, ih, List.length_cons, Nat.mul_succ,
      Nat.pow_add 2 (64 * a.length) 64]
    ring

theorem val_replicate_zero (n : Nat) : val (List.replicate n (0 : Limb)) = 0 := by
  induction n with
  | zero => rfl
  | succ n ih => rw [List.replicate_succ, val_cons, ih]; rfl

theorem val_inj {a b : List Limb} (h : a.length = b.length) (hv : val a = val b) : a = b := by
  induction a generalizing b with
  | nil => cases b <;> simp_all
  | cons x a ih =>
    cases b with
    | nil => simp at h
    | cons y b =>
      simp only [val_cons] at hv
      have hx := x.isLt
      have hy := y.isLt
      have h1 : x.toNat = y.toNat := by omega
      have h2 : val a = val b := by omega
      rw [BitVec.eq_of_toNat_eq h1, ih (by simpa using h) h2]

theorem val_limbsOf (n v : Nat) : val (limbsOf n v) = v % 2 ^ (64 * n) := by
  induction n generalizing v with
  | zero => simp [limbsOf, Nat.mod_one]
  | succ n ih =>
    simp only [limbsOf, val_cons, ih, BitVec.toNat_ofNat]
    rw [Nat.mul_succ, Nat.add_comm (64 * n) 64, Nat.pow_add 2 64 (64 * n), Nat.mod_mul]

@[simp] theorem length_limbsOf (n v : Nat) : (limbsOf n v).length = n := by
  induction n generalizing v with
  | zero => rfl
  | succ n ih => simp [limbsOf, ih]

theorem limbsOf_val (l : List Limb) : limbsOf l.length (val l) = l := by
  apply val_inj (by simp)
  rw [val_limbsOf, Nat.mod_eq_of_lt (val_lt l)]

theorem addC_spec (a b : List Limb) (c : Bool) (h : a.length = b.length) :
    val (addC a b c).1 + 2 ^ (64 * a.length) * (addC a b c).2.toNat = val a + val b + c.toNat
    ∧ (addC a b c).1.length = a.length := by
  induction a generalizing b c with
  | nil => cases b <;> simp_all [addC]
  | cons x a ih =>
    cases b with
    | nil => simp at h
    | cons y b =>
      simp only [addC, val_cons, List.length_cons, BitVec.toNat_ofNat]
      have hx := x.isLt
      have hy := y.isLt
      obtain ⟨h1, h2⟩ := ih b (decide (2 ^ 64 ≤ x.toNat + y.toNat + c.toNat)) (by simpa using h)
      refine ⟨?_, by rw [h2]⟩
      rw [Nat.mul_succ, Nat.add_comm (64 * _), Nat.pow_add]
      generalize addC a b _ = r at *
      have hc : c.toNat ≤ 1 := Bool.toNat_le c
      have hmul : 2 ^ 64 * 2 ^ (64 * a.length) * r.2.toNat
        = 2 ^ 64 * (2 ^ (64 * a.length) * r.2.toNat) := by ring
      rw [hmul]
      by_cases hge : 2 ^ 64 ≤ x.toNat + y.toNat + c.toNat
      · simp only [hge, decide_true, Bool.toNat_true] at h1
        omega
      · simp only [hge, decide_false, Bool.toNat_false] at h1
        omega

theorem mpn_add_n_spec (a b : List Limb) (h : a.length = b.length) :
    val (mpn_add_n a b).1 + 2 ^ (64 * a.length) * (mpn_add_n a b).2.toNat = val a + val b := by
  simpa [mpn_add_n] using (addC_spec a b false h).1

theorem mpn_add_n_length (a b : List Limb) (h : a.length = b.length) :
    (mpn_add_n a b).1.length = a.length := (addC_spec a b false h).2

theorem subB_spec (a b : List Limb) (c : Bool) (h : a.length = b.length) :
    val (subB a b c).1 + val b + c.toNat = val a + 2 ^ (64 * a.length) * (subB a b c).2.toNat
    ∧ (subB a b c).1.length = a.length := by
  induction a generalizing b c with
  | nil => cases b <;> simp_all [subB]
  | cons x a ih =>
    cases b with
    | nil => simp at h
    | cons y b =>
      simp only [subB, val_cons, List.length_cons, BitVec.toNat_ofNat]
      have hx := x.isLt
      have hy := y.isLt
      obtain ⟨h1, h2⟩ := ih b (decide (x.toNat < y.toNat + c.toNat)) (by simpa using h)
      refine ⟨?_, by rw [h2]⟩
      rw [Nat.mul_succ, Nat.add_comm (64 * _), Nat.pow_add]
      generalize subB a b _ = r at *
      have hc : c.toNat ≤ 1 := Bool.toNat_le c
      have hmul : 2 ^ 64 * 2 ^ (64 * a.length) * r.2.toNat
        = 2 ^ 64 * (2 ^ (64 * a.length) * r.2.toNat) := by ring
      rw [hmul]
      by_cases hge : x.toNat < y.toNat + c.toNat
      · simp only [hge, decide_true, Bool.toNat_true] at h1
        omega
      · simp only [hge, decide_false, Bool.toNat_false] at h1
        omega

theorem mpn_sub_n_spec (a b : List Limb) (h : a.length = b.length) :
    val (mpn_sub_n a b).1 + val b = val a + 2 ^ (64 * a.length) * (mpn_sub_n a b).2.toNat := by
  simpa [mpn_sub_n] using (subB_spec a b false h).1

theorem mpn_sub_n_length (a b : List Limb) (h : a.length = b.length) :
    (mpn_sub_n a b).1.length = a.length := (subB_spec a b false h).2

theorem mpn_add_1_spec (a : List Limb) (b : Limb) :
    val (mpn_add_1 a b).1 + 2 ^ (64 * a.length) * (mpn_add_1 a b).2.toNat = val a + b.toNat
    ∧ (mpn_add_1 a b).1.length = a.length := by
  induction a generalizing b with
  | nil => simp [mpn_add_1]
  | cons x a ih =>
    simp only [mpn_add_1, val_cons, List.length_cons, BitVec.toNat_ofNat]
    obtain ⟨h1, h2⟩ := ih (BitVec.ofNat 64 ((x.toNat + b.toNat) / 2 ^ 64))
    refine ⟨?_, by rw [h2]⟩
    have hx := x.isLt
    have hb := b.isLt
    rw [Nat.mul_succ, Nat.add_comm (64 * _), Nat.pow_add]
    rw [BitVec.toNat_ofNat] at h1
    generalize mpn_add_1 a _ = r at *
    have hmul : 2 ^ 64 * 2 ^ (64 * a.length) * r.2.toNat
        = 2 ^ 64 * (2 ^ (64 * a.length) * r.2.toNat) := by ring
    rw [hmul]
    omega

theorem mpn_sub_1_spec (a : List Limb) (b : Limb) :
    val (mpn_sub_1 a b).1 + b.toNat = val a + 2 ^ (64 * a.length) * (mpn_sub_1 a b).2.toNat
    ∧ (mpn_sub_1 a b).1.length = a.length := by
  induction a generalizing b with
  | nil => simp [mpn_sub_1]
  | cons x a ih =>
    simp only [mpn_sub_1, val_cons, List.length_cons]
    obtain ⟨h1, h2⟩ := ih (if x.toNat < b.toNat then 1 else 0)
    refine ⟨?_, by rw [h2]⟩
    have hx := x.isLt
    have hb := b.isLt
    rw [Nat.mul_succ, Nat.add_comm (64 * _), Nat.pow_add]
    generalize mpn_sub_1 a _ = r at *
    have hmul : 2 ^ 64 * 2 ^ (64 * a.length) * r.2.toNat
        = 2 ^ 64 * (2 ^ (64 * a.length) * r.2.toNat) := by ring
    rw [hmul, BitVec.toNat_sub]
    by_cases hlt : x.toNat < b.toNat
    · simp only [hlt, if_true] at h1
      simp at h1
      omega
    · simp only [hlt, if_false] at h1
      simp at h1
      omega

theorem mpn_sub_spec (a b : List Limb) (h : b.length ≤ a.length) :
    val (mpn_sub a b).1 + val b = val a + 2 ^ (64 * a.length) * (mpn_sub a b).2.toNat
    ∧ (mpn_sub a b).1.length = a.length := by
  have hlen : (a.take b.length).length = b.length := by simp [h]
  have h1 := mpn_sub_n_spec (a.take b.length) b hlen
  have h1' := mpn_sub_n_length (a.take b.length) b hlen
  have h2 := mpn_sub_1_spec (a.drop b.length) (if (mpn_sub_n (a.take b.length) b).2 then 1 else 0)
  have ha : val a = val (a.take b.length) + 2 ^ (64 * b.length) * val (a.drop b.length) := by
    conv_lhs => rw [← List.take_append_drop b.length a, val_append, hlen]
  have hpow : 2 ^ (64 * a.length) = 2 ^ (64 * b.length) * 2 ^ (64 * (a.drop b.length).length) := by
    rw [← Nat.pow_add]; congr 1; simp; omega
  simp only [mpn_sub, val_append, h1', List.length_append, h2.2]
  refine ⟨?_, by simp; omega⟩
  rw [hlen] at h1 ⊢
  have h2 := h2.1
  generalize mpn_sub_n (a.take b.length) b = q at *
  generalize hr : mpn_sub_1 (a.drop b.length) _ = r at *
  rw [hpow, ha]
  have hq : (if q.2 then (1 : Limb) else 0).toNat = q.2.toNat := by cases q.2 <;> rfl
  rw [hq] at h2
  have : 2 ^ (64 * b.length) * (val r.1 + q.2.toNat)
    = 2 ^ (64 * b.length) * (val (a.drop b.length)
        + 2 ^ (64 * (a.drop b.length).length) * r.2.toNat) := by rw [h2]
  nlinarith

theorem addmulC_spec (r a : List Limb) (k c : Limb) (h : r.length = a.length) :
    val (addmulC r a k c).1 + 2 ^ (64 * r.length) * (addmulC r a k c).2.toNat
      = val r + val a * k.toNat + c.toNat
    ∧ (addmulC r a k c).1.length = r.length := by
  induction r generalizing a c with
  | nil => cases a <;> simp_all [addmulC]
  | cons x r ih =>
    cases a with
    | nil => simp at h
    | cons y a =>
      simp only [addmulC, val_cons, List.length_cons, BitVec.toNat_ofNat]
      obtain ⟨h1, h2⟩ := ih a (BitVec.ofNat 64 ((x.toNat + y.toNat * k.toNat + c.toNat) / 2 ^ 64))
        (by simpa using h)
      refine ⟨?_, by rw [h2]⟩
      have hx := x.isLt
      have hy := y.isLt
      have hk := k.isLt
      have hc := c.isLt
      have hyk : y.toNat * k.toNat ≤ (2 ^ 64 - 1) * (2 ^ 64 - 1) :=
        Nat.mul_le_mul (by omega) (by omega)
      rw [Nat.mul_succ, Nat.add_comm (64 * _), Nat.pow_add]
      rw [BitVec.toNat_ofNat, Nat.mod_eq_of_lt (a := (_ / _)) (by omega)] at h1
      generalize addmulC r a k _ = q at *
      have e1 : 2 ^ 64 * 2 ^ (64 * r.length) * q.2.toNat
        = 2 ^ 64 * (2 ^ (64 * r.length) * q.2.toNat) := by ring
      have e2 : (y.toNat + 2 ^ 64 * val a) * k.toNat
        = y.toNat * k.toNat + 2 ^ 64 * (val a * k.toNat) := by ring
      rw [e1, e2]
      generalize y.toNat * k.toNat = m at *
      omega

theorem mpn_addmul_1_spec (r a : List Limb) (k : Limb) (h : r.length = a.length) :
    val (mpn_addmul_1 r a k).1 + 2 ^ (64 * r.length) * (mpn_addmul_1 r a k).2.toNat
      = val r + val a * k.toNat
    ∧ (mpn_addmul_1 r a k).1.length = r.length := by
  have := addmulC_spec r a k 0 h
  simpa [mpn_addmul_1] using this

theorem mpn_mul_spec (a b : List Limb) :
    val (mpn_mul a b) = val a * val b ∧ (mpn_mul a b).length = a.length + b.length := by
  induction a with
  | nil => simp only [mpn_mul, val_replicate_zero, val_nil, Nat.zero_mul, List.length_replicate, List.length_nil, Nat.zero_add, and_self]
  | cons x a ih =>
    simp only [mpn_mul]
    obtain ⟨hv, hl⟩ := ih
    set rest := (0 : Limb) :: mpn_mul a b with hrest
    have hrl : rest.length = a.length + b.length + 1 := by simp [hrest, hl]
    have hrv : val rest = 2 ^ 64 * (val a * val b) := by simp [hrest, hv]
    have htl : (rest.take b.length).length = b.length := by simp; omega
    have hsplit : val rest = val (rest.take b.length)
        + 2 ^ (64 * b.length) * val (rest.drop b.length) := by
      conv_lhs => rw [← List.take_append_drop b.length rest, val_append, htl]
    have h1 := mpn_addmul_1_spec (rest.take b.length) b x htl
    have h2 := mpn_add_1_spec (rest.drop b.length) (mpn_addmul_1 (rest.take b.length) b x).2
    rw [htl] at h1
    generalize mpn_addmul_1 (rest.take b.length) b x = q at *
    generalize mpn_add_1 (rest.drop b.length) q.2 = w at *
    have hdl : (rest.drop b.length).length = a.length + 1 := by simp; omega
    rw [hdl] at h2
    have hlen : (q.1 ++ w.1).length = (x :: a).length + b.length := by
      simp [h1.2, h2.2]; omega
    refine ⟨?_, hlen⟩
    have hlt := val_lt (q.1 ++ w.1)
    have hlt' : val (x :: a) * val b < 2 ^ (64 * ((x :: a).length + b.length)) := by
      rw [Nat.mul_add, Nat.pow_add]
      exact Nat.mul_lt_mul'' (val_lt _) (val_lt _)
    rw [hlen] at hlt
    have hpow : 2 ^ (64 * ((x :: a).length + b.length))
        = 2 ^ (64 * b.length) * 2 ^ (64 * (a.length + 1)) := by
      rw [← Nat.pow_add]; congr 1; simp; ring
    have key : val (q.1 ++ w.1) + 2 ^ (64 * ((x :: a).length + b.length)) * w.2.toNat
        = val (x :: a) * val b := by
      rw [val_append, h1.2, val_cons, hpow]
      have h2' := h2.1
      have h1' := h1.1
      calc _ = val q.1 + 2 ^ (64 * b.length) * (val w.1 + 2 ^ (64 * (a.length + 1)) * w.2.toNat) := by
            ring
        _ = val q.1 + 2 ^ (64 * b.length) * q.2.toNat
            + 2 ^ (64 * b.length) * val (rest.drop b.length) := by rw [h2']; ring
        _ = val rest + val b * x.toNat := by rw [h1', hsplit]; ring
        _ = _ := by rw [hrv]; ring
    have hw : w.2.toNat = 0 := by
      by_contra hne
      have : 2 ^ (64 * ((x :: a).length + b.length)) * 1
          ≤ 2 ^ (64 * ((x :: a).length + b.length)) * w.2.toNat :=
        Nat.mul_le_mul_left _ (by omega)
      omega
    rw [hw] at key
    simpa using key

theorem mpn_cmp_spec (a b : List Limb) (h : a.length = b.length) :
    mpn_cmp a b = compare (val a) (val b) := by
  induction a generalizing b with
  | nil => cases b <;> simp_all [mpn_cmp]
  | cons x a ih =>
    cases b with
    | nil => simp at h
    | cons y b =>
      simp only [mpn_cmp, val_cons]
      rw [ih b (by simpa using h)]
      have hx := x.isLt
      have hy := y.isLt
      rcases Nat.lt_trichotomy (val a) (val b) with hlt | heq | hgt
      · rw [Nat.compare_eq_lt.2 hlt]
        exact (Nat.compare_eq_lt.2 (by omega)).symm
      · rw [Nat.compare_eq_eq.2 heq]
        simp only [heq]
        rcases Nat.lt_trichotomy x.toNat y.toNat with h1 | h1 | h1
        · rw [Nat.compare_eq_lt.2 h1, Nat.compare_eq_lt.2 (by omega)]
        · rw [Nat.compare_eq_eq.2 h1, Nat.compare_eq_eq.2 (by omega)]
        · rw [Nat.compare_eq_gt.2 h1, Nat.compare_eq_gt.2 (by omega)]
      · rw [Nat.compare_eq_gt.2 hgt]
        exact (Nat.compare_eq_gt.2 (by omega)).symm

end Libff
