import Verif.Lemmas.BinaryField
import Mathlib.FieldTheory.Finiteness
import Mathlib.RingTheory.PowerBasis
import Mathlib.LinearAlgebra.Dimension.Free

/-!
# GF(2)[X] modulo a polynomial with an element of full order
-/
namespace Libff
open Polynomial

theorem bitPoly_eq_nEval (n v : ℕ) : bitPoly n v = nEval (X : (ZMod 2)[X]) n v := rfl

theorem bitPoly_coeff (n v i : ℕ) : (bitPoly n v).coeff i = if i < n ∧ v.testBit i then 1 else 0 := by
  unfold bitPoly
  rw [finset_sum_coeff]
  have : ∀ j ∈ Finset.range n, (if v.testBit j then (X : (ZMod 2)[X]) ^ j else 0).coeff i =
      if j = i then (if v.testBit i then 1 else 0) else 0 := by
    intro j _
    by_cases h : j = i
    · subst h; split <;> simp [*]
    · rw [if_neg h]
      split
      · rw [coeff_X_pow, if_neg (fun h' => h h'.symm)]
      · simp
  rw [Finset.sum_congr rfl this, Finset.sum_ite_eq']
  simp only [Finset.mem_range]
  by_cases h1 : i < n <;> by_cases h2 : v.testBit i = true <;> simp [h1, h2]

theorem bitPoly_degree (n v : ℕ) : (bitPoly n v).degree < n := by
  rw [degree_lt_iff_coeff_zero]
  intro i hi
  rw [bitPoly_coeff, if_neg (by omega)]

theorem bitPoly_inj {n a b : ℕ} (ha : a < 2 ^ n) (hb : b < 2 ^ n) (h : bitPoly n a = bitPoly n b) : a = b := by
  apply Nat.eq_of_testBit_eq
  intro i
  by_cases hi : i < n
  · have := congrArg (fun p => coeff p i) h
    simp only [bitPoly_coeff, hi, true_and] at this
    cases h1 : a.testBit i <;> cases h2 : b.testBit i <;> simp [h1, h2] at this ⊢
  · have : 2 ^ n ≤ 2 ^ i := Nat.pow_le_pow_right (by norm_num) (by omega)
    rw [Nat.testBit_lt_two_pow (by omega), Nat.testBit_lt_two_pow (by omega)]

/-- Every polynomial of degree below `n` has a number. -/
theorem bitPoly_surj (n : ℕ) (p : (ZMod 2)[X]) (hp : p.degree < n) : ∃ v < 2 ^ n, bitPoly n v = p := by
  induction n generalizing p with
  | zero =>
    refine ⟨0, by norm_num, ?_⟩
    have : p = 0 := by
      ext i
      rw [degree_lt_iff_coeff_zero] at hp
      rw [hp i (by omega), coeff_zero]
    rw [this]; simp [bitPoly]
  | succ n ih =>
    rw [degree_lt_iff_coeff_zero] at hp
    obtain ⟨v, hv, h⟩ := ih (p - C (p.coeff n) * X ^ n) (by
      rw [degree_lt_iff_coeff_zero]
      intro i hi
      rw [coeff_sub, coeff_C_mul, coeff_X_pow]
      split
      · rename_i h; rw [h]; ring
      · rw [hp i (by omega)]; ring)
    have hc : p.coeff n = 0 ∨ p.coeff n = 1 := by
      generalize p.coeff n = c
      revert c; decide
    have e : ∀ b, bitPoly (n + 1) (v + 2 ^ n * b) = bitPoly n v + X ^ n * bitPoly 1 b := by
      intro b
      rw [bitPoly_eq_nEval, nEval_add_mul _ _ _ _ _ hv]; rfl
    rcases hc with hc | hc
    · refine ⟨v, by rw [pow_succ]; omega, ?_⟩
      have := e 0
      rw [mul_zero, add_zero] at this
      rw [this, h, hc]; simp [bitPoly]
    · refine ⟨v + 2 ^ n * 1, by rw [pow_succ]; omega, ?_⟩
      rw [e, h, hc]; simp [bitPoly]

section
variable (f : (ZMod 2)[X]) (n : ℕ) (hf : f.Monic) (hd : f.natDegree = n) (hn : 0 < n)
include hf hd hn

theorem quot_nontrivial : Nontrivial (AdjoinRoot f) := by
  apply AdjoinRoot.nontrivial
  rw [degree_eq_natDegree hf.ne_zero, hd]
  exact_mod_cast hn.ne'

theorem quot_charP : CharP (AdjoinRoot f) 2 :=
  have := quot_nontrivial f n hf hd hn
  charP_of_injective_ringHom (algebraMap (ZMod 2) (AdjoinRoot f)).injective 2

omit hf hd hn in
theorem nEval_root (v : ℕ) : nEval (AdjoinRoot.root f) n v = AdjoinRoot.mk f (bitPoly n v) := by
  unfold nEval bitPoly
  rw [map_sum]
  refine Finset.sum_congr rfl fun i _ => ?_
  split
  · rw [map_pow, AdjoinRoot.mk_X]
  · rw [map_zero]

omit hn in
theorem mk_inj {p q : (ZMod 2)[X]} (hp : p.degree < n) (hq : q.degree < n)
    (h : AdjoinRoot.mk f p = AdjoinRoot.mk f q) : p = q := by
  rw [AdjoinRoot.mk_eq_mk] at h
  have : p - q = 0 := by
    apply eq_zero_of_dvd_of_degree_lt h
    rw [degree_eq_natDegree hf.ne_zero, hd]
    exact lt_of_le_of_lt (degree_sub_le _ _) (max_lt hp hq)
  exact sub_eq_zero.1 this

omit hn in
theorem nEval_inj {a b : ℕ} (ha : a < 2 ^ n) (hb : b < 2 ^ n)
    (h : nEval (AdjoinRoot.root f) n a = nEval (AdjoinRoot.root f) n b) : a = b := by
  rw [nEval_root, nEval_root] at h
  exact bitPoly_inj ha hb (mk_inj f n hf hd (bitPoly_degree n a) (bitPoly_degree n b) h)

omit hn in
theorem nEval_surj (y : AdjoinRoot f) : ∃ v < 2 ^ n, nEval (AdjoinRoot.root f) n v = y := by
  obtain ⟨p, rfl⟩ := AdjoinRoot.mk_surjective y
  obtain ⟨v, hv, h⟩ := bitPoly_surj n (p %ₘ f) (by
    rw [← hd, ← degree_eq_natDegree hf.ne_zero]; exact degree_modByMonic_lt _ hf)
  refine ⟨v, hv, ?_⟩
  rw [nEval_root, h, AdjoinRoot.mk_eq_mk]
  refine ⟨-(p /ₘ f), ?_⟩
  have := modByMonic_add_div p f
  linear_combination this

omit hn in
theorem quot_card : Nat.card (AdjoinRoot f) = 2 ^ n := by
  have e : Fin (2 ^ n) ≃ AdjoinRoot f := Equiv.ofBijective (fun v => nEval (AdjoinRoot.root f) n v)
    ⟨fun a b h => Fin.ext (nEval_inj f n hf hd a.2 b.2 h), fun y => by
      obtain ⟨v, hv, h⟩ := nEval_surj f n hf hd y; exact ⟨⟨v, hv⟩, h⟩⟩
  rw [← Nat.card_congr e, Nat.card_fin]

/-- An element of order `2^n - 1` makes the quotient a field, and generates its nonzero elements. -/
theorem powers_of_order (g : AdjoinRoot f) (hg : orderOf g = 2 ^ n - 1) (y : AdjoinRoot f) (hy : y ≠ 0) :
    ∃ k < 2 ^ n - 1, g ^ k = y := by
  have := quot_nontrivial f n hf hd hn
  have hcard := quot_card f n hf hd
  have : Finite (AdjoinRoot f) := Nat.finite_of_card_ne_zero (by rw [hcard]; positivity)
  let _ := Fintype.ofFinite (AdjoinRoot f)
  classical
  rw [Nat.card_eq_fintype_card] at hcard
  have h2 : 1 < 2 ^ n := Nat.one_lt_two_pow hn.ne'
  have hu : IsUnit g := by
    refine IsUnit.of_mul_eq_one (g ^ (2 ^ n - 2)) ?_
    rw [← pow_succ', show 2 ^ n - 2 + 1 = 2 ^ n - 1 by omega, ← hg, pow_orderOf_eq_one]
  have hsub : (Finset.range (2 ^ n - 1)).image (fun k => g ^ k) ⊆ Finset.univ.erase 0 := by
    intro z hz
    obtain ⟨k, _, rfl⟩ := Finset.mem_image.1 hz
    exact Finset.mem_erase.2 ⟨(hu.pow k).ne_zero, Finset.mem_univ _⟩
  have hinj : Set.InjOn (fun k => g ^ k) (Finset.range (2 ^ n - 1) : Set ℕ) := by
    intro a ha b hb h
    rw [Finset.coe_range, Set.mem_Iio, ← hg] at ha hb
    exact pow_injOn_Iio_orderOf ha hb h
  have heq := Finset.eq_of_subset_of_card_le hsub (by
    rw [Finset.card_image_of_injOn hinj, Finset.card_range, Finset.card_erase_of_mem (Finset.mem_univ _),
      Finset.card_univ, hcard])
  have hy' : y ∈ Finset.univ.erase (0 : AdjoinRoot f) := Finset.mem_erase.2 ⟨hy, Finset.mem_univ _⟩
  rw [← heq] at hy'
  obtain ⟨k, hk, h⟩ := Finset.mem_image.1 hy'
  exact ⟨k, Finset.mem_range.1 hk, h⟩

theorem irreducible_of_order (g : AdjoinRoot f) (hg : orderOf g = 2 ^ n - 1) : Irreducible f := by
  have := quot_nontrivial f n hf hd hn
  have h2 : 1 < 2 ^ n := Nat.one_lt_two_pow hn.ne'
  have hfield : IsField (AdjoinRoot f) := by
    refine ⟨exists_pair_ne _, mul_comm, fun {a} ha => ?_⟩
    obtain ⟨k, hk, rfl⟩ := powers_of_order f n hf hd hn g hg a ha
    refine ⟨g ^ (2 ^ n - 1 - k), ?_⟩
    rw [← pow_add, show k + (2 ^ n - 1 - k) = 2 ^ n - 1 by omega, ← hg, pow_orderOf_eq_one]
  have hmax : (Ideal.span {f}).IsMaximal := Ideal.Quotient.maximal_of_isField _ hfield
  exact ((Ideal.span_singleton_prime hf.ne_zero).1 hmax.isPrime).irreducible

end

/-! ## Orders, in the kernel -/

/-- The order check: `g^N = 1` and `g^(N/q) ≠ 1` for the given primes, whose product is `N`. -/
def ordOk (n m : ℕ) (taps : List ℕ) (g N : ℕ) (L : List ℕ) : Bool :=
  sqOk n m taps n 0 1 && decide (L.prod = N) && (bPowK n m taps g N == 1) &&
    L.all fun q => !(bPowK n m taps g (N / q) == 1)

theorem ordOk_spec (f : (ZMod 2)[X]) (n m : ℕ) (taps : List ℕ) (hf : f.Monic) (hd : f.natDegree = n) (hn : 4 ≤ n)
    (hm : m < 2 ^ n) (hx : AdjoinRoot.root f ^ n = nEval (AdjoinRoot.root f) n m) (g N : ℕ) (hg : g < 2 ^ 4)
    (hN : 0 < N) (hN' : N < 2 ^ n) (L : List ℕ) (hL : ∀ q ∈ L, q.Prime) (h : ordOk n m taps g N L = true) :
    orderOf (nEval (AdjoinRoot.root f) n g) = N := by
  have := quot_charP f n hf hd (by omega)
  simp only [ordOk, Bool.and_eq_true, decide_eq_true_eq, beq_iff_eq, List.all_eq_true, Bool.not_eq_true',
    beq_eq_false_iff_ne] at h
  obtain ⟨⟨⟨h1, h2⟩, h3⟩, h4⟩ := h
  have hp := fun e he => bPowK_spec (AdjoinRoot.root f) n m taps hn hm g e hg he hx h1
  have hone := nEval_one (AdjoinRoot.root f) n (by omega)
  apply orderOf_eq_of_pow_and_pow_div_prime hN
  · rw [← (hp N hN').2, h3, hone]
  · intro p hpr hdvd
    rw [← h2, (Nat.prime_iff.1 hpr).dvd_prod_iff] at hdvd
    obtain ⟨q, hq, hpq⟩ := hdvd
    have : p = q := (Nat.prime_dvd_prime_iff_eq hpr (hL q hq)).1 hpq
    subst this
    intro h5
    have hlt : N / p < 2 ^ n := lt_of_le_of_lt (Nat.div_le_self _ _) hN'
    rw [← (hp _ hlt).2, ← hone] at h5
    exact h4 p hq (nEval_inj f n hf hd (hp _ hlt).1 (Nat.one_lt_two_pow (by omega)) h5)

end Libff
