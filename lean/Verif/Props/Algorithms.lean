import Verif.Spec.Sqrt
import Verif.Lemmas.Utils
import Verif.Props.Fp
import Verif.Props.Bigint

/-! # C08–C11: exponentiation, square roots, roots of unity -/
namespace Libff

/-! ## C08 -/

/-- C08. `power` with a multi-limb exponent is exponentiation, in every monoid. -/
theorem C08_power_bigint {K : Type*} [Monoid K] (base : K) (e : List Limb) :
    powerBigint base e = base ^ val e := powerBigint_eq base e

/-- C08. `power` with an `unsigned long` exponent. -/
theorem C08_power_ulong {K : Type*} [Monoid K] (base : K) (e : BitVec 64) :
    powerUlong base e = base ^ e.toNat := by
  rw [powerUlong, powerBigint_eq]; simp [val]

/-- C08. `power` with an `unsigned long long` exponent, for any correct squaring routine. -/
theorem C08_power_ull {K : Type*} [Monoid K] (sq : K → K) (hsq : ∀ x, sq x = x * x) (base : K)
    (e : BitVec 64) : powerUll sq base e = base ^ e.toNat := powerUll_eq sq hsq base e

/-- C08. `power` with a vector of words: the first word is the most significant one. -/
theorem C08_power_vector {K : Type*} [Monoid K] (sq : K → K) (hsq : ∀ x, sq x = x * x) (base : K)
    (e : List (BitVec 64)) : powerVec sq base e = base ^ val e.reverse := by
  rw [powerVec_eq sq hsq]
  congr 1
  have key : ∀ (e : List (BitVec 64)) (v : Nat),
      e.foldl (fun v w => v * 2 ^ 64 + w.toNat) v = v * 2 ^ (64 * e.length) + val e.reverse := by
    intro e
    induction e with
    | nil => intro v; simp
    | cons w e ih =>
      intro v
      rw [List.foldl_cons, ih, List.reverse_cons, val_append, List.length_reverse, List.length_cons,
        Nat.mul_add, Nat.pow_add]
      simp only [val]
      ring
  have := key e 0
  simpa [vecVal] using this

/-- C08. Exponentiation of stored prime-field elements is exponentiation of residues. -/
theorem C08_fp_power (P : FpParams) [Fact P.Valid] (base : Fp P) (e : List Limb) :
    Fp.toZMod (powerBigint base e) = Fp.toZMod base ^ val e := by
  rw [powerBigint_eq]; exact map_pow Fp.equivZMod base (val e)

example : powerBigint (3 : Fp m127) (limbsOf 2 (2 ^ 70 + 5)) = 3 ^ (2 ^ 70 + 5) := by
  rw [C08_power_bigint]; rfl
example : powerVec (fun x => x * x) (3 : ZMod 7) [1, 0] = 3 ^ 2 ^ 64 := by
  rw [C08_power_vector _ (fun _ => rfl)]; rfl

/-! ## C09, C10 -/

section Sqrt
set_option linter.unusedSectionVars false
variable {K : Type*} [Field K] [Fintype K] [DecidableEq K]

theorem SqrtConsts.Valid.charNe {C : SqrtConsts K} (hC : C.Valid) : ringChar K ≠ 2 := by
  intro h
  have h1 := FiniteField.even_card_of_char_two h
  have h2 := hC.card
  obtain ⟨k, hk⟩ : ∃ k, C.s = k + 1 := ⟨C.s - 1, by have := hC.s_pos; omega⟩
  rw [hk, Nat.pow_succ, Nat.mul_assoc, Nat.mul_left_comm] at h2
  omega

theorem SqrtConsts.Valid.half {C : SqrtConsts K} (hC : C.Valid) :
    Fintype.card K / 2 = val C.t * 2 ^ (C.s - 1) := by
  have h2 := hC.card
  obtain ⟨k, hk⟩ : ∃ k, C.s = k + 1 := ⟨C.s - 1, by have := hC.s_pos; omega⟩
  rw [hk, Nat.pow_succ, Nat.mul_assoc, Nat.mul_left_comm] at h2
  rw [hk, Nat.add_sub_cancel, Nat.mul_comm]
  omega

theorem SqrtConsts.Valid.nqr_ne {C : SqrtConsts K} (hC : C.Valid) : C.nqr ≠ 0 := by
  intro h
  apply hC.nqr
  rw [h]; exact ⟨0, by simp⟩

theorem SqrtConsts.Valid.z {C : SqrtConsts K} (hC : C.Valid) : C.nqrToT ^ 2 ^ (C.s - 1) = -1 := by
  rw [hC.nqrToT, ← pow_mul, ← hC.half]
  rcases FiniteField.pow_dichotomy hC.charNe hC.nqr_ne with h | h
  · exact absurd ((FiniteField.isSquare_iff hC.charNe hC.nqr_ne).2 h) hC.nqr
  · exact h

theorem SqrtConsts.Valid.notEven {C : SqrtConsts K} (hC : C.Valid) : bigintIsEven C.t = false := by
  have h1 := hC.t_odd
  cases h : bigintIsEven C.t with
  | false => rfl
  | true =>
    have := (C06_conversions 1 0 C.t 0).2.1.1 h
    omega

theorem ts_start {C : SqrtConsts K} (hC : C.Valid) (a : K) :
    let w := powerBigint a C.tMinus1Over2
    (a * w) * w = a ^ val C.t ∧ (a * w) * (a * w) = a * ((a * w) * w) := by
  simp only
  rw [powerBigint_eq, hC.t_odd]
  constructor <;> ring

theorem tonelliShanks_start {C : SqrtConsts K} (hC : C.Valid) (debug : Bool) (sq : K → K) (fuel : Nat)
    (a : K) : tonelliShanks debug sq C fuel a =
      if a = 0 then .ok (some 0)
      else
        if debug = true ∧ tsSquare sq (C.s - 1)
            (a * powerBigint a C.tMinus1Over2 * powerBigint a C.tMinus1Over2) ≠ 1 then .abort
        else .ok (tsLoop sq fuel fuel C.s C.nqrToT
            (a * powerBigint a C.tMinus1Over2 * powerBigint a C.tMinus1Over2)
            (a * powerBigint a C.tMinus1Over2)) := by
  unfold tonelliShanks
  rw [if_neg (by have := hC.s_pos; omega), hC.notEven, if_neg (by simp), if_neg hC.nqr_ne]

/-- C09. For every square, the search returns (within `s` rounds, whatever larger bound is given), and
the result is a square root. Holds in release and debug builds. -/
theorem C09_sqrt_of_square (C : SqrtConsts K) (hC : C.Valid) (debug : Bool) (sq : K → K)
    (hsq : ∀ x, sq x = x * x) (a : K) (ha : IsSquare a) :
    ∃ x, x * x = a ∧ ∀ fuel, C.s ≤ fuel → tonelliShanks debug sq C fuel a = .ok (some x) := by
  by_cases h0 : a = 0
  · refine ⟨0, by simp [h0], fun fuel _ => ?_⟩
    rw [tonelliShanks_start hC]
    rw [if_pos h0]
  · obtain ⟨h1, h2⟩ := ts_start hC a
    have hb : (a * powerBigint a C.tMinus1Over2 * powerBigint a C.tMinus1Over2) ^ 2 ^ (C.s - 1) = 1 := by
      rw [h1, ← pow_mul, ← hC.half]
      exact (FiniteField.isSquare_iff hC.charNe h0).1 ha
    obtain ⟨y, hy, hl⟩ := tsLoop_square sq hsq a C.s C.nqrToT _ _ hC.s_pos h2 hb hC.z
    refine ⟨y, hy, fun fuel hf => ?_⟩
    rw [tonelliShanks_start hC, if_neg h0, if_neg, hl fuel fuel hf hf]
    rw [tsSquare_eq sq hsq, hb]
    simp

/-- C10. For every non-square the release build never returns, whatever the number of rounds: in
particular it never returns a wrong root. -/
theorem C10_diverges_on_nonsquare (C : SqrtConsts K) (hC : C.Valid) (sq : K → K)
    (hsq : ∀ x, sq x = x * x) (a : K) (ha : ¬ IsSquare a) (fuel : Nat) :
    tonelliShanks false sq C fuel a = .ok none := by
  have h0 : a ≠ 0 := by rintro rfl; exact ha ⟨0, by simp⟩
  rw [tonelliShanks_start hC, if_neg h0, if_neg (by simp)]
  obtain ⟨h1, h2⟩ := ts_start hC a
  congr 1
  apply tsLoop_nonsquare sq hsq (Ring.neg_one_ne_one_of_char_ne_two hC.charNe) _ _ hC.s_pos
  · rw [h1, ← pow_mul, ← hC.half]
    rcases FiniteField.pow_dichotomy hC.charNe h0 with h | h
    · exact absurd ((FiniteField.isSquare_iff hC.charNe h0).2 h) ha
    · exact h
  · have := hC.z
    obtain ⟨k, hk⟩ : ∃ k, C.s = k + 1 := ⟨C.s - 1, by have := hC.s_pos; omega⟩
    rw [hk, Nat.add_sub_cancel] at this
    rw [hk, Nat.pow_succ, pow_mul, this]; norm_num

/-- C10. The debug build stops with an assertion failure on every non-square. -/
theorem C10_debug_aborts_on_nonsquare (C : SqrtConsts K) (hC : C.Valid) (sq : K → K)
    (hsq : ∀ x, sq x = x * x) (a : K) (ha : ¬ IsSquare a) (fuel : Nat) :
    tonelliShanks true sq C fuel a = .abort := by
  have h0 : a ≠ 0 := by rintro rfl; exact ha ⟨0, by simp⟩
  rw [tonelliShanks_start hC, if_neg h0]
  obtain ⟨h1, h2⟩ := ts_start hC a
  rw [if_pos]
  refine ⟨rfl, ?_⟩
  rw [tsSquare_eq sq hsq, h1, ← pow_mul, ← hC.half]
  intro h
  exact ha ((FiniteField.isSquare_iff hC.charNe h0).2 h)

/-- C10. Whatever the input and the number of rounds, a returned value is a square root. -/
theorem C10_returned_root_correct (C : SqrtConsts K) (hC : C.Valid) (debug : Bool) (sq : K → K)
    (hsq : ∀ x, sq x = x * x) (a x : K) (fuel : Nat) (hf : C.s ≤ fuel)
    (h : tonelliShanks debug sq C fuel a = .ok (some x)) : x * x = a := by
  by_cases ha : IsSquare a
  · obtain ⟨y, hy, hl⟩ := C09_sqrt_of_square C hC debug sq hsq a ha
    rw [hl fuel hf] at h
    simp only [Outcome.ok.injEq, Option.some.injEq] at h
    rw [← h]; exact hy
  · cases debug with
    | true => rw [C10_debug_aborts_on_nonsquare C hC sq hsq a ha fuel] at h; simp at h
    | false => rw [C10_diverges_on_nonsquare C hC sq hsq a ha fuel] at h; simp at h

end Sqrt

/-- 17 is prime. -/
local instance instPrime17' : Fact (Nat.Prime 17) := ⟨by decide⟩

/-- Constants for the field with 17 elements: 17 - 1 = 2^4 * 1, 3 is a non-residue. -/
def sqrt17 : SqrtConsts (ZMod 17) := ⟨4, [1], [0], 3, 3⟩

theorem sqrt17_valid : sqrt17.Valid :=
  { s_pos := by decide, card := by decide, t_odd := by decide, nqr := by decide, nqrToT := by decide }

example : ∃ x : ZMod 17, x * x = 13 ∧ ∀ fuel, 4 ≤ fuel →
    tonelliShanks false (fun x => x * x) sqrt17 fuel 13 = .ok (some x) :=
  C09_sqrt_of_square sqrt17 sqrt17_valid false _ (fun _ => rfl) 13 ⟨8, by decide⟩
example (fuel : Nat) : tonelliShanks false (fun x => x * x) sqrt17 fuel 5 = .ok none :=
  C10_diverges_on_nonsquare sqrt17 sqrt17_valid _ (fun _ => rfl) 5 (by decide) fuel

/-! ## C11 -/

/-- C11. When `root_of_unity` has order `2^s`, `get_root_of_unity(n)` for a power of two `n = 2^k` with
`k ≤ s` and `k < 32` returns an element of order exactly `n`. -/
theorem C11_order {K : Type*} [Monoid K] (s : Nat) (root : K) (hroot : orderOf root = 2 ^ s)
    (k : Nat) (hk : k ≤ s) (hk32 : k < 32) :
    ∃ w, getRootOfUnity s root (BitVec.ofNat 64 (2 ^ k)) = .ok w ∧ orderOf w = 2 ^ k := by
  have hlt : 2 ^ k < 2 ^ 64 := Nat.pow_lt_pow_right (by norm_num) (by omega)
  have hl : log2 (BitVec.ofNat 64 (2 ^ k)) = k := by
    rw [log2_eq_clog, BitVec.toNat_ofNat, Nat.mod_eq_of_lt hlt, Nat.clog_pow _ _ (by norm_num)]
  refine ⟨squareTimes (s - k) root, ?_, ?_⟩
  · unfold getRootOfUnity
    simp only [hl]
    rw [if_neg (by omega), if_neg (by simp), if_neg (by omega)]
  · rw [squareTimes_eq, orderOf_pow' _ (by positivity), hroot,
      Nat.gcd_eq_right (Nat.pow_dvd_pow 2 (by omega)), Nat.pow_div (by omega) (by norm_num)]
    congr 1; omega

/-- C11. Anything that is returned has exactly the requested order (`n = 0` and non-powers included:
nothing is returned for them). -/
theorem C11_never_wrong_order {K : Type*} [Monoid K] (s : Nat) (root : K)
    (hroot : orderOf root = 2 ^ s) (n : BitVec 64) (w : K) (h : getRootOfUnity s root n = .ok w) :
    orderOf w = n.toNat ∧ ∃ k ≤ s, n.toNat = 2 ^ k := by
  have h' := h
  unfold getRootOfUnity at h
  simp only at h
  split_ifs at h with h1 h2 h3
  have hlt : 2 ^ log2 n < 2 ^ 64 := Nat.pow_lt_pow_right (by norm_num) (by omega)
  have hn : n = BitVec.ofNat 64 (2 ^ log2 n) := by simpa using h2
  have hn' : n.toNat = 2 ^ log2 n := by
    have := congrArg BitVec.toNat hn
    rwa [BitVec.toNat_ofNat, Nat.mod_eq_of_lt hlt] at this
  obtain ⟨w', h4, h5⟩ := C11_order s root hroot (log2 n) (by omega) (by omega)
  rw [← hn, h'] at h4
  simp only [Outcome.ok.injEq] at h4
  exact ⟨by rw [h4, h5, hn'], log2 n, by omega, hn'⟩

/-- C11. Every `n ≤ 2^31` that is not a power of two, or exceeds `2^s`, is rejected. -/
theorem C11_rejects {K : Type*} [Monoid K] (s : Nat) (root : K) (n : BitVec 64)
    (hn : n.toNat ≤ 2 ^ 31) (hbad : (¬ ∃ k, n.toNat = 2 ^ k) ∨ 2 ^ s < n.toNat) :
    getRootOfUnity s root n = .abort := by
  have hl : log2 n < 32 := by
    rw [log2_eq_clog]
    exact Nat.lt_succ_of_le ((Nat.clog_le_iff_le_pow (by norm_num)).2 hn)
  unfold getRootOfUnity
  simp only
  rw [if_neg (by omega)]
  have hlt : 2 ^ log2 n < 2 ^ 64 := Nat.pow_lt_pow_right (by norm_num) (by omega)
  by_cases h2 : n ≠ BitVec.ofNat 64 (2 ^ log2 n)
  · rw [if_pos h2]
  · rw [if_neg h2]
    have hn : n = BitVec.ofNat 64 (2 ^ log2 n) := by simpa using h2
    have hn' : n.toNat = 2 ^ log2 n := by
      have := congrArg BitVec.toNat hn
      rwa [BitVec.toNat_ofNat, Nat.mod_eq_of_lt hlt] at this
    rcases hbad with h | h
    · exact absurd ⟨_, hn'⟩ h
    · rw [if_pos]
      rw [hn'] at h
      exact (Nat.pow_lt_pow_iff_right (by norm_num)).1 h

/-- C11, counterexample to the full claim: for every `n > 2^31` the 32-bit shift `1u << log2(n)` is
undefined, although `n = 2^32` is a legitimate size for a field with `s ≥ 32` (bls12-381 and mnt4
scalar fields). -/
theorem C11_large_n_undefined {K : Type*} [Monoid K] (s : Nat) (root : K) (n : BitVec 64)
    (hn : 2 ^ 31 < n.toNat) : getRootOfUnity s root n = .ub := by
  unfold getRootOfUnity
  simp only
  rw [if_pos]
  rw [log2_eq_clog]
  exact (Nat.lt_clog_iff_pow_lt (by norm_num)).2 hn

example : orderOf (3 : ZMod 17) = 2 ^ 4 :=
  orderOf_eq_prime_pow (by decide) (by decide)
example : getRootOfUnity 32 (3 : ZMod 17) (BitVec.ofNat 64 (2 ^ 32)) = .ub :=
  C11_large_n_undefined _ _ _ (by decide)

end Libff
