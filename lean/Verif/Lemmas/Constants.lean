import Verif.Lemmas.Primes
import Verif.Spec.Constants
import Mathlib.NumberTheory.LegendreSymbol.Basic

/-! # A computable check of `PrimeField.Consistent` -/
namespace Libff

/-- `fs` is the factorisation of `p - 1` into primes and exponents. -/
def PrimeField.check (D : PrimeField) (fs : List (Nat × Nat)) : Bool :=
  let p := D.P.p
  decide D.P.Valid && decide (2 ^ (D.numBits - 1) ≤ p) && decide (p < 2 ^ D.numBits) &&
  decide (64 * (D.P.n - 1) < D.numBits) && decide (D.numBits ≤ 64 * D.P.n) &&
  decide (2 * D.euler + 1 = p) && decide (0 < D.s) && decide (p = 2 ^ D.s * D.t + 1) &&
  decide (D.t = 2 * D.tMinus1Over2 + 1) &&
  decide (p - 1 = (fs.map fun e => e.1 ^ e.2).prod) &&
  decide (powMod p D.numBits D.multGen (p - 1) = 1) &&
  fs.all (fun e => decide (powMod p D.numBits D.multGen ((p - 1) / e.1) ≠ 1)) &&
  decide (powMod p D.numBits D.rootOfUnity (2 ^ (D.s - 1)) = p - 1) &&
  decide (powMod p D.numBits D.nqr D.euler = p - 1) &&
  decide (D.nqrToT = powMod p D.numBits D.nqr D.t)

theorem zmod_pow_eq_one_of_powMod {p fuel b e : Nat} (he : e < 2 ^ fuel) (h : powMod p fuel b e = 1) :
    (b : ZMod p) ^ e = 1 := by
  rw [powMod_eq _ _ _ _ he] at h
  have := (ZMod.natCast_mod (b ^ e) p).symm
  rw [h] at this
  push_cast at this
  exact this

theorem zmod_pow_ne_one_of_powMod {p fuel b e : Nat} (hp : 1 < p) (he : e < 2 ^ fuel)
    (h : powMod p fuel b e ≠ 1) : (b : ZMod p) ^ e ≠ 1 := by
  rw [powMod_eq _ _ _ _ he] at h
  intro h1
  apply h
  have h2 : ((b ^ e : ℕ) : ZMod p) = ((1 : ℕ) : ZMod p) := by push_cast; exact h1
  rw [ZMod.natCast_eq_natCast_iff', Nat.mod_eq_of_lt hp] at h2
  exact h2

theorem zmod_pow_eq_neg_one_of_powMod {p fuel b e : Nat} (hp : 1 < p) (he : e < 2 ^ fuel)
    (h : powMod p fuel b e = p - 1) : (b : ZMod p) ^ e = -1 := by
  rw [powMod_eq _ _ _ _ he] at h
  have := (ZMod.natCast_mod (b ^ e) p).symm
  rw [h, Nat.cast_sub hp.le] at this
  push_cast at this
  simpa using this

theorem PrimeField.check_sound (D : PrimeField) (fs : List (Nat × Nat)) (hp : D.P.p.Prime)
    (h : D.check fs = true) (hfs : ∀ e ∈ fs, e.1.Prime) : D.Consistent := by
  simp only [PrimeField.check, Bool.and_eq_true, decide_eq_true_eq, List.all_eq_true] at h
  obtain ⟨⟨⟨⟨⟨⟨⟨⟨⟨⟨⟨⟨⟨⟨h1, h2⟩, h3⟩, h4⟩, h5⟩, h6⟩, h7⟩, h8⟩, h9⟩, h10⟩, h11⟩, h12⟩, h13⟩, h14⟩, h15⟩ := h
  have hlt : 1 < D.P.p := hp.one_lt
  have : Fact D.P.p.Prime := ⟨hp⟩
  have h2p : (2 : ℕ) < D.P.p := by
    have : 1 ≤ 2 ^ D.s * D.t := by
      rcases Nat.eq_zero_or_pos (2 ^ D.s * D.t) with h0 | h0 <;> omega
    have : 2 ∣ 2 ^ D.s * D.t := (dvd_pow_self 2 (by omega)).mul_right _
    omega
  have hneg : (-1 : ZMod D.P.p) ≠ 1 := by
    have : Fact (2 < D.P.p) := ⟨h2p⟩
    exact ZMod.neg_one_ne_one
  have hs : 2 ^ D.s ≤ 2 ^ D.s * D.t := by
    rcases Nat.eq_zero_or_pos D.t with h0 | h0
    · omega
    · exact Nat.le_mul_of_pos_right _ h0
  have hs1 : 2 ^ D.s = 2 * 2 ^ (D.s - 1) := by
    rw [← pow_succ']; congr 1; omega
  refine ⟨h1, hp, h2, h3, ⟨h4, h5⟩, h6, h7, h8, h9, ?_, ?_, ?_, ?_⟩
  · refine orderOf_eq_of_pow_and_pow_div_prime (by omega)
      (zmod_pow_eq_one_of_powMod (by omega) h11) fun ℓ hℓ hd => ?_
    have hd' := hd
    rw [h10, (Nat.prime_iff.1 hℓ).dvd_prod_iff] at hd'
    obtain ⟨x, hx, hdx⟩ := hd'
    obtain ⟨e, he, rfl⟩ := List.mem_map.1 hx
    have he1 : ℓ = e.1 := (Nat.prime_dvd_prime_iff_eq hℓ (hfs e he)).1 (hℓ.dvd_of_dvd_pow hdx)
    subst he1
    exact zmod_pow_ne_one_of_powMod hlt
      (lt_of_le_of_lt (Nat.div_le_self _ _) (by omega)) (h12 e he)
  · have h13' := zmod_pow_eq_neg_one_of_powMod hlt (by omega) h13
    have e1 : D.s = (D.s - 1) + 1 := by omega
    rw [e1]
    refine orderOf_eq_prime_pow (p := 2) ?_ ?_
    · rw [h13']; exact hneg
    · rw [pow_succ, pow_mul, h13']; ring
  · intro hsq
    have h14' := zmod_pow_eq_neg_one_of_powMod hlt (by omega) h14
    rcases eq_or_ne (D.nqr : ZMod D.P.p) 0 with h0 | h0
    · rw [h0, zero_pow (by omega)] at h14'
      have : (1 : ZMod D.P.p) = 0 := by
        rw [← neg_neg (1 : ZMod D.P.p), ← h14', neg_zero]
      exact one_ne_zero this
    · have := (ZMod.euler_criterion D.P.p h0).1 hsq
      have e2 : D.P.p / 2 = D.euler := by omega
      rw [e2, h14'] at this
      exact hneg this
  · rw [h15, powMod_eq _ _ _ _ (by rw [hs1] at h8; nlinarith [Nat.one_le_two_pow (n := D.s - 1)])]
    rw [ZMod.natCast_mod]; push_cast; rfl

end Libff
