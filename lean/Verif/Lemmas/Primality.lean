import Mathlib.FieldTheory.Finite.Basic
import Mathlib.Data.Nat.Factorization.Basic
import Mathlib.Tactic.NormNum.Prime

/-!
# Pocklington certificates, checked by the kernel

`powMod` is exponentiation by squaring on natural numbers; the kernel evaluates it with its built-in
multiplication and remainder.
-/
namespace Libff

/-- `b ^ e % m`, `e` being read from its low bit; `fuel` bounds the number of bits. -/
def powMod (m : Nat) : Nat → Nat → Nat → Nat
  | 0, _, _ => 1 % m
  | fuel + 1, b, e =>
    if e = 0 then 1 % m
    else
      let r := powMod m fuel (b * b % m) (e / 2)
      if e % 2 = 1 then b * r % m else r

theorem powMod_eq (m fuel b e : Nat) (h : e < 2 ^ fuel) : powMod m fuel b e = b ^ e % m := by
  induction fuel generalizing b e with
  | zero => simp at h; simp [powMod, h]
  | succ fuel ih =>
    unfold powMod
    split
    · rename_i h0; simp [h0]
    · have h2 : e / 2 < 2 ^ fuel := by rw [pow_succ] at h; omega
      simp only [ih _ _ h2]
      have hsq : (b * b % m) ^ (e / 2) % m = b ^ (2 * (e / 2)) % m := by
        rw [← Nat.pow_mod, pow_mul, pow_two]
      rw [hsq]
      split
      · rename_i h1
        rw [Nat.mul_mod_mod, ← pow_succ']
        congr 2; omega
      · congr 2; omega

/-- `ℓ^k ∣ o` if `o ∣ n`, `o ∤ n / ℓ` and `ℓ^k ∣ n`. -/
theorem prime_pow_dvd_order {o n ℓ k : Nat} (hℓ : ℓ.Prime) (hn : n ≠ 0) (h1 : o ∣ n) (h2 : ¬ o ∣ n / ℓ)
    (hk : ℓ ^ k ∣ n) : ℓ ^ k ∣ o := by
  obtain ⟨m, rfl⟩ := h1
  have hm : ¬ ℓ ∣ m := by
    rintro ⟨m', rfl⟩
    apply h2
    rw [show o * (ℓ * m') = ℓ * (o * m') by ring, Nat.mul_div_cancel_left _ hℓ.pos]
    exact dvd_mul_right _ _
  have hco : Nat.Coprime (ℓ ^ k) m := Nat.Coprime.pow_left k ((Nat.Prime.coprime_iff_not_dvd hℓ).2 hm)
  exact hco.dvd_of_dvd_mul_right hk

/-- Pocklington's criterion: `F ∣ N - 1`, `F² > N`, and for every prime divisor `ℓ` of `F` a base `a` with
`a^(N-1) = 1` and `a^((N-1)/ℓ) - 1` prime to `N`. -/
theorem pocklington (N F : Nat) (hN : 1 < N) (hF : F ∣ N - 1) (hFN : N < F * F)
    (h : ∀ ℓ, ℓ.Prime → ℓ ∣ F → ∃ a, a ^ (N - 1) % N = 1 ∧ Nat.gcd (a ^ ((N - 1) / ℓ) % N + (N - 1)) N = 1) :
    N.Prime := by
  by_contra hnp
  have hq := Nat.minFac_prime (n := N) (by omega)
  have hqN := Nat.minFac_dvd N
  have hqle : N.minFac ^ 2 ≤ N := Nat.minFac_sq_le_self (by omega) hnp
  set q := N.minFac with hqdef
  have : Fact q.Prime := ⟨hq⟩
  have key : F ∣ q - 1 := by
    rw [Nat.dvd_iff_prime_pow_dvd_dvd]
    intro ℓ k hℓ hk
    rcases Nat.eq_zero_or_pos k with rfl | hk0
    · simp
    obtain ⟨a, h1, h2⟩ := h ℓ hℓ ((dvd_pow_self ℓ (by omega)).trans hk)
    have e1 : (a : ZMod q) ^ (N - 1) = 1 := by
      have h3 : a ^ (N - 1) % q = 1 % q := by
        rw [← Nat.mod_mod_of_dvd _ hqN, h1]
      have h4 := (ZMod.natCast_eq_natCast_iff' _ _ q).2 h3
      push_cast at h4
      exact h4
    have e2 : (a : ZMod q) ^ ((N - 1) / ℓ) ≠ 1 := by
      intro e
      have h3 : q ∣ a ^ ((N - 1) / ℓ) % N + (N - 1) := by
        rw [← ZMod.natCast_eq_zero_iff]
        have h5 : ((a ^ ((N - 1) / ℓ) % N : ℕ) : ZMod q) = 1 := by
          rw [← e, ← Nat.cast_pow, ZMod.natCast_eq_natCast_iff']
          exact Nat.mod_mod_of_dvd _ hqN
        have h6 : ((N - 1 : ℕ) : ZMod q) = -1 := by
          rw [Nat.cast_sub (by omega), (ZMod.natCast_eq_zero_iff N q).2 hqN]
          simp
        rw [Nat.cast_add, h5, h6]; ring
      have h7 := Nat.dvd_gcd h3 hqN
      rw [h2] at h7
      exact hq.one_lt.ne' (Nat.dvd_one.1 h7)
    have ha : (a : ZMod q) ≠ 0 := by
      intro h0
      rw [h0, zero_pow (by omega)] at e1
      exact zero_ne_one e1
    have o1 : orderOf (a : ZMod q) ∣ N - 1 := orderOf_dvd_of_pow_eq_one e1
    have o2 : ¬ orderOf (a : ZMod q) ∣ (N - 1) / ℓ := fun hd => e2 (orderOf_dvd_iff_pow_eq_one.1 hd)
    have o3 : orderOf (a : ZMod q) ∣ q - 1 := orderOf_dvd_of_pow_eq_one (ZMod.pow_card_sub_one_eq_one ha)
    exact (prime_pow_dvd_order hℓ (by omega) o1 o2 (hk.trans hF)).trans o3
  have h1 : F ≤ q - 1 := Nat.le_of_dvd (by have := hq.one_lt; omega) key
  have h2 : F ≤ q := by omega
  have h3 : F * F ≤ q ^ 2 := by rw [pow_two]; exact Nat.mul_le_mul h2 h2
  omega

/-- A certificate entry: a prime, its exponent in `F`, and a base. -/
abbrev PockEntry := Nat × Nat × Nat

/-- The computable check of one entry. -/
def pockEntryOk (N bits : Nat) (e : PockEntry) : Bool :=
  powMod N bits e.2.2 (N - 1) == 1 && Nat.gcd (powMod N bits e.2.2 ((N - 1) / e.1) + (N - 1)) N == 1

/-- The computable check of a certificate, apart from the primality of its entries. -/
def pockOk (N bits : Nat) (c : List PockEntry) : Bool :=
  let F := (c.map fun e => e.1 ^ e.2.1).prod
  decide (1 < N) && decide (N - 1 < 2 ^ bits) && decide ((N - 1) % F = 0) && decide (N < F * F) &&
    c.all (pockEntryOk N bits)

theorem pockOk_prime (N bits : Nat) (c : List PockEntry) (hc : pockOk N bits c = true) (hp : ∀ e ∈ c, e.1.Prime) :
    N.Prime := by
  simp only [pockOk, Bool.and_eq_true, decide_eq_true_eq, List.all_eq_true] at hc
  obtain ⟨⟨⟨⟨h1, h2⟩, h3⟩, h4⟩, h5⟩ := hc
  refine pocklington N _ h1 (Nat.dvd_of_mod_eq_zero h3) h4 fun ℓ hℓ hd => ?_
  rw [(Nat.prime_iff.1 hℓ).dvd_prod_iff] at hd
  obtain ⟨x, hx, hdx⟩ := hd
  obtain ⟨e, he, rfl⟩ := List.mem_map.1 hx
  have he1 : ℓ = e.1 := (Nat.prime_dvd_prime_iff_eq hℓ (hp e he)).1 (hℓ.dvd_of_dvd_pow hdx)
  subst he1
  have h6 := h5 e he
  simp only [pockEntryOk, Bool.and_eq_true, beq_iff_eq] at h6
  have h7 : (N - 1) / e.1 < 2 ^ bits := lt_of_le_of_lt (Nat.div_le_self _ _) h2
  rw [powMod_eq _ _ _ _ h2, powMod_eq _ _ _ _ h7] at h6
  exact ⟨e.2.2, h6⟩

end Libff
