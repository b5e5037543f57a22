import Verif.Lemmas.AteSetup
import Verif.Lemmas.MulByQ
import Mathlib.FieldTheory.Finite.Basic
import Mathlib.Algebra.CharP.CharAndCard

/-!
# The conditions of the ate pairing for sextic twists

Everything follows from `w2³ = w3² = ξ` and the sizes of the fields.
-/
namespace Libff
open WeierstrassCurve Affine

section
variable {K T M L : Type*} [Field K] [Field T] [Field M] [Field L] [Fintype T] [Fintype M] [Fintype L] {p n E : ℕ}

theorem exists_frob (hp : p.Prime) (hL : Fintype.card L = p ^ n) : ∃ σ : L →+* L, ∀ x, σ x = x ^ p := by
  have := Fact.mk hp
  have := charP_of_card_eq_prime_pow hL
  exact ⟨frobenius L p, fun x => rfl⟩

theorem two_ne_of_card (hp : p.Prime) (h2 : p ≠ 2) (hL : Fintype.card L = p ^ n) : (2 : L) ≠ 0 := by
  have := Fact.mk hp
  have := charP_of_card_eq_prime_pow hL
  intro h
  have := (CharP.cast_eq_zero_iff L p 2).1 (by exact_mod_cast h)
  exact h2 ((Nat.prime_dvd_prime_iff_eq hp Nat.prime_two).1 this)

theorem three_ne_of_card (hp : p.Prime) (h2 : p ≠ 3) (hL : Fintype.card L = p ^ n) : (3 : L) ≠ 0 := by
  have := Fact.mk hp
  have := charP_of_card_eq_prime_pow hL
  intro h
  have := (CharP.cast_eq_zero_iff L p 3).1 (by exact_mod_cast h)
  exact h2 ((Nat.prime_dvd_prime_iff_eq hp Nat.prime_three).1 this)

/-- Elements of a subfield are killed. -/
theorem pow_E_of_subfield (φ : M →+* L) (h : Fintype.card M - 1 ∣ E) {m : M} (hm : m ≠ 0) : φ m ^ E = 1 := by
  obtain ⟨k, rfl⟩ := h
  rw [← map_pow, pow_mul, FiniteField.pow_card_sub_one_eq_one m hm, one_pow, map_one]

theorem unit_of_card {r : ℕ} (h : Fintype.card L - 1 ∣ E * r) {x : L} (hx : x ≠ 0) : (x ^ E) ^ r = 1 := by
  obtain ⟨k, hk⟩ := h
  rw [← pow_mul, hk, pow_mul, FiniteField.pow_card_sub_one_eq_one x hx, one_pow]

theorem root_of_dvd (h : 4 ∣ E) {c : L} (hc : c ^ 4 = 1) : c ^ E = 1 := by
  obtain ⟨k, rfl⟩ := h
  rw [pow_mul, hc, one_pow]

/-- `w3` generates a subfield with `p⁴` elements. -/
theorem w3_pow (hp : p.Prime) (hp2 : p ≠ 2) (τ : T →+* L) (hT : Fintype.card T = p ^ 2) {ξ : T} (hξ : ξ ≠ 0) {w3 : L}
    (h3 : w3 * w3 = τ ξ) : w3 ^ p ^ 4 = w3 := by
  obtain ⟨k, hk⟩ : ∃ k, p = 2 * k + 1 := hp.odd_of_ne_two hp2
  have h1 : p ^ 4 = 2 * ((p ^ 2 - 1) * (2 * k * (k + 1) + 1)) + 1 := by
    have : p ^ 2 - 1 = 4 * k * (k + 1) := by
      have : p ^ 2 = 4 * k * (k + 1) + 1 := by rw [hk]; ring
      omega
    rw [this, hk]; ring
  rw [h1, pow_succ, pow_mul, pow_two, h3, ← map_pow, pow_mul, ← hT, FiniteField.pow_card_sub_one_eq_one ξ hξ, one_pow, map_one, one_mul]

/-- Elements of that subfield are killed. -/
theorem kill4 (hp : p.Prime) (hp2 : p ≠ 2) (τ : T →+* L) (hT : Fintype.card T = p ^ 2) (hL : Fintype.card L = p ^ n) {ξ : T}
    (hξ : ξ ≠ 0) {w3 : L} (h3 : w3 * w3 = τ ξ) (hE : p ^ 4 - 1 ∣ E) {s t : T} (hne : τ s + τ t * w3 ≠ 0) : (τ s + τ t * w3) ^ E = 1 := by
  have := Fact.mk hp
  have := charP_of_card_eq_prime_pow hL
  have hT4 : ∀ s : T, s ^ p ^ 4 = s := by
    intro s
    have : p ^ 4 = p ^ 2 * p ^ 2 := by ring
    rw [this, pow_mul, ← hT, FiniteField.pow_card, FiniteField.pow_card]
  have h : (τ s + τ t * w3) ^ p ^ 4 = τ s + τ t * w3 := by
    rw [add_pow_char_pow, mul_pow, w3_pow hp hp2 τ hT hξ h3, ← map_pow, ← map_pow, hT4, hT4]
  generalize τ s + τ t * w3 = y at h hne
  have h1 : y ^ (p ^ 4 - 1) = 1 := by
    have : p ^ 4 = (p ^ 4 - 1) + 1 := by have := Nat.pow_pos (n := 4) hp.pos; omega
    rw [this, pow_succ] at h
    exact mul_right_cancel₀ hne (by rw [h, one_mul])
  obtain ⟨k, rfl⟩ := hE
  rw [pow_mul, h1, one_pow]

/-- Roots of `ξ` and the Frobenius map. -/
theorem root_frob (τ : T →+* L) {ξ : T} {d : ℕ} {w : L} (h : w ^ d = τ ξ) (hd : d ∣ p - 1) (hp : 1 ≤ p) :
    w ^ p = w * τ (ξ ^ ((p - 1) / d)) := by
  obtain ⟨k, hk⟩ := hd
  have hp' : p = d * k + 1 := by omega
  by_cases hd0 : d = 0
  · subst hd0
    rw [hp']; simp
  · have : (p - 1) / d = k := by rw [hk, Nat.mul_div_cancel_left _ (Nat.pos_of_ne_zero hd0)]
    rw [this, map_pow, ← h, ← pow_mul, ← hk, ← pow_succ', Nat.sub_add_cancel hp]

theorem root_frob_inv (τ : T →+* L) {ξ q : T} {d : ℕ} {w c : L} (h : w ^ d = τ ξ) (hd : d ∣ p - 1) (hp : 1 ≤ p)
    (hc : c * w = 1) (hq : q * ξ ^ ((p - 1) / d) = 1) : c ^ p = c * τ q := by
  have e := root_frob τ h hd hp
  have h1 : c ^ p * w ^ p = 1 := by rw [← mul_pow, hc, one_pow]
  have h2 : c * τ q * w ^ p = 1 := by
    rw [e, show c * τ q * (w * τ (ξ ^ ((p - 1) / d))) = (c * w) * (τ q * τ (ξ ^ ((p - 1) / d))) by ring, hc, ← map_mul, hq, map_one, one_mul]
  have : w ^ p ≠ 0 := fun h0 => by rw [h0, mul_zero] at h1; exact zero_ne_one h1
  exact mul_right_cancel₀ this (h1.trans h2.symm)
end

theorem sw_Δ_ne {T : Type*} [Field T] {b : T} (h2 : (2 : T) ≠ 0) (h3 : (3 : T) ≠ 0) (hb : b ≠ 0) : (sw 0 b).Δ ≠ 0 := by
  rw [sw_disc, show (-16 : T) * (4 * 0 ^ 3 + 27 * b ^ 2) = -(2 ^ 4 * 3 ^ 3 * b ^ 2) by ring]
  exact neg_ne_zero.2 (mul_ne_zero (mul_ne_zero (pow_ne_zero _ h2) (pow_ne_zero _ h3)) (pow_ne_zero _ hb))

/-- What `mul_by_q` does to the generator, from C54. -/
theorem Jac.gen_of_endo {T : Type} [Field T] [DecidableEq T] [Squared T] [LawfulSquared T] [InverseO T] [LawfulInverse T] {b : T}
    (h2 : (2 : T) ≠ 0) (hΔ : (sw 0 b).Δ ≠ 0) {one : Coord3 T} {qm : List Limb} {m : Coord3 T → Coord3 T} {p : ℕ} {qX qY : T}
    (hE : TwistEndo Jac.ops Jac.eq (Jac.isWellFormed b) (fun p => Jac.isWellFormed b p = true) one qm m)
    {g : (sw 0 b).Point} (hone : JacRep one g) (hZ : one.Z = 1) (hm : ∀ X Y, m ⟨X, Y, 1⟩ = ⟨qX * X ^ p, qY * Y ^ p, 1⟩)
    (hq : val qm = p) (x y : T) (h : (sw 0 b).Nonsingular x y) (hg : g = .some x y h) :
    ∃ h', p • g = .some (qX * x ^ p) (qY * y ^ p) h' := by
  letI := Jac.ops (K := T)
  have wf : ∀ {p}, Jac.isWellFormed b p = true ↔ ∃ P : (sw 0 b).Point, JacRep p P := fun {p} => Jac.isWellFormed_iff hΔ p
  have hI : ImplementsRel (JacRep (W := sw 0 b)) := Jac.implementsRel (b := b) h2
  have v1 : val ([1] : List Limb) = 1 := rfl
  have r1 := scalarMul_rel hI hone [1]
  rw [v1, one_smul] at r1
  have w0 : Jac.isWellFormed b one = true := wf.2 ⟨_, hone⟩
  have w1 : Jac.isWellFormed b (scalarMul one [1]) = true := wf.2 ⟨_, r1⟩
  obtain ⟨P', hP'⟩ := wf.1 (hE.wellFormed w0)
  obtain ⟨P'', hP''⟩ := wf.1 (hE.wellFormed w1)
  have e1 := (Jac.eq_rep hP'' (scalarMul_rel hI hP' [1])).1 (hE.scalar w0 [1])
  have e2 := (Jac.eq_rep hP'' (scalarMul_rel hI r1 qm)).1 (hE.mul_q [1])
  rw [v1, one_smul] at e1
  rw [hq] at e2
  rw [← e2, e1]
  subst hg
  obtain ⟨X, Y, Z⟩ := one
  obtain ⟨-, h3, h4⟩ := hone
  simp only at hZ h3 h4
  subst hZ
  simp only [one_pow, mul_one] at h3 h4
  subst h3 h4
  rw [hm] at hP'
  cases P' with
  | zero => exact absurd hP' one_ne_zero
  | some u v hu =>
    obtain ⟨-, h5, h6⟩ := hP'
    simp only [one_pow, mul_one] at h5 h6
    exact weier_some_eq h5 h6

end Libff
