import Verif.Model.PairingMnt
import Verif.Lemmas.FpType
import Verif.Props.Ext
import Mathlib.Algebra.GroupWithZero.Units.Basic
import Mathlib.Tactic.Ring

/-!
# Final exponentiation of mnt4, mnt6 and edwards
-/
namespace Libff
namespace FinalExpW

/-- The facts that these final exponentiations rely on: `N` is the order of the cyclotomic subgroup, `C` the exponent of the
first chunk. -/
structure OK {L : Type*} [Field L] (F : FinalExpW L) (q N C : ℕ) : Prop where
  frob : ∀ k x, F.frob k x = x ^ q ^ k
  cexp : ∀ x : L, x ^ N = 1 → ∀ e : List Limb, val e + 2 ≤ 2 ^ (64 * e.length) → F.cexp x e = .ok (x ^ val e)
  cyc : ∀ x : L, x ≠ 0 → (x ^ C) ^ N = 1
  w0 : val F.w0 + 2 ≤ 2 ^ (64 * F.w0.length)
  w1 : val F.w1 + 2 ≤ 2 ^ (64 * F.w1.length)

variable {L : Type*} [Field L] {F : FinalExpW L} {q N C : ℕ}

theorem OK.lastChunk_eq (h : F.OK q N C) {x : L} (hx0 : x ≠ 0) (hx : x ^ N = 1) :
    F.lastChunk x x⁻¹ = .ok (x ^ ((val F.w1 : ℤ) * q + if F.w0Neg then -(val F.w0 : ℤ) else val F.w0)) := by
  unfold lastChunk
  have e1 : F.cexp (F.frob 1 x) F.w1 = .ok (x ^ (q * val F.w1)) := by
    rw [h.frob, pow_one, h.cexp _ (by rw [← pow_mul, mul_comm, pow_mul, hx, one_pow]) _ h.w1, ← pow_mul]
  simp only [e1, Outcome.bind]
  cases F.w0Neg
  · simp only [Bool.false_eq_true, if_false]
    rw [h.cexp _ hx _ h.w0, Outcome.map_ok]
    congr 1
    rw [zpow_add₀ hx0, zpow_natCast, ← Nat.cast_mul, zpow_natCast, mul_comm (val F.w1)]
  · simp only [if_true]
    rw [h.cexp _ (by rw [inv_pow, hx, inv_one]) _ h.w0, Outcome.map_ok]
    congr 1
    rw [zpow_add₀ hx0, zpow_neg, zpow_natCast, ← Nat.cast_mul, zpow_natCast, mul_comm (val F.w1), inv_pow]

variable [InverseO L] [LawfulInverse L]

theorem OK.finalExponentiation_eq (h : F.OK q N C) {first : L → L → L} (hf : ∀ x : L, x ≠ 0 → first x x⁻¹ = x ^ C) {x : L} (hx : x ≠ 0) :
    F.finalExponentiation first x =
      .ok ((x ^ C) ^ ((val F.w1 : ℤ) * q + if F.w0Neg then -(val F.w0 : ℤ) else val F.w0)) := by
  unfold finalExponentiation
  rw [LawfulInverse.inverseO_ne x hx]
  have e2 : first x⁻¹ x = (x ^ C)⁻¹ := by
    have := hf x⁻¹ (inv_ne_zero hx)
    rwa [inv_inv, inv_pow] at this
  simp only [Outcome.bind, hf x hx, e2]
  exact h.lastChunk_eq (pow_ne_zero _ hx) (h.cyc x hx)

theorem finalExponentiation_zero (first : L → L → L) : F.finalExponentiation first 0 = .abort := by
  unfold finalExponentiation
  rw [LawfulInverse.inverseO_zero]; rfl

omit [InverseO L] [LawfulInverse L] in
theorem OK.firstChunk4_eq (h : F.OK q N C) (hq : 0 < q) (x : L) (hx : x ≠ 0) : F.firstChunk4 x x⁻¹ = x ^ (q ^ 2 - 1) := by
  unfold firstChunk4
  simp only [h.frob]
  rw [pow_sub₀ x hx (Nat.one_le_pow _ _ hq), pow_one]

omit [InverseO L] [LawfulInverse L] in
theorem OK.firstChunk6_eq (h : F.OK q N C) (hq : 0 < q) (x : L) (hx : x ≠ 0) :
    F.firstChunk6 x x⁻¹ = x ^ ((q ^ 3 - 1) * (q + 1)) := by
  unfold firstChunk6
  simp only [h.frob]
  have e : x ^ q ^ 3 * x⁻¹ = x ^ (q ^ 3 - 1) := by rw [pow_sub₀ x hx (Nat.one_le_pow _ _ hq), pow_one]
  rw [e, pow_one, ← pow_succ, ← pow_mul]

end FinalExpW
end Libff
