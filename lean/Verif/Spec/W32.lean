import Verif.Model.W32
import Mathlib.Data.ZMod.Basic

/-!
# Conditions on the static data of a prime field and stored elements, with limbs of 32 bits
-/
namespace Libff.W32

/-- The modulus as a number. -/
abbrev FpParams.p (P : FpParams) : Nat := val P.modulus

/-- Correct static data: the modulus has `n` limbs with a nonzero top limb and a clear top bit,
`inv = -p⁻¹ mod 2^32`, `Rsquared = R² mod p`, `Rcubed = R³ mod p` with `R = 2^(32 n)`. -/
structure FpParams.Valid (P : FpParams) : Prop where
  len : P.modulus.length = P.n
  n_pos : 0 < P.n
  one_lt : 1 < P.p
  topLimb : P.modulus.getLast?.getD 0 ≠ 0
  topBit : 2 * P.p ≤ 2 ^ (32 * P.n)
  inv : (P.inv.toNat * P.p + 1) % 2 ^ 32 = 0
  r2len : P.Rsquared.length = P.n
  r2 : val P.Rsquared = (2 ^ (32 * P.n)) ^ 2 % P.p
  r3len : P.Rcubed.length = P.n
  r3 : val P.Rcubed = (2 ^ (32 * P.n)) ^ 3 % P.p

instance (P : FpParams) : Decidable P.Valid :=
  decidable_of_iff
    (P.modulus.length = P.n ∧ 0 < P.n ∧ 1 < P.p ∧ P.modulus.getLast?.getD 0 ≠ 0 ∧
      2 * P.p ≤ 2 ^ (32 * P.n) ∧ (P.inv.toNat * P.p + 1) % 2 ^ 32 = 0 ∧
      P.Rsquared.length = P.n ∧ val P.Rsquared = (2 ^ (32 * P.n)) ^ 2 % P.p ∧
      P.Rcubed.length = P.n ∧ val P.Rcubed = (2 ^ (32 * P.n)) ^ 3 % P.p)
    ⟨fun ⟨a, b, c, d, e, f, g, h, i, j⟩ => ⟨a, b, c, d, e, f, g, h, i, j⟩,
     fun ⟨a, b, c, d, e, f, g, h, i, j⟩ => ⟨a, b, c, d, e, f, g, h, i, j⟩⟩

/-- GMP's documented contract of `mpn_gcdext` for operands of equal size with a nonzero top limb in
the second: `G = gcd(U,V) = U S + V T`, `S = 1` or `|S| < V/(2G)`, limb counts are exact
(no leading zero limbs). -/
structure Gcdext.Contract (gx : Gcdext) : Prop where
  gcd : ∀ u v : List Limb, u.length = v.length → v.getLast?.getD 0 ≠ 0 → val u ≠ 0 →
    val (gx u v).g = Nat.gcd (val u) (val v)
  gnorm : ∀ u v : List Limb, u.length = v.length → v.getLast?.getD 0 ≠ 0 → val u ≠ 0 →
    (gx u v).g.getLast?.getD 0 ≠ 0
  bezout : ∀ u v : List Limb, u.length = v.length → v.getLast?.getD 0 ≠ 0 → val u ≠ 0 →
    ∃ t : Int, (val (gx u v).g : Int) =
      val u * (if (gx u v).neg then -(val (gx u v).s : Int) else val (gx u v).s) + val v * t
  bound : ∀ u v : List Limb, u.length = v.length → v.getLast?.getD 0 ≠ 0 → val u ≠ 0 →
    ((gx u v).neg = false ∧ val (gx u v).s = 1) ∨
      2 * val (gx u v).g * val (gx u v).s < val v
  snorm : ∀ u v : List Limb, u.length = v.length → v.getLast?.getD 0 ≠ 0 → val u ≠ 0 →
    (gx u v).s = [] ∨ (gx u v).s.getLast?.getD 0 ≠ 0

/-- `l` is the stored form of the residue `x`: `n` limbs, below `p`, Montgomery form with `R = 2^(32 n)`. -/
structure Represents (P : FpParams) (l : List Limb) (x : ZMod P.p) : Prop where
  len : l.length = P.n
  lt : val l < P.p
  eq : (val l : ZMod P.p) = x * 2 ^ (32 * P.n)

end Libff.W32
