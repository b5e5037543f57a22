import Verif.Model.Params
import Verif.Spec.Limbs
import Mathlib.FieldTheory.Finite.Basic

/-! # What the static data of a prime field have to satisfy -/
namespace Libff

/-- The static members of a prime field agree with its modulus `p`: the Montgomery constants are right
(`P.Valid`), `p` is prime and has `num_bits` bits filling its limbs, `euler = (p-1)/2`,
`p - 1 = 2^s t` with `t` odd and `t_minus_1_over_2 = (t-1)/2`, `multiplicative_generator` generates the
multiplicative group, `root_of_unity` has order exactly `2^s`, `nqr` is not a square, and
`nqr_to_t = nqr^t`. -/
structure PrimeField.Consistent (D : PrimeField) : Prop where
  params : D.P.Valid
  prime : D.P.p.Prime
  bits_lo : 2 ^ (D.numBits - 1) ≤ D.P.p
  bits_hi : D.P.p < 2 ^ D.numBits
  limbs : 64 * (D.P.n - 1) < D.numBits ∧ D.numBits ≤ 64 * D.P.n
  euler : 2 * D.euler + 1 = D.P.p
  s_pos : 0 < D.s
  card : D.P.p = 2 ^ D.s * D.t + 1
  t_odd : D.t = 2 * D.tMinus1Over2 + 1
  generator : orderOf (D.multGen : ZMod D.P.p) = D.P.p - 1
  root : orderOf (D.rootOfUnity : ZMod D.P.p) = 2 ^ D.s
  nqr : ¬ IsSquare (D.nqr : ZMod D.P.p)
  nqrToT : (D.nqrToT : ZMod D.P.p) = (D.nqr : ZMod D.P.p) ^ D.t

end Libff
