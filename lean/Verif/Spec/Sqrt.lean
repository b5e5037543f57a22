import Verif.Model.Algorithms
import Verif.Spec.Limbs
import Mathlib.FieldTheory.Finite.Basic

/-! # What the square-root constants of a field have to satisfy -/
namespace Libff

/-- `|K| - 1 = 2^s * t` with `t` odd and `s > 0`, `t_minus_1_over_2 = (t-1)/2`, `nqr` is not a square
and `nqr_to_t = nqr^t`. -/
structure SqrtConsts.Valid {K : Type*} [Field K] [Fintype K] (C : SqrtConsts K) : Prop where
  s_pos : 0 < C.s
  card : Fintype.card K = 2 ^ C.s * val C.t + 1
  t_odd : val C.t = 2 * val C.tMinus1Over2 + 1
  nqr : ¬ IsSquare C.nqr
  nqrToT : C.nqrToT = C.nqr ^ val C.t

end Libff
