import Verif.Model.TowerParams
import Mathlib.FieldTheory.Finite.Basic

/-! # What the static data of an extension field have to satisfy -/
namespace Libff

/-- The static members of an extension field `L` (whose elements are built by `dec` from the integers in
the source) agree with the field: `euler = (|L|-1)/2`, `|L| - 1 = 2^s t` with `t` odd and
`t_minus_1_over_2 = (t-1)/2`, `nqr` is not a square, and `nqr_to_t = nqr^t`. -/
structure ExtField.Consistent {E L : Type} [Field L] [Fintype L] (D : ExtField E) (dec : E → L) : Prop where
  euler : 2 * D.euler + 1 = Fintype.card L
  s_pos : 0 < D.s
  card : Fintype.card L = 2 ^ D.s * D.t + 1
  t_odd : D.t = 2 * D.tMinus1Over2 + 1
  nqr : ¬ IsSquare (dec D.nqr)
  nqrToT : dec D.nqrToT = dec D.nqr ^ D.t

end Libff
