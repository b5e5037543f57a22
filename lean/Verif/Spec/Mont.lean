import Verif.Spec.FpParams
import Mathlib.Data.ZMod.Basic

/-!
# What a stored field element denotes

`Represents P l x`: the limb vector `l` is the unique stored form of the residue `x` mod `p`:
`n` limbs, reduced below `p`, and equal to `x · R` mod `p` with `R = 2^(64 n)` (Montgomery form).
-/
namespace Libff

structure Represents (P : FpParams) (l : List Limb) (x : ZMod P.p) : Prop where
  len : l.length = P.n
  lt : val l < P.p
  eq : (val l : ZMod P.p) = x * 2 ^ (64 * P.n)

end Libff
