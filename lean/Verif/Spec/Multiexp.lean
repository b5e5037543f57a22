import Verif.Spec.Group
import Verif.Model.Multiexp
import Mathlib.Algebra.Group.Nat.Defs
import Mathlib.Algebra.BigOperators.Group.List.Defs

/-!
# What multi-exponentiation computes
-/
namespace Libff

/-- `∑ scalarᵢ · baseᵢ` in the group. -/
def multiSum {G S A : Type*} [AddCommGroup A] (ψ : G → A) (toB : S → List Limb) (bases : List G)
    (scalars : List S) : A :=
  ((bases.zip scalars).map fun gs => val (toB gs.2) • ψ gs.1).sum

/-- The contract of `std::make_heap` with `operator<` of `ordered_exponent`: the same entries in an order
in which no entry is larger than its parent. -/
def IsMakeHeap (mk : List OrderedExponent → List OrderedExponent) : Prop :=
  ∀ l, (mk l).Perm l ∧ ∀ i j (hi : i < (mk l).length) (hj : j < (mk l).length), 0 < i → j = (i - 1) / 2 →
    val (mk l)[i].r ≤ val (mk l)[j].r

end Libff
