import Verif.Model.Cost
import Mathlib.Data.Nat.Size

/-!
# What a computation costs
-/
namespace Libff

/-- The computation `r` with recorded calls returns what `o` returns, and whatever the record was before, it grows by numbers of calls
that satisfy `cost`. -/
def Run.Costs {α : Type} (r : Run α) (o : Outcome α) (cost : Calls → Prop) : Prop :=
  ∀ s, match o with
    | .ok v => ∃ n, r s = .ok (v, s + n) ∧ cost n
    | .abort => r s = .abort
    | .ub => r s = .ub

/-- The number of ones among the lowest `k` bits. -/
def onesBelow (v k : Nat) : Nat := (List.range k).countP v.testBit

/-- The number of ones in the binary expansion. -/
def numOnes (v : Nat) : Nat := onesBelow v v.size

end Libff
