import Verif.Model.GroupCounters
import Verif.Spec.GroupRel
import Mathlib.Data.Nat.Size

/-!
# What the operation counters of a group class should show
-/
namespace Libff

/-- Counters grow by a tally, componentwise. -/
instance GCnt.instAdd : Add GCnt := ⟨fun s t => ⟨s.add_cnt + t.add_cnt, s.dbl_cnt + t.dbl_cnt⟩⟩

open Classical in
/-- A way of counting the sum of `P` and `Q`: nothing when one of them is zero, `same` when they are equal, and `other` otherwise. -/
noncomputable def tally {A : Type} [AddCommGroup A] (other same : GCnt) (P Q : A) : GCnt :=
  if P = 0 ∨ Q = 0 then ⟨0, 0⟩ else if P = Q then same else other

/-- What a user expects: a sum of different points is one addition, a sum of equal points one doubling. -/
noncomputable def sumTally {A : Type} [AddCommGroup A] : A → A → GCnt := tally ⟨1, 0⟩ ⟨0, 1⟩

/-- The operations with counters return what those without return; `+` grows the counters by the tally `T` of the points denoted,
`-` by the tally of `P` and `-Q`, and `dbl` counts one doubling. -/
structure CountsBy {G A : Type} [AddCommGroup A] (ops : GroupOps G) (Rep : G → A → Prop) (C : CountedOps G) (T : A → A → GCnt) : Prop where
  zero : C.zero = ops.zero
  add : ∀ {p q P Q} (s : GCnt), Rep p P → Rep q Q → C.add p q s = (ops.add p q, s + T P Q)
  sub : ∀ {p q P Q} (s : GCnt), Rep p P → Rep q Q → C.sub p q s = (ops.sub p q, s + T P (-Q))
  dbl : ∀ {p P} (s : GCnt), Rep p P → C.dbl p s = (ops.dbl p, s + ⟨0, 1⟩)

/-- The number of ones in the binary expansion. -/
def onesOf (k : Nat) : Nat := (List.range k.size).countP k.testBit

end Libff
