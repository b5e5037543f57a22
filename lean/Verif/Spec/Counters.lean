import Verif.Model.Counters
import Mathlib.Data.Nat.Size

/-!
# What the operation counters should show
-/
namespace Libff

/-- A call of a field operation with its arguments. -/
inductive Call (K : Type)
  | add (x y : K) | sub (x y : K) | mul (x y : K) | squared (x : K) | inverse (x : K)

/-- The operations without counters. -/
structure PureOps (K : Type) where
  add : K → K → K
  sub : K → K → K
  neg : K → K
  mul : K → K → K
  squared : K → K
  inverse : K → Outcome K

namespace Call
variable {K C : Type}

/-- The counter that should count the call. -/
def kind : Call K → Kind
  | .add _ _ => .add
  | .sub _ _ => .sub
  | .mul _ _ => .mul
  | .squared _ => .sqr
  | .inverse _ => .inv

/-- The result of a call. -/
def value (P : PureOps K) : Call K → Outcome K
  | .add x y => .ok (P.add x y)
  | .sub x y => .ok (P.sub x y)
  | .mul x y => .ok (P.mul x y)
  | .squared x => .ok (P.squared x)
  | .inverse x => P.inverse x

/-- The results of a sequence of calls. -/
def values (P : PureOps K) : List (Call K) → Outcome (List K)
  | [] => .ok []
  | c :: cs => (c.value P).bind fun v => (values P cs).map (v :: ·)

/-- A call in the program with counters. -/
def exec (F : CField C K) : Call K → CM C K
  | .add x y => F.add x y
  | .sub x y => F.sub x y
  | .mul x y => F.mul x y
  | .squared x => F.squared x
  | .inverse x => F.inverse x

/-- A sequence of calls in the program with counters. -/
def execs (F : CField C K) : List (Call K) → Counters C → Outcome (List K × Counters C)
  | [], s => .ok ([], s)
  | c :: cs, s => (c.exec F s).bind fun r => (execs F cs r.2).map fun t => (r.1 :: t.1, t.2)

end Call

/-- The program `F` counts the calls of class `c`: whatever operations are called, in whatever order and with whatever arguments, the
results are those of the operations without counters, and each counter of the class has grown by the number of calls of its kind. -/
def CountsCalls {C K : Type} (F : CField C K) (P : PureOps K) (c : C) : Prop :=
  ∀ (h : List (Call K)) (s : Counters C),
    match Call.values P h with
    | .ok vs => ∃ s', Call.execs F h s = .ok (vs, s') ∧ ∀ k, s' c k = s c k + (h.countP fun a => decide (a.kind = k))
    | .abort => Call.execs F h s = .abort
    | .ub => Call.execs F h s = .ub

/-- The operations of a class in the value model. -/
def pureOps (K : Type) [Add K] [Sub K] [Neg K] [Mul K] [Squared K] [InverseO K] : PureOps K where
  add := (· + ·)
  sub := (· - ·)
  neg := (- ·)
  mul := (· * ·)
  squared := squared
  inverse := inverseO

/-- Numbers of prime field operations: additions, subtractions and negations, products, squarings, inversions. -/
structure OpCounts where
  add : Int
  sub : Int
  mul : Int
  sqr : Int
  inv : Int
  deriving DecidableEq

/-- The counters of class `c` in state `s`. -/
def OpCounts.of {C : Type} (s : Counters C) (c : C) : OpCounts := ⟨s c .add, s c .sub, s c .mul, s c .sqr, s c .inv⟩

instance OpCounts.instAdd : Add OpCounts := ⟨fun a b => ⟨a.add + b.add, a.sub + b.sub, a.mul + b.mul, a.sqr + b.sqr, a.inv + b.inv⟩⟩

/-- What each operation of a class costs. -/
structure OpTable where
  add : OpCounts
  sub : OpCounts
  neg : OpCounts
  mul : OpCounts
  squared : OpCounts
  inverse : OpCounts

/-- Every operation of `F`, whatever its arguments and whatever happened before, adds the entry of the table to the counters of
class `c`. -/
def HasCost {C K : Type} (F : CField C K) (P : PureOps K) (c : C) (T : OpTable) : Prop :=
  ∀ s : Counters C,
    (∀ x y, ∃ s', F.add x y s = .ok (P.add x y, s') ∧ OpCounts.of s' c = OpCounts.of s c + T.add) ∧
    (∀ x y, ∃ s', F.sub x y s = .ok (P.sub x y, s') ∧ OpCounts.of s' c = OpCounts.of s c + T.sub) ∧
    (∀ x, ∃ s', F.neg x s = .ok (P.neg x, s') ∧ OpCounts.of s' c = OpCounts.of s c + T.neg) ∧
    (∀ x y, ∃ s', F.mul x y s = .ok (P.mul x y, s') ∧ OpCounts.of s' c = OpCounts.of s c + T.mul) ∧
    (∀ x, ∃ s', F.squared x s = .ok (P.squared x, s') ∧ OpCounts.of s' c = OpCounts.of s c + T.squared) ∧
    ∀ x v, P.inverse x = .ok v → ∃ s', F.inverse x s = .ok (v, s') ∧ OpCounts.of s' c = OpCounts.of s c + T.inverse

/-- The number of multiplications of square-and-multiply from the top bit, the first one being a multiplication of `1`: a squaring
for each bit after the first, a product for each one bit. -/
def powMuls (e : Nat) : Nat := (Nat.size e - 1) + (List.range (Nat.size e)).countP e.testBit

end Libff
